import Verif.Group.Lemmas
import Verif.Subgroup.Props
import Mathlib.Data.ZMod.Basic
import Mathlib.Algebra.Group.Prod

/-!
# C29, C30, C31, C33: generators and points
-/

namespace Ecgen.Group

open AddSubgroup

variable {A : Type} [AddCommGroup A]

/-! ### C31 -/

/-- every printed generator has the right order, and order times cofactor is the group order -/
theorem gens_any [Finite A] (ord : A → Nat) (hord : ∀ P, ord P = addOrderOf P) (gens : List A) :
    ∀ g ∈ gensAny ord (Nat.card A) gens, g.order = addOrderOf g.point ∧ g.order * g.cofactor = Nat.card A := by
  intro g hg
  unfold gensAny at hg
  rw [List.mem_map] at hg
  obtain ⟨P, _, rfl⟩ := hg
  simp only [gensPoint, hord]
  exact ⟨trivial, Nat.mul_div_cancel' (addOrderOf_dvd_natCard P)⟩

/-- the printed points generate the group -/
theorem gens_generate (gens : List A) (hg : GensSpec A gens) (ord : A → Nat) (n : Nat) :
    closure {x | x ∈ (gensAny ord n gens).map Pt.point} = ⊤ := by
  have e : (gensAny ord n gens).map Pt.point = gens := by
    unfold gensAny; rw [List.map_map]; exact List.map_id gens
  rw [e, eq_top_iff']
  match gens, hg with
  | [], hg => intro x; rw [hg x]; exact zero_mem _
  | [g], hg =>
    intro x
    obtain ⟨k, rfl⟩ := mem_zmultiples_iff.1 (hg.2 x)
    exact zsmul_mem (subset_closure (by simp)) k
  | [g, h], hg =>
    intro x
    obtain ⟨a, b, rfl⟩ := hg.2.2.2 x
    exact add_mem (zsmul_mem (subset_closure (by simp)) a) (zsmul_mem (subset_closure (by simp)) b)

/-- C31, unique generator: the stage accepts exactly the cyclic groups, and then the printed generator generates the
group, has the group order and cofactor one (the trivial group has no generator) -/
theorem gens_one [Finite A] (ord : A → Nat) (hord : ∀ P, ord P = addOrderOf P) (gens : List A)
    (hg : GensSpec A gens) :
    (gensOne ord (Nat.card A) gens = none ∧ ¬ IsAddCyclic A) ∨
    (IsAddCyclic A ∧
      ((gensOne ord (Nat.card A) gens = some [] ∧ Nat.card A = 1) ∨
       ∃ g, gensOne ord (Nat.card A) gens = some [g] ∧ (∀ x : A, x ∈ zmultiples g.point) ∧
        g.order = Nat.card A ∧ g.cofactor = 1)) := by
  match gens, hg with
  | [], hg =>
    right
    have hs : Subsingleton A := ⟨fun x y => by rw [hg x, hg y]⟩
    have : Nonempty A := ⟨0⟩
    exact ⟨isAddCyclic_of_subsingleton, Or.inl ⟨rfl, Nat.card_unique⟩⟩
  | [g], hg =>
    right
    have hc := card_one g hg.2
    have hpos : 0 < addOrderOf g := addOrderOf_pos g
    refine ⟨⟨⟨g, hg.2⟩⟩, Or.inr ⟨gensPoint ord (Nat.card A) g, rfl, hg.2, ?_, ?_⟩⟩
    · show ord g = _
      rw [hord, hc]
    · show Nat.card A / ord g = 1
      rw [hord, hc, Nat.div_self hpos]
  | [g, h], hg =>
    left
    exact ⟨rfl, not_cyclic g h hg.1 hg.2.1 hg.2.2.1 hg.2.2.2⟩

/-- C31, cofactor `k`, for an order `n = k q` with a prime `q` that does not divide `k`: the stage accepts exactly the
cyclic groups, the first printed generator has order `q` and cofactor `k`, the others are PARI's generators with their
orders and cofactors -/
theorem gens_cofactor_partial [Finite A] (ord : A → Nat) (hord : ∀ P, ord P = addOrderOf P) (gens : List A)
    (hg : GensSpec A gens) (k q : Nat) (hq : q.Prime) (hn : Nat.card A = k * q) (hk : ¬ q ∣ k) :
    (gensCofactor ord (Nat.card A) k gens = none ∧ ¬ IsAddCyclic A) ∨
    ∃ p, gensCofactor ord (Nat.card A) k gens = some (p :: gensAny ord (Nat.card A) gens) ∧ IsAddCyclic A ∧
      p.order = q ∧ addOrderOf p.point = q ∧ p.cofactor = k ∧ p.order * p.cofactor = Nat.card A := by
  have hk0 : 0 < k := by
    rcases Nat.eq_zero_or_pos k with rfl | h
    · exact absurd (Dvd.intro 0 (Nat.mul_zero q)) hk
    · exact h
  have hnk : Nat.card A / k = q := by rw [hn, Nat.mul_div_cancel_left _ hk0]
  have hq1 := hq.one_lt
  match gens, hg with
  | [], hg =>
    exfalso
    have hs : Subsingleton A := ⟨fun x y => by rw [hg x, hg y]⟩
    have : Nonempty A := ⟨0⟩
    have h1 : Nat.card A = 1 := Nat.card_unique
    rw [h1] at hn
    have := Nat.eq_one_of_mul_eq_one_left hn.symm
    omega
  | [g], hg =>
    right
    have hc := card_one g hg.2
    have hcyc : IsAddCyclic A := ⟨⟨g, hg.2⟩⟩
    unfold gensCofactor findCofactor
    rw [hnk, hord, ← hc]
    by_cases h1 : q = Nat.card A
    · rw [if_pos h1]
      refine ⟨_, rfl, hcyc, h1.symm, ?_, rfl, ?_⟩
      · show addOrderOf g = q
        rw [← hc, ← h1]
      · show Nat.card A * k = Nat.card A
        have : k * q = 1 * q := by rw [← hn, Nat.one_mul]; exact h1.symm
        have := Nat.eq_of_mul_eq_mul_right hq.pos this
        rw [this, Nat.mul_one]
    · rw [if_neg h1, if_pos (hn ▸ Dvd.intro q rfl)]
      refine ⟨_, rfl, hcyc, hnk, ?_, rfl, ?_⟩
      · show addOrderOf (k • g) = q
        rw [addOrderOf_nsmul_of_dvd (by omega) (by rw [← hc, hn]; exact Dvd.intro q rfl), ← hc, hnk]
      · show Nat.card A / k * k = Nat.card A
        rw [hnk, hn, Nat.mul_comm]
  | [g, h], hg =>
    left
    have hnc := not_cyclic g h hg.1 hg.2.1 hg.2.2.1 hg.2.2.2
    refine ⟨?_, hnc⟩
    have hc := card_two g h hg.2.2.1 hg.2.2.2
    have hgpos : 0 < addOrderOf g := addOrderOf_pos g
    have h2 : 2 ≤ addOrderOf h := by
      have : addOrderOf h ≠ 1 := fun e => hg.1 (AddMonoid.addOrderOf_eq_one_iff.1 e)
      have := addOrderOf_pos h
      omega
    have hdvd := hg.2.1
    have hmul : addOrderOf g * addOrderOf h = k * q := by rw [← hc, hn]
    -- the prime does not divide the order of `h`
    have hqh : ¬ q ∣ addOrderOf h := by
      intro hh
      have h3 : q * q ∣ k * q := by rw [← hmul]; exact Nat.mul_dvd_mul (hh.trans hdvd) hh
      exact hk (Nat.dvd_of_mul_dvd_mul_right hq.pos h3)
    have hcop : Nat.Coprime q (addOrderOf h) := (Nat.Prime.coprime_iff_not_dvd hq).2 hqh
    have hhk : addOrderOf h ∣ k :=
      hcop.symm.dvd_of_dvd_mul_right (hmul ▸ Dvd.intro_left _ rfl)
    have n1 : q ≠ addOrderOf g := by
      intro e
      rcases (Nat.dvd_prime hq).1 (e ▸ hdvd) with h3 | h3
      · omega
      · exact hqh (by rw [h3])
    have n2 : ¬ k ∣ addOrderOf g := by
      intro e
      have hkq : Nat.Coprime k q := ((Nat.Prime.coprime_iff_not_dvd hq).2 hk).symm
      have hqg : q ∣ addOrderOf g := by
        have : q ∣ addOrderOf g * addOrderOf h := hmul ▸ Dvd.intro_left k rfl
        exact hcop.dvd_of_dvd_mul_right this
      have h3 : k * q ∣ addOrderOf g := Nat.Coprime.mul_dvd_of_dvd_of_dvd hkq e hqg
      have h4 := Nat.le_of_dvd hgpos h3
      rw [← hmul] at h4
      have : addOrderOf g * 2 ≤ addOrderOf g * addOrderOf h := Nat.mul_le_mul_left _ h2
      omega
    have n3 : q ≠ addOrderOf h := fun e => hqh (by rw [← e])
    have n4 : ¬ k ∣ addOrderOf h := fun e => n2 (e.trans hdvd)
    unfold gensCofactor findCofactor
    rw [hnk, hord, if_neg n1, if_neg n2]
    unfold findCofactor
    rw [hnk, hord, if_neg n3, if_neg n4]
    rfl

/-- C31 is false when the prime divides the cofactor: in the group `Z/4 × Z/2` (of the curve `y² = x³ - x` over
`F_5`, say) with cofactor 4, the order 8 is 4 times the prime 2, but the printed first "generator" is the point at
infinity, with order 1. -/
theorem gens_cofactor_false (ord : ZMod 4 × ZMod 2 → Nat) (hord : ∀ P, ord P = addOrderOf P) :
    GensSpec (ZMod 4 × ZMod 2) [(1, 0), (0, 1)] ∧ Nat.card (ZMod 4 × ZMod 2) = 4 * 2 ∧ Nat.Prime 2 ∧
    ∃ p l, gensCofactor ord (Nat.card (ZMod 4 × ZMod 2)) 4 [(1, 0), (0, 1)] = some (p :: l) ∧
      p.point = 0 ∧ p.order = 1 := by
  have o1 : addOrderOf ((1, 0) : ZMod 4 × ZMod 2) = 4 := by
    rw [addOrderOf_eq_iff (by decide)]
    exact ⟨by decide, by decide⟩
  have o2 : addOrderOf ((0, 1) : ZMod 4 × ZMod 2) = 2 := by
    rw [addOrderOf_eq_iff (by decide)]
    exact ⟨by decide, by decide⟩
  have hc : Nat.card (ZMod 4 × ZMod 2) = 8 := by
    rw [Nat.card_prod, Nat.card_zmod, Nat.card_zmod]
  refine ⟨⟨by decide, by rw [o1, o2]; decide, ?_, ?_⟩, hc, Nat.prime_two, ?_⟩
  · rw [disjoint_iff_inf_le]
    rintro ⟨x, y⟩ ⟨h1, h2⟩
    obtain ⟨a, ha⟩ := mem_zmultiples_iff.1 h1
    obtain ⟨b, hb⟩ := mem_zmultiples_iff.1 h2
    rw [mem_bot]
    rw [Prod.smul_mk, Prod.mk.injEq] at ha hb
    exact Prod.ext (by rw [← hb.1]; simp) (by rw [← ha.2]; simp)
  · rintro ⟨x, y⟩
    refine ⟨x.val, y.val, ?_⟩
    rw [Prod.smul_mk, Prod.smul_mk, Prod.mk_add_mk]
    exact Prod.ext (by simp) (by simp)
  · unfold gensCofactor findCofactor
    rw [hc, hord, o1, if_neg (by decide), if_pos (by decide)]
    exact ⟨_, _, rfl, by decide, rfl⟩

/-! ### C29 -/

/-- C29: a point for a subgroup order dividing the order of the generator has exactly that order and is a multiple of the
generator -/
theorem from_orders (g : Pt A) (hg : g.order = addOrderOf g.point) (hpos : 0 < g.order) (orders : List Nat)
    (ho : ∀ d ∈ orders, d ∣ g.order) :
    (fromOrders g orders).length = orders.length ∧
    ∀ i (hi : i < orders.length), ∃ p, (fromOrders g orders)[i]? = some (some p) ∧ p.order = orders[i] ∧
      addOrderOf p.point = orders[i] ∧ p.point ∈ zmultiples g.point := by
  refine ⟨by simp [fromOrders], fun i hi => ?_⟩
  have hd := ho orders[i] (List.getElem_mem hi)
  have e : (fromOrders g orders)[i]? = some (fromOrder g orders[i]) := by
    simp [fromOrders, hi]
  rw [e]
  generalize orders[i] = d at hd
  unfold fromOrder
  split
  · rename_i h
    exact ⟨_, rfl, rfl, by rw [← h, hg], mem_zmultiples _⟩
  · refine ⟨_, rfl, rfl, ?_, nsmul_mem (mem_zmultiples _) _⟩
    obtain ⟨c, hc⟩ := hd
    have hd0 : 0 < d := by rcases Nat.eq_zero_or_pos d with rfl | h; · rw [Nat.zero_mul] at hc; omega
                           · exact h
    have hc0 : 0 < c := by rcases Nat.eq_zero_or_pos c with rfl | h; · rw [Nat.mul_zero] at hc; omega
                           · exact h
    have hdiv : g.order / d = c := by rw [hc, Nat.mul_div_cancel_left _ hd0]
    rw [hdiv, addOrderOf_nsmul_of_dvd hc0.ne' (by rw [← hg, hc]; exact Dvd.intro_left d rfl), ← hg, hc,
      Nat.mul_div_cancel _ hc0]

/-- the points for a sorted list of divisors -/
theorem points_of_orders (g : Pt A) (h1 : g.order = addOrderOf g.point) (h2 : 0 < g.order) (orders : List Nat)
    (ho : ∀ d ∈ orders, d ∣ g.order) (hs : orders.Pairwise (· < ·)) {P : Nat → Prop}
    (hP : ∀ d, d ∈ orders ↔ P d) :
    ∃ ps : List (Pt A), fromOrders g orders = ps.map some ∧
    (ps.map Pt.order).Pairwise (· < ·) ∧ (∀ d, d ∈ ps.map Pt.order ↔ P d) ∧
    ∀ p ∈ ps, addOrderOf p.point = p.order ∧ p.point ∈ zmultiples g.point := by
  obtain ⟨hl, hi⟩ := from_orders g h1 h2 orders ho
  choose f hf1 hf2 hf3 hf4 using hi
  have ho' : (List.ofFn fun i : Fin orders.length => f i i.2).map Pt.order = orders := by
    rw [List.map_ofFn]
    apply List.ext_getElem
    · simp
    · intro i h3 h4
      simp only [List.getElem_ofFn, Function.comp]
      exact hf2 i h4
  refine ⟨List.ofFn fun i : Fin orders.length => f i i.2, ?_, by rw [ho']; exact hs,
    fun d => by rw [ho']; exact hP d, ?_⟩
  · apply List.ext_getElem?
    intro i
    by_cases hi : i < orders.length
    · rw [hf1 i hi, List.getElem?_map, List.getElem?_ofFn, dif_pos hi]; rfl
    · rw [List.getElem?_eq_none (by omega), List.getElem?_eq_none (by simp; omega)]
  · intro p hp
    rw [List.mem_ofFn] at hp
    obtain ⟨i, rfl⟩ := hp
    exact ⟨(hf3 i i.2).trans (hf2 i i.2).symm, hf4 i i.2⟩

/-- C29 for the prime orders: for each generator the points generated have exactly the prime divisors of its order as
orders, ascending -/
theorem points_prime (isprime : Nat → Bool) (hip : ∀ n, isprime n = true ↔ n.Prime)
    (fac : Nat → List (Nat × Nat)) (hf : Subgroup.FactorSpec fac) (gens : List (Pt A))
    (hg : ∀ g ∈ gens, g.order = addOrderOf g.point ∧ 0 < g.order) :
    (pointsPrime isprime fac gens).map Sub.gen = gens ∧
    ∀ s ∈ pointsPrime isprime fac gens, ∃ ps : List (Pt A), s.points = ps.map some ∧
      (ps.map Pt.order).Pairwise (· < ·) ∧ (∀ d, d ∈ ps.map Pt.order ↔ d.Prime ∧ d ∣ s.gen.order) ∧
      ∀ p ∈ ps, addOrderOf p.point = p.order ∧ p.point ∈ zmultiples s.gen.point := by
  unfold pointsPrime
  refine ⟨by rw [List.map_map]; exact List.map_id gens, ?_⟩
  intro s hs
  rw [List.mem_map] at hs
  obtain ⟨g, hg', rfl⟩ := hs
  obtain ⟨h1, h2⟩ := hg g hg'
  obtain ⟨hsort, hmem⟩ := Subgroup.primes_spec isprime hip fac hf g.order h2
  exact points_of_orders g h1 h2 _ (fun d hd => ((hmem d).1 hd).2) hsort (fun d => hmem d)

/-- C29 for all subgroup orders, for generators of order at least two with fewer than 63 prime factors -/
theorem points_all_partial (isprime : Nat → Bool) (hip : ∀ n, isprime n = true ↔ n.Prime)
    (fac : Nat → List (Nat × Nat)) (hf : Subgroup.FactorSpec fac) (gens : List (Pt A))
    (hg : ∀ g ∈ gens, g.order = addOrderOf g.point ∧ 2 ≤ g.order ∧ g.order.primeFactorsList.length < 63) :
    ∃ subs, pointsAll isprime fac gens = some subs ∧ subs.map Sub.gen = gens ∧
    ∀ s ∈ subs, ∃ ps : List (Pt A), s.points = ps.map some ∧
      (ps.map Pt.order).Pairwise (· < ·) ∧ (∀ d, d ∈ ps.map Pt.order ↔ 1 < d ∧ d ∣ s.gen.order) ∧
      ∀ p ∈ ps, addOrderOf p.point = p.order ∧ p.point ∈ zmultiples s.gen.point := by
  unfold pointsAll
  apply mapM_spec
  intro g hg'
  obtain ⟨h1, h2, h3⟩ := hg g hg'
  obtain ⟨l, e, hs, hm⟩ := Subgroup.all_spec_partial isprime hip fac hf g.order h2 h3
  refine ⟨⟨g, fromOrders g l⟩, by unfold pointsAll1; rw [e]; rfl, rfl, ?_⟩
  exact points_of_orders g h1 (by omega) l (fun d hd => ((hm d).1 hd).2) hs hm

/-- C29 for the composite subgroup orders, for generators with fewer than 63 prime factors -/
theorem points_nonprime_partial (isprime : Nat → Bool) (hip : ∀ n, isprime n = true ↔ n.Prime)
    (fac : Nat → List (Nat × Nat)) (hf : Subgroup.FactorSpec fac) (gens : List (Pt A))
    (hg : ∀ g ∈ gens, g.order = addOrderOf g.point ∧ 1 ≤ g.order ∧ g.order.primeFactorsList.length < 63) :
    ∃ subs, pointsNonprime isprime fac gens = some subs ∧ subs.map Sub.gen = gens ∧
    ∀ s ∈ subs, ∃ ps : List (Pt A), s.points = ps.map some ∧
      (ps.map Pt.order).Pairwise (· < ·) ∧ (∀ d, d ∈ ps.map Pt.order ↔ 1 < d ∧ ¬ d.Prime ∧ d ∣ s.gen.order) ∧
      ∀ p ∈ ps, addOrderOf p.point = p.order ∧ p.point ∈ zmultiples s.gen.point := by
  unfold pointsNonprime
  apply mapM_spec
  intro g hg'
  obtain ⟨h1, h2, h3⟩ := hg g hg'
  rcases Subgroup.nonprime_spec_partial isprime hip fac hf g.order h2 h3 with ⟨e, hp, hall⟩ | ⟨l, e, hs, hm⟩
  · refine ⟨⟨g, []⟩, by unfold pointsNonprime1; rw [e]; rfl, rfl, [], rfl, List.Pairwise.nil, ?_, ?_⟩
    · intro d
      simp only [List.map_nil, List.not_mem_nil, false_iff]
      rintro ⟨a, b, c⟩
      exact b (hall d c a)
    · intro p hp; simp at hp
  · refine ⟨⟨g, fromOrders g l⟩, by unfold pointsNonprime1; rw [e]; rfl, rfl, ?_⟩
    exact points_of_orders g h1 (by omega) l (fun d hd => ((hm d).1 hd).2.2) hs hm

/-! ### C30 -/

/-- C30, what does hold: a generator whose order is divisible by some number of the list gets exactly one point, for the
first such number; it has that order. Other generators get no point. -/
theorem points_trial_partial (primes : List Nat) (gens : List (Pt A))
    (hg : ∀ g ∈ gens, g.order = addOrderOf g.point ∧ 0 < g.order) :
    (pointsTrial primes gens).map Sub.gen = gens ∧
    ∀ s ∈ pointsTrial primes gens,
      (s.points = [] ∧ ∀ l ∈ primes, ¬ l ∣ s.gen.order) ∨
      ∃ pre l post p, primes = pre ++ l :: post ∧ (∀ l' ∈ pre, ¬ l' ∣ s.gen.order) ∧ l ∣ s.gen.order ∧
        s.points = [some p] ∧ p.order = l ∧ addOrderOf p.point = l ∧ p.point ∈ zmultiples s.gen.point := by
  unfold pointsTrial
  refine ⟨by rw [List.map_map]; exact List.map_id gens, ?_⟩
  intro s hs
  rw [List.mem_map] at hs
  obtain ⟨g, hg', rfl⟩ := hs
  obtain ⟨h1, h2⟩ := hg g hg'
  rcases trialOrders_spec g primes with ⟨e, hn⟩ | ⟨pre, l, post, e1, hpre, hl, e⟩
  · left
    simp only [e]
    exact ⟨trivial, hn⟩
  · right
    simp only [e]
    obtain ⟨hlen, hi⟩ := from_orders g h1 h2 [l] (by simpa using hl)
    obtain ⟨p, hp, ho, ha, hz⟩ := hi 0 (by simp)
    refine ⟨pre, l, post, p, e1, hpre, hl, ?_, ho, ha, hz⟩
    simpa [fromOrders] using hp

/-- C30 is false: for a generator of order 6 and the primes 2 and 3 there is no point of order 3. -/
theorem points_trial_false :
    (⟨(1 : ZMod 6), 6, 1⟩ : Pt (ZMod 6)).order = addOrderOf (1 : ZMod 6) ∧
    ∃ s, pointsTrial [2, 3] [(⟨1, 6, 1⟩ : Pt (ZMod 6))] = [s] ∧ 3 ∣ s.gen.order ∧
      ∀ p, some p ∈ s.points → p.order ≠ 3 ∧ addOrderOf p.point ≠ 3 := by
  refine ⟨by rw [ZMod.addOrderOf_one], _, rfl, by decide, ?_⟩
  intro p hp
  have hp' : p = ⟨(3 : ZMod 6), 2, 0⟩ := by
    have h : some p ∈ [some (⟨(6 / 2) • (1 : ZMod 6), 2, 0⟩ : Pt (ZMod 6))] := hp
    rw [List.mem_singleton, Option.some.injEq] at h
    rw [h]; rfl
  subst hp'
  refine ⟨by decide, ?_⟩
  have : addOrderOf (3 : ZMod 6) = 2 := by
    rw [addOrderOf_eq_iff (by decide)]
    exact ⟨by decide, by decide⟩
  show addOrderOf (3 : ZMod 6) ≠ 3
  rw [this]; decide

/-! ### C33 -/

/-- C33: asking for `npoints` random points gives exactly that many points in total, each a non-zero multiple of its
generator with the right order. The draws are within the range of `random_range`; the group is not trivial, so there is a
generator and all generators are non-zero. -/
theorem points_random (ord : A → Nat) (hord : ∀ P, ord P = addOrderOf P) (which : Nat → Nat) (mul : Nat → Nat → Nat)
    (npoints : Nat) (gens : List (Pt A))
    (hg : ∀ g ∈ gens, g.order = addOrderOf g.point ∧ 2 ≤ g.order)
    (hw : ∀ i < npoints, which i < gens.length)
    (hm : ∀ i j (hi : i < gens.length), 1 ≤ mul i j ∧ mul i j ≤ gens[i].order - 1) :
    ∃ subs, pointsRandom ord which mul npoints gens = some subs ∧ subs.map Sub.gen = gens ∧
      (subs.map fun s => s.points.length).sum = npoints ∧
      ∀ s ∈ subs, ∀ o ∈ s.points, ∃ p, o = some p ∧ p.point ≠ 0 ∧ p.point ∈ zmultiples s.gen.point ∧
        p.order = addOrderOf p.point := by
  obtain ⟨counts, e, hlen, hsum⟩ := distribute_spec which gens.length npoints hw
  unfold pointsRandom
  rw [e]
  refine ⟨_, rfl, ?_, ?_, ?_⟩
  · apply List.ext_getElem
    · simp
    · intro i h1 h2
      simp [randomSub]
  · have : (gens.mapIdx (randomSub ord mul counts)).map (fun s => s.points.length) = counts := by
      apply List.ext_getElem
      · simp [hlen]
      · intro i h1 h2
        simp [randomSub, h2]
    rw [this, hsum]
  · intro s hs o ho
    rw [List.mem_mapIdx] at hs
    obtain ⟨i, hi, rfl⟩ := hs
    simp only [randomSub, List.mem_map] at ho
    obtain ⟨j, _, rfl⟩ := ho
    refine ⟨_, rfl, ?_⟩
    obtain ⟨h1, h2⟩ := hg gens[i] (List.getElem_mem hi)
    obtain ⟨m1, m2⟩ := hm i j hi
    unfold randomPoint
    split
    · rename_i e2
      refine ⟨?_, mem_zmultiples _, ?_⟩
      · intro h0
        have h0' : gens[i].point = 0 := h0
        rw [h0', addOrderOf_zero] at h1; omega
      · show 2 = addOrderOf gens[i].point
        omega
    · refine ⟨?_, nsmul_mem (mem_zmultiples _) _, hord _⟩
      intro h0
      have h3 := addOrderOf_dvd_of_nsmul_eq_zero h0
      have h4 := Nat.le_of_dvd (by omega) h3
      show False
      omega

/-- The hypothesis that there is a generator is needed: for a curve with a single point PARI gives no generators,
`random_range(0, 0)` returns 0, and the counter array is written outside its bounds. -/
theorem points_random_trivial_false (ord : A → Nat) (mul : Nat → Nat → Nat) (npoints : Nat) (hn : 0 < npoints) :
    pointsRandom ord (fun _ => 0) mul npoints ([] : List (Pt A)) = none := by
  have : ∀ n, distribute (fun _ => 0) 0 (n + 1) = none := by
    intro n
    unfold distribute
    induction n with
    | zero => rfl
    | succ n ih => rw [forN, ih]; rfl
  obtain ⟨n, rfl⟩ : ∃ n, npoints = n + 1 := ⟨npoints - 1, by omega⟩
  unfold pointsRandom
  rw [List.length_nil, this]
  rfl

/-- The variant without a number (`point_gen_random`) draws the multiple from `0` on, so the "random point" may be the point
at infinity. -/
theorem point_random_zero_false (ord : A → Nat) (g : Pt A) :
    ∃ s, pointRandom ord 0 0 [g] = some [s] ∧ ∃ p, s.points = [some p] ∧ p.point = 0 :=
  ⟨_, rfl, _, rfl, zero_nsmul _⟩

/-! ### Examples -/

example : GensSpec (ZMod 6) [1] := by
  refine ⟨by decide, fun x => mem_zmultiples_iff.2 ⟨x.val, by simp⟩⟩

example (ord : ZMod 6 → Nat) (hord : ∀ P, ord P = addOrderOf P) :
    ∃ p l, gensCofactor ord (Nat.card (ZMod 6)) 2 [(1 : ZMod 6)] = some (p :: l) ∧ p.point = 2 ∧ p.order = 3 := by
  unfold gensCofactor findCofactor
  rw [hord, ZMod.addOrderOf_one, Nat.card_zmod, if_neg (by decide), if_pos (by decide)]
  exact ⟨_, _, rfl, by decide, rfl⟩

example : (fromOrders (⟨1, 6, 1⟩ : Pt (ZMod 6)) [2, 3, 6]).map (Option.map Pt.point) = [some 3, some 2, some 1] := by
  decide

example : distribute (fun i => i % 2) 2 5 = some [3, 2] := by decide

end Ecgen.Group
