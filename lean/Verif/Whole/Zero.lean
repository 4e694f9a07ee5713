import Verif.Whole.Examples
import Verif.Whole.Defined
import Verif.Invalid.Primes

/-!
# C107: which arrays of a search have no entry

Memory is got from PARI's functions or from `calloc`, as chosen when the program is compiled (memory.c:8-31; PARI's are the choice made). A request for
0 bytes is where they may differ: `calloc` of the GNU C library gives a pointer, `pari_calloc` a null pointer, with which the program ends
(memory.c:33-40). The models of the searches take every request to succeed. Here it is proved when a request is for 0 bytes: the array of generators (gens.c:22-30) for a curve whose only point is the point at infinity, the arrays of points
(point.c:65-94) for a generator that is the point at infinity, the array of primes of `--invalid` (invalid.c:80-118) for a range without primes.
-/

namespace Ecgen.Whole
open Ecgen.Cli Ecgen.Cli.Setup Ecgen.Group
open AddSubgroup (closure)

/-! ### The generators -/

/-- the invariant of a search holds wherever it gets -/
theorem reached (P : Pari) (hP : P.Ok) (c : Config) (h : Covered c) (w : W) (hT : TapeOk c w.tape) (st : Engine.St W)
    (hr : Engine.Reaches (setup P c) 0 9 0 (Engine.init 0 { w with cur := {} }) st) : Inv c w.tape st.state st.w.cur ∧ Behaves c w.tape st.w := by
  refine (Engine.reaches_inv (setup P c) 0 9 0 (fun s v => s ≤ 9 ∧ Inv c w.tape s v.cur ∧ Behaves c w.tape v) ?_ ?_ _ st (Nat.zero_le _)
    ⟨Nat.zero_le _, inv_low (Nat.zero_le _) (fun _ => rfl) (fun _ => rfl) (fun h => by cases h), rfl, hT⟩ hr).2.2
  · rintro s v d v' - hs ⟨-, hi, hb⟩ hsucc
    obtain ⟨rfl, h1, h2⟩ := keep_ok P hP c h w.tape s v d v' hs hi hb hsucc
    exact ⟨by simp only [Int.toNat_one]; omega, h1, h2⟩
  · rintro s v d v' - hs ⟨-, hi, hb⟩ hf h0
    obtain ⟨h1, h2⟩ := keep_fail P hP c h w.tape s v d v' hs hi hb hf
    rcases h2 h0 with ⟨k, hk, e, h3⟩ | ⟨rfl, h3⟩
    · have e' : max ((s : Int) + d).toNat 0 = k := by omega
      rw [e']
      obtain ⟨e1, e2, e3⟩ := cleaned_keeps P c k s v'
      exact ⟨by omega, inv_low hk (e1 ▸ h3.quiet) (e2 ▸ h3.noseed) (fun hk => e2 ▸ h3.seed (by omega)), by rw [e3]; exact h1.1, h1.2⟩
    · have e' : max ((s : Int) + 0).toNat 0 = s := by omega
      rw [e', cleaned_self]
      exact ⟨by omega, h3 ▸ hi, h1⟩

theorem reached_inv (P : Pari) (hP : P.Ok) (c : Config) (h : Covered c) (w : W) (hT : TapeOk c w.tape) (st : Engine.St W)
    (hr : Engine.Reaches (setup P c) 0 9 0 (Engine.init 0 { w with cur := {} }) st) : Inv c w.tape st.state st.w.cur := (reached P hP c h w hT st hr).1

/-- `y² + xy = x³ + ax² + b` -/
abbrev bcurve {F : Type} [Field F] (a b : F) : WeierstrassCurve.Affine F := ⟨1, a, 0, 0, b⟩

/-- a curve over a field of characteristic two has a point besides that at infinity: `(0, √b)` -/
theorem binary_point {F : Type} [Field F] [Finite F] [CharP F 2] (a b : F) (hd : (bcurve a b).Δ ≠ 0) : Nat.card (bcurve a b).Point ≠ 1 := by
  intro h1
  have hs := (Nat.card_eq_one_iff_unique.1 h1).1
  obtain ⟨y, hy⟩ := (Finite.injective_iff_surjective.1 (frobenius_inj F 2)) b
  rw [frobenius_def] at hy
  have he : (bcurve a b).Equation 0 y := by
    rw [WeierstrassCurve.Affine.equation_iff]
    simp [hy]
  have hn := ((bcurve a b).equation_iff_nonsingular_of_Δ_ne_zero hd).1 he
  exact WeierstrassCurve.Affine.Point.some_ne_zero hn (Subsingleton.elim _ _)

theorem binary_eqn (m e1 e2 e3 : Nat) (hf : Good (.binary m e1 e2 e3)) (a b : Carrier ⟨.binary m e1 e2 e3, hf⟩)
    (hd : (equation ⟨.binary m e1 e2 e3, hf⟩ a b).Δ ≠ 0) : Nat.card (equation ⟨.binary m e1 e2 e3, hf⟩ a b).Point ≠ 1 := by
  have h2 : (2 : Carrier ⟨.binary m e1 e2 e3, hf⟩) = 0 := two_zero m e1 e2 e3 hf
  have : CharP (Carrier ⟨.binary m e1 e2 e3, hf⟩) 2 := CharTwo.of_one_ne_zero_of_two_eq_zero one_ne_zero h2
  exact binary_point a b hd

/-- so a curve without it lives over a prime field -/
theorem one_point (E : Crv) (hd : E.eqn.Δ ≠ 0) (h1 : Nat.card E.Pt = 1) : ∃ p, E.field.1 = .prime p := by
  match E, hd, h1 with
  | ⟨⟨.prime p, _⟩, _, _⟩, _, _ => exact ⟨p, rfl⟩
  | ⟨⟨.binary m e1 e2 e3, hf⟩, a, b⟩, hd, h1 => exact absurd h1 (binary_eqn m e1 e2 e3 hf _ _ hd)

theorem known_empty {A : Type} [AddCommGroup A] [Finite A] {c : Config} {l : List (Group.Pt A)} (hg : GensKnown A c l) (ho : OrderAsked c (Nat.card A)) :
    l = [] ↔ Nat.card A = 1 := by
  constructor
  · rintro rfl
    cases hu : c.unique with
    | true =>
      rcases hg.unique hu with h | ⟨g, h, -⟩
      · exact h.1
      · cases h
    | false =>
      cases hk : c.cofactor with
      | true =>
        obtain ⟨g, l', h, -⟩ := hg.first hu hk
        cases h
      | false =>
        have h := hg.all (Or.inr hk)
        have e : {P : A | P ∈ ([] : List (Group.Pt A)).map Group.Pt.point} = ∅ := by ext; simp
        rw [e, AddSubgroup.closure_empty] at h
        have : Nat.card (⊤ : AddSubgroup A) = 1 := by rw [← h]; exact AddSubgroup.card_bot
        rwa [AddSubgroup.card_top] at this
  · intro h1
    have hs := (Nat.card_eq_one_iff_unique.1 h1).1
    have hk : c.cofactor = false := by
      cases hk : c.cofactor with
      | false => rfl
      | true =>
        obtain ⟨q, hq, e⟩ := ho.2.1 hk
        rw [h1] at e
        exact absurd (Nat.eq_one_of_mul_eq_one_left e.symm) hq.one_lt.ne'
    cases l with
    | nil => rfl
    | cons g l => exact absurd (Subsingleton.elim g.point 0) (hg.nonzero (Or.inr (Or.inl hk)) g List.mem_cons_self)

/-- **C107, generators**: whatever happens in a search, the array of generators has no entry exactly for a curve whose only point is the point at infinity;
neither `--prime` nor `--cofactor` is given then, and the field is a prime field -/
theorem generators_array (P : Pari) (hP : P.Ok) (c : Config) (h : Covered c) (w : W) (hT : TapeOk c w.tape) (st : Engine.St W)
    (hr : Engine.Reaches (setup P c) 0 9 0 (Engine.init 0 { w with cur := {} }) st) (hs : 7 ≤ st.state) :
    ∃ E l, st.w.cur.crv = some E ∧ st.w.cur.gens = some ⟨E, l⟩ ∧ (l.length = 0 ↔ Nat.card E.Pt = 1) ∧
      (l.length = 0 → c.prime = false ∧ c.cofactor = false ∧ c.field = FIELD_PRIME) := by
  have hi := reached_inv P hP c h w hT st hr
  obtain ⟨E, l, h1, h2, h3, -⟩ := hi.gens hs
  obtain ⟨E', h4, -, h5⟩ := hi.order (by omega)
  obtain rfl : E = E' := Option.some.inj (h1.symm.trans h4)
  have hiff : l.length = 0 ↔ Nat.card E.Pt = 1 := by
    rw [← known_empty h3 h5, List.length_eq_zero_iff, List.map_eq_nil_iff]
  refine ⟨E, l, h1, h2, hiff, fun hl => ?_⟩
  have hn := hiff.1 hl
  rw [hn] at h5
  refine ⟨?_, ?_, ?_⟩
  · cases hp : c.prime with
    | false => rfl
    | true => exact absurd (h5.1 hp) Nat.not_prime_one
  · cases hk : c.cofactor with
    | false => rfl
    | true =>
      obtain ⟨q, hq, e⟩ := h5.2.1 hk
      exact absurd (Nat.eq_one_of_mul_eq_one_left e.symm) hq.one_lt.ne'
  · obtain ⟨f, a, b, h6, -, -, h7, h8⟩ := hi.crv (by omega)
    obtain rfl : E = ⟨f, a, b⟩ := Option.some.inj (h1.symm.trans h7)
    obtain ⟨p, hp⟩ := one_point _ h8 hn
    obtain ⟨f', h9, h10, -⟩ := hi.field (by omega)
    obtain rfl : f = f' := Option.some.inj (h6.symm.trans h9)
    change f.1 = _ at hp
    rw [hp] at h10
    exact h10.1

/-! ### The points -/

/-- **C107, points of prime order**: the array has no entry exactly if the generator is the point at infinity -/
theorem prime_array {A : Type} [AddCommGroup A] [Finite A] (isprime : Nat → Bool) (hip : ∀ n, isprime n = true ↔ n.Prime) (fac : Nat → List (Nat × Nat))
    (hf : Subgroup.FactorSpec fac) (gens : List (Group.Pt A)) (ho : ∀ g ∈ gens, g.order = addOrderOf g.point) :
    ∀ s ∈ pointsPrime isprime fac gens, s.points.length = 0 ↔ s.gen.point = 0 := by
  intro s hs
  obtain ⟨g, hg, rfl⟩ := List.mem_map.1 hs
  have hpos : 0 < g.order := ho g hg ▸ addOrderOf_pos _
  have hspec := (Subgroup.primes_spec isprime hip fac hf g.order hpos).2
  change (fromOrders g (Subgroup.primes isprime fac g.order)).length = 0 ↔ g.point = 0
  rw [← AddMonoid.addOrderOf_eq_one_iff (x := g.point), ← ho g hg, fromOrders, List.length_map, List.length_eq_zero_iff]
  constructor
  · intro h
    by_contra h1
    have := (hspec g.order.minFac).2 ⟨Nat.minFac_prime h1, Nat.minFac_dvd _⟩
    rw [h] at this
    cases this
  · intro h
    rw [List.eq_nil_iff_forall_not_mem]
    intro d hd
    have := (hspec d).1 hd
    rw [h, Nat.dvd_one] at this
    exact this.1.one_lt.ne' this.2

/-- **C107, points of composite order**: an array is asked for (unless the order is a prime), and has no entry exactly if the generator is the point at infinity -/
theorem nonprime_array {A : Type} [AddCommGroup A] [Finite A] (isprime : Nat → Bool) (hip : ∀ n, isprime n = true ↔ n.Prime) (fac : Nat → List (Nat × Nat))
    (hf : Subgroup.FactorSpec fac) (g : Group.Pt A) (ho : g.order = addOrderOf g.point) (h63 : g.order.primeFactorsList.length < 63) :
    ∃ s, pointsNonprime1 isprime fac g = some s ∧ s.gen = g ∧ (s.points.length = 0 ↔ g.point = 0 ∨ g.order.Prime) := by
  have hpos : 1 ≤ g.order := ho ▸ addOrderOf_pos _
  rw [← AddMonoid.addOrderOf_eq_one_iff (x := g.point), ← ho]
  rcases Subgroup.nonprime_spec_partial isprime hip fac hf g.order hpos h63 with ⟨h1, h2, -⟩ | ⟨l, h1, -, h2⟩
  · exact ⟨⟨g, []⟩, by rw [pointsNonprime1, h1]; rfl, rfl, by simp [h2]⟩
  · refine ⟨⟨g, fromOrders g l⟩, by rw [pointsNonprime1, h1]; rfl, rfl, ?_⟩
    rw [fromOrders, List.length_map, List.length_eq_zero_iff]
    constructor
    · intro h
      by_contra hn
      have := (h2 g.order).2 ⟨by omega, fun hp => hn (Or.inr hp), dvd_refl _⟩
      rw [h] at this
      cases this
    · intro h
      rw [List.eq_nil_iff_forall_not_mem]
      intro d hd
      obtain ⟨h3, h4, h5⟩ := (h2 d).1 hd
      rcases h with h | h
      · rw [h, Nat.dvd_one] at h5
        omega
      · rcases (Nat.dvd_prime h).1 h5 with rfl | rfl
        · omega
        · exact h4 h

/-! ### The primes of `--invalid` -/

/-- **C107, primes**: for a range `a-b` the array has no entry exactly if there is no prime from `a` to `b` -/
theorem primes_array (np : Nat → Nat) (hnp : Invalid.NextSpec np) (order : Nat) (da db : List Char) (ha : Invalid.IsNumber da) (hb : Invalid.IsNumber db)
    (ha1 : 1 ≤ Invalid.value da) (ha2 : Invalid.value da < 2 ^ 63) (hb1 : 1 ≤ Invalid.value db) (hb2 : Invalid.value db < 2 ^ 63) :
    ∃ fuel l, Invalid.invalidPrimes np order (some (da ++ '-' :: db)) fuel = some l ∧
      (l.length = 0 ↔ ∀ p : Nat, p.Prime → Invalid.value da ≤ p → Invalid.value db < p) := by
  obtain ⟨fuel, l, h1, -, h2⟩ := Invalid.range_partial np hnp order da db ha hb ha1 ha2 hb1 hb2
  refine ⟨fuel, l, h1, ?_⟩
  rw [List.length_eq_zero_iff, List.eq_nil_iff_forall_not_mem]
  constructor
  · intro h p hp h3
    by_contra h4
    exact h p ((h2 p).2 ⟨hp, h3, by omega⟩)
  · intro h p hp
    obtain ⟨h3, h4, h5⟩ := (h2 p).1 hp
    have := h p h3 h4
    omega

/-! ### The hypotheses can be met -/

/-- `--fp --random --points=random 2` finds the curve `y² = x³ + 2x + 2` over the field of three elements: an array of no generators -/
theorem generators_array_met : ∃ (os : List Opt) (c : Config) (w : W) (st : Engine.St W), commandLine 4 os = some c ∧ Covered c ∧ TapeOk c w.tape ∧
    Engine.Reaches (setup pari c) 0 9 0 (Engine.init 0 { w with cur := {} }) st ∧ st.state = 7 ∧ st.w.cur.gens = some ⟨E3, []⟩ := by
  obtain ⟨st, h1, h2, h3⟩ := reach_straight (setup pari c3) (fun s => ({ world E3 2 [] 1 with cur := course3 s, pos := s } : W)) 7 (by omega)
    fun s hs => succeeds_act pari c3 (by decide +kernel) (by decide +kernel) (always E3 2 [] 1) rfl (fun _ => rfl) s _ _ (course3_act s hs)
      (fun h => by subst h; exact ⟨E3, rfl, E3_delta⟩) (world E3 2 [] 1) rfl s
  have hf : FieldAsked c3 E3.field.1 := ⟨by decide +kernel, fun _ _ => by decide +kernel, by decide +kernel⟩
  have hc : ¬ (c3.koblitz = true ∧ c3.seedAlgo = .none) := by decide +kernel
  exact ⟨_, c3, world E3 2 [] 1, st, c3_some, covered _ _ _ c3_some (by decide +kernel) (by decide +kernel),
    always_tape c3 E3 hf ⟨by decide +kernel, fun h => absurd (Nat.zero_and 2) h, by decide +kernel⟩ 2 (by decide) [] 1 E3_gens
      (fun e => (always_comes c3 hc E3 2 [] 1 rfl rfl e).1) (fun e => (always_comes c3 hc E3 2 [] 1 rfl rfl e).2),
    h1, h2, by rw [h3]; rfl⟩

/-- the points of prime order of two generators, one of which is the point at infinity -/
theorem prime_array_met : ∃ gens : List (Group.Pt (ZMod 5)), (∀ g ∈ gens, g.order = addOrderOf g.point) ∧
    (∃ s ∈ pointsPrime pari.isprime pari.fac gens, s.points.length = 0) ∧ ∃ s ∈ pointsPrime pari.isprime pari.fac gens, s.points.length ≠ 0 := by
  have ho : ∀ g ∈ [⟨0, 1, 5⟩, (⟨1, 5, 1⟩ : Group.Pt (ZMod 5))], g.order = addOrderOf g.point := by
    intro g hg
    simp only [List.mem_cons, List.not_mem_nil, or_false] at hg
    rcases hg with rfl | rfl
    · exact addOrderOf_zero.symm
    · exact (ZMod.addOrderOf_one 5).symm
  have h := prime_array pari.isprime pari_ok.isprime pari.fac pari_ok.fac _ ho
  refine ⟨_, ho, ⟨_, List.mem_cons_self, (h _ List.mem_cons_self).2 rfl⟩, ⟨_, List.mem_cons_of_mem _ List.mem_cons_self, fun h0 => ?_⟩⟩
  exact absurd ((h _ (List.mem_cons_of_mem _ List.mem_cons_self)).1 h0) (by decide)

/-- between 24 and 28 there is no prime -/
theorem primes_array_met : Invalid.IsNumber "24".toList ∧ Invalid.IsNumber "28".toList ∧
    ∀ p : Nat, p.Prime → Invalid.value "24".toList ≤ p → Invalid.value "28".toList < p := by
  refine ⟨⟨by decide, by decide⟩, ⟨by decide, by decide⟩, fun p hp h => ?_⟩
  have e1 : Invalid.value "24".toList = 24 := by decide +kernel
  have e2 : Invalid.value "28".toList = 28 := by decide +kernel
  rw [e1] at h
  rw [e2]
  by_contra h'
  have : p = 24 ∨ p = 25 ∨ p = 26 ∨ p = 27 ∨ p = 28 := by omega
  rcases this with rfl | rfl | rfl | rfl | rfl <;> revert hp <;> decide +kernel

end Ecgen.Whole
