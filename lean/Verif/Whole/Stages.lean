import Verif.Whole.Model
import Verif.Group.Props
import Verif.Order.Props
import Verif.Koblitz.Weil
import Verif.Cli.SetupProps

/-!
# The order, the generators and the points of one curve
-/

namespace Ecgen.Whole

open Output Cli Polynomial

/-! ## Koblitz orders -/

/-- `y² + xy = x³ + ax² + 1` -/
def kcurve {K : Type} [_root_.Field K] (a : K) : WeierstrassCurve.Affine K := ⟨1, a, 0, 0, 1⟩

theorem card_binary {K : Type} [_root_.Field K] [Fintype K] [DecidableEq K] (h2 : (2 : K) = 0) (a : K) :
    Nat.card (kcurve a).Point = Count.card2 a 1 := by
  have hE : (kcurve a).IsElliptic := by
    rw [WeierstrassCurve.isElliptic_iff, isUnit_iff_ne_zero]
    have e : (kcurve a).Δ = -1 := by
      simp only [kcurve, WeierstrassCurve.Δ, WeierstrassCurve.b₂, WeierstrassCurve.b₄, WeierstrassCurve.b₆, WeierstrassCurve.b₈]
      linear_combination (-6 * a - 24 * a ^ 2 - 32 * a ^ 3 - 216) * h2
    rw [e]
    exact neg_ne_zero.2 one_ne_zero
  rw [Nat.card_congr (WeierstrassCurve.Affine.pointEquiv (kcurve a))]
  rw [show WithZero {xy : K × K // (kcurve a).Equation xy.1 xy.2} = Option {xy : K × K // (kcurve a).Equation xy.1 xy.2} from rfl]
  rw [Finite.card_option]
  unfold Count.card2
  congr 1
  have e : {xy : K × K // (kcurve a).Equation xy.1 xy.2} ≃ {xy : K × K // xy.2 ^ 2 + xy.1 * xy.2 = xy.1 ^ 3 + a * xy.1 ^ 2 + 1} :=
    Equiv.subtypeEquivRight fun xy => by
      rw [WeierstrassCurve.Affine.equation_iff]
      simp only [kcurve]
      constructor <;> intro h <;> linear_combination h
  rw [Nat.card_congr e, Nat.card_eq_fintype_card, Fintype.card_subtype]

/-- characteristic two -/
theorem two_zero (m e1 e2 e3 : Nat) (h : Good (.binary m e1 e2 e3)) : (2 : Carrier ⟨.binary m e1 e2 e3, h⟩) = 0 := by
  have : (2 : (ZMod 2)[X]) = 0 := by
    have h2 : (2 : ZMod 2) = 0 := by decide
    rw [← Polynomial.C_ofNat, show (OfNat.ofNat 2 : ZMod 2) = 0 from h2, Polynomial.C_0]
  change (2 : AdjoinRoot (modulus m e1 e2 e3)) = 0
  rw [← map_ofNat (AdjoinRoot.mk (modulus m e1 e2 e3)) 2, show (OfNat.ofNat 2 : (ZMod 2)[X]) = 0 from this, map_zero]

/-- over binary fields the order stage for Koblitz curves gives the number of points -/
theorem koblitz_order (m e1 e2 e3 : Nat) (h : Good (.binary m e1 e2 e3)) (hm : m < 2 ^ 32) (a : Nat) (ha : a = 0 ∨ a = 1) :
    Koblitz.genOrder m a (Nat.card (equation ⟨.binary m e1 e2 e3, h⟩ (elem _ a) (elem _ 1)).Point) =
      Nat.card (equation ⟨.binary m e1 e2 e3, h⟩ (elem _ a) (elem _ 1)).Point := by
  have h2 := two_zero m e1 e2 e3 h
  have : CharP (Carrier ⟨.binary m e1 e2 e3, h⟩) 2 := CharTwo.of_one_ne_zero_of_two_eq_zero one_ne_zero h2
  have := Fintype.ofFinite (Carrier ⟨.binary m e1 e2 e3, h⟩)
  let _ := ZMod.algebra (Carrier ⟨.binary m e1 e2 e3, h⟩) 2
  have hc : Fintype.card (Carrier ⟨.binary m e1 e2 e3, h⟩) = 2 ^ m := by
    rw [← Nat.card_eq_fintype_card, card_carrier]; rfl
  have e : Nat.card (equation ⟨.binary m e1 e2 e3, h⟩ (elem _ a) (elem _ 1)).Point =
      Count.card2 ((a : Nat) : Carrier ⟨.binary m e1 e2 e3, h⟩) 1 := by
    rw [← card_binary h2]
    have : elem ⟨.binary m e1 e2 e3, h⟩ a = ((a : Nat) : Carrier ⟨.binary m e1 e2 e3, h⟩) := by
      rcases ha with rfl | rfl
      · rw [elem_zero, Nat.cast_zero]
      · rw [elem_one, Nat.cast_one]
    rw [this, elem_one]
    rfl
  rw [e]
  exact Koblitz.genOrder_points m a hc hm (by omega)

/-! ## Generators -/

section
variable {A : Type} [AddCommGroup A]
open _root_.Ecgen.Group AddSubgroup

/-- the stage of the generators with a cofactor, whether the cofactor is coprime to the prime or not: the first generator has the order and the
cofactor asked for, if it is not the point at infinity -/
theorem cofactor_first [Finite A] (ord : A → Nat) (hord : ∀ P, ord P = addOrderOf P) (k q : Nat) (hq : q.Prime) (hn : Nat.card A = k * q) :
    ∀ (gens : List A) (p : Group.Pt A), findCofactor ord (Nat.card A) k gens = some p →
      p.order = addOrderOf p.point ∧ p.cofactor = k ∧ (p.point ≠ 0 → p.order = q) := by
  have hpos : 0 < Nat.card A := Nat.card_pos
  have hk0 : 0 < k := by
    rcases Nat.eq_zero_or_pos k with rfl | h
    · omega
    · exact h
  intro gens
  induction gens with
  | nil => intro p h; cases h
  | cons g rest ih =>
    intro p h
    unfold findCofactor at h
    split at h
    · rename_i he
      cases h
      refine ⟨hord g, rfl, fun _ => ?_⟩
      show ord g = q
      rw [← he, hn, Nat.mul_div_cancel_left _ hk0]
    · split at h
      · rename_i hd
        cases h
        rw [hord] at hd ⊢
        have ho : addOrderOf (k • g) = addOrderOf g / k := by
          rw [addOrderOf_nsmul' g (by omega), Nat.gcd_eq_right hd]
        refine ⟨ho.symm, rfl, fun hne => ?_⟩
        have hdv : addOrderOf g / k ∣ q := by
          have := addOrderOf_dvd_natCard g
          rw [hn] at this
          obtain ⟨t, ht⟩ := hd
          rw [ht] at this ⊢
          rw [Nat.mul_div_cancel_left _ hk0]
          exact Nat.dvd_of_mul_dvd_mul_left hk0 this
        rcases (Nat.dvd_prime hq).1 hdv with h1 | h1
        · exfalso
          rw [← ho, AddMonoid.addOrderOf_eq_one_iff] at h1
          exact hne h1
        · exact h1
      · exact ih p h

/-- with `--cofactor=k` and without `--unique` the first generator is not the point at infinity: the number of points `n = k * q`, with a prime `q` that
divides `k` only if it is `k` (C31) -/
def Clear (c : Config) (n : Nat) : Prop :=
  c.unique = true ∨ c.cofactor = false ∨ ∀ q : Nat, q.Prime → n = toSize c.cofactorValue * q → q ∣ toSize c.cofactorValue → q = toSize c.cofactorValue

/-- this is so for the cofactor 1, for a prime, and for one whose square is smaller than the number of points -/
theorem clear_of {c : Config} {n : Nat} (hn : 0 < n)
    (h : c.unique = true ∨ c.cofactor = false ∨ toSize c.cofactorValue = 1 ∨ (toSize c.cofactorValue).Prime ∨ toSize c.cofactorValue * toSize c.cofactorValue < n) : Clear c n := by
  rcases h with h | h | h | h | h
  · exact Or.inl h
  · exact Or.inr (Or.inl h)
  · refine Or.inr (Or.inr fun q hq _ hd => ?_)
    rw [h, Nat.dvd_one] at hd
    exact absurd hd hq.ne_one
  · exact Or.inr (Or.inr fun q hq _ hd => (Nat.prime_dvd_prime_iff_eq hq h).1 hd)
  · refine Or.inr (Or.inr fun q hq he hd => ?_)
    have h1 : toSize c.cofactorValue < q := by
      rw [he] at h
      exact Nat.lt_of_mul_lt_mul_left h
    have h2 : 0 < toSize c.cofactorValue := by
      rcases Nat.eq_zero_or_pos (toSize c.cofactorValue) with h0 | h0
      · rw [h0, Nat.zero_mul] at he; omega
      · exact h0
    have := Nat.le_of_dvd h2 hd
    omega

/-- the first generator is the point at infinity only if the prime is a proper divisor of the cofactor -/
theorem cofactor_nonzero [Finite A] (ord : A → Nat) (hord : ∀ P, ord P = addOrderOf P) (k q : Nat) (hq : q.Prime) (hn : Nat.card A = k * q) (hk : q ∣ k → q = k)
    (gens : List A) (hg : GensSpec A gens) (p : Group.Pt A) (hp : findCofactor ord (Nat.card A) k gens = some p) : p.point ≠ 0 := by
  have hpos : 0 < Nat.card A := Nat.card_pos
  have hk0 : 0 < k := by
    rcases Nat.eq_zero_or_pos k with rfl | h
    · omega
    · exact h
  have hdiv : Nat.card A / k = q := by rw [hn, Nat.mul_div_cancel_left _ hk0]
  -- a multiple that vanishes
  have zero : ∀ g : A, k ∣ addOrderOf g → k • g = 0 → addOrderOf g = k := fun g h1 h2 => Nat.dvd_antisymm (addOrderOf_dvd_of_nsmul_eq_zero h2) h1
  match gens, hg with
  | [], _ => cases hp
  | [g], ⟨h1, h2⟩ =>
    have ho : addOrderOf g = Nat.card A := by
      rw [← Nat.card_zmultiples, (eq_top_iff' _).2 h2, AddSubgroup.card_top]
    unfold findCofactor at hp
    split at hp
    · cases hp; exact h1
    · split at hp
      · rename_i hd
        cases hp
        rw [hord] at hd
        intro h0
        have := zero g hd h0
        rw [ho, hn] at this
        have := hq.two_le
        nlinarith
      · unfold findCofactor at hp; cases hp
  | [g, h], hgs =>
    have hcard : addOrderOf g * addOrderOf h = Nat.card A := (card_two g h hgs.2.2.1 hgs.2.2.2).symm
    obtain ⟨h1, h2, -⟩ := hgs
    have hh : addOrderOf h ≠ 1 := fun e => h1 (AddMonoid.addOrderOf_eq_one_iff.1 e)
    have key : ∀ x : A, (x = g ∨ x = h) → Nat.card A / k ≠ ord x → k ∣ addOrderOf x → k • x ≠ 0 := by
      intro x hx hne hd h0
      have hox := zero x hd h0
      rw [hdiv, hord] at hne
      have hother : ∃ y, addOrderOf x * y = k * q ∧ y ≠ 1 ∧ (y ∣ addOrderOf x ∨ addOrderOf x ∣ y) := by
        rcases hx with rfl | rfl
        · exact ⟨addOrderOf h, by rw [hcard, hn], hh, Or.inl h2⟩
        · refine ⟨addOrderOf g, by rw [Nat.mul_comm, hcard, hn], fun e => ?_, Or.inr h2⟩
          rw [e, Nat.dvd_one] at h2
          exact hh h2
      obtain ⟨y, y1, y2, y3⟩ := hother
      rw [hox] at y1 y3 hne
      have hy : y = q := Nat.eq_of_mul_eq_mul_left hk0 y1
      subst hy
      rcases y3 with y3 | y3
      · exact hne (hk y3)
      · rcases (Nat.dvd_prime hq).1 y3 with e | e
        · rw [e] at hox
          rcases hx with rfl | rfl
          · rw [hox, Nat.dvd_one] at h2; exact hh h2
          · exact hh hox
        · exact hne e.symm
    unfold findCofactor at hp
    split at hp
    · rename_i he
      cases hp
      rintro rfl
      rw [hdiv, hord, addOrderOf_zero] at he
      exact hq.ne_one he
    · rename_i hne
      split at hp
      · rename_i hd
        cases hp
        rw [hord] at hd
        exact key g (Or.inl rfl) hne hd
      · unfold findCofactor at hp
        split at hp
        · cases hp; exact h1
        · rename_i hne
          split at hp
          · rename_i hd
            cases hp
            rw [hord] at hd
            exact key h (Or.inr rfl) hne hd
          · unfold findCofactor at hp; cases hp
  | _ :: _ :: _ :: _, h => exact h.elim

/-- only cyclic groups, and those whose order is the square of the cofactor, are accepted, if the first generator is not the point at infinity -/
theorem cofactor_plain [Finite A] (ord : A → Nat) (hord : ∀ P, ord P = addOrderOf P) (k q : Nat) (hq : q.Prime) (hn : Nat.card A = k * q)
    (gens : List A) (hg : GensSpec A gens) (p : Group.Pt A) (hp : findCofactor ord (Nat.card A) k gens = some p) (h0 : p.point ≠ 0) :
    IsAddCyclic A ∨ Nat.card A = k * k := by
  have hpos : 0 < Nat.card A := Nat.card_pos
  have hk0 : 0 < k := by
    rcases Nat.eq_zero_or_pos k with rfl | h
    · omega
    · exact h
  have hdiv : Nat.card A / k = q := by rw [hn, Nat.mul_div_cancel_left _ hk0]
  match gens, hg with
  | [], _ => cases hp
  | [g], ⟨_, h2⟩ => exact Or.inl ⟨g, h2⟩
  | [g, h], hgs =>
    right
    have hcard : addOrderOf g * addOrderOf h = k * q := by rw [← hn]; exact (card_two g h hgs.2.2.1 hgs.2.2.2).symm
    obtain ⟨h1, h2, -⟩ := hgs
    have hh : addOrderOf h ≠ 1 := fun e => h1 (AddMonoid.addOrderOf_eq_one_iff.1 e)
    unfold findCofactor at hp
    simp only [hdiv, hord] at hp
    split at hp
    · rename_i he
      rw [← he] at h2 hcard
      rcases (Nat.dvd_prime hq).1 h2 with e | e
      · exact absurd e hh
      · rw [e] at hcard
        rw [hn, ← Nat.eq_of_mul_eq_mul_right hq.pos hcard]
    · split at hp
      · rename_i hd
        obtain ⟨t, ht⟩ := hd
        rw [ht, Nat.mul_assoc] at hcard
        have hq' := Nat.eq_of_mul_eq_mul_left hk0 hcard
        rcases (Nat.dvd_prime hq).1 (Dvd.intro_left t hq') with e | e
        · exact absurd e hh
        · rw [e] at hq'
          have ht1 : t = 1 := Nat.eq_of_mul_eq_mul_right hq.pos (by rw [hq', Nat.one_mul])
          rw [ht1, Nat.mul_one] at ht
          cases hp
          exact absurd (ht ▸ addOrderOf_nsmul_eq_zero g) h0
      · rename_i hd
        unfold findCofactor at hp
        simp only [hdiv, hord] at hp
        split at hp
        · rename_i he
          rw [← he] at hcard
          exact absurd ⟨1, by rw [Nat.eq_of_mul_eq_mul_right hq.pos hcard, Nat.mul_one]⟩ hd
        · split at hp
          · rename_i hd'
            exact absurd (hd'.trans h2) hd
          · unfold findCofactor at hp; cases hp
  | _ :: _ :: _ :: _, h => exact h.elim

/-- what is known of the generators: the orders are right, and if none of them is the point at infinity they are as asked for -/
structure GensKnown (A : Type) [AddCommGroup A] (c : Config) (l : List (Group.Pt A)) : Prop where
  order : ∀ g ∈ l, g.order = addOrderOf g.point
  cofactor : ∀ g ∈ l, g.point ≠ 0 → g.order * g.cofactor = Nat.card A
  unique : c.unique = true → (Nat.card A = 1 ∧ l = []) ∨ ∃ g, l = [g] ∧ addOrderOf g.point = Nat.card A
  first : c.unique = false → c.cofactor = true → ∃ g l', l = g :: l' ∧ closure {P | P ∈ l'.map Group.Pt.point} = ⊤ ∧
    (g.point ≠ 0 → Nat.card A = toSize c.cofactorValue * addOrderOf g.point ∧ (addOrderOf g.point).Prime)
  all : c.unique = true ∨ c.cofactor = false → closure {P | P ∈ l.map Group.Pt.point} = ⊤
  nonzero : Clear c (Nat.card A) → ∀ g ∈ l, g.point ≠ 0
  few : l.length ≤ 3
  plain : c.unique = false → c.cofactor = true → (∀ g ∈ l, g.point ≠ 0) → IsAddCyclic A ∨ Nat.card A = toSize c.cofactorValue * toSize c.cofactorValue

theorem gens_few {A : Type} [AddCommGroup A] : ∀ l : List A, GensSpec A l → l.length ≤ 2
  | [], _ => by simp
  | [_], _ => by simp
  | [_, _], _ => by simp
  | _ :: _ :: _ :: _, h => h.elim

theorem any_few (ord : A → Nat) (n : Nat) (gens : List A) (hg : GensSpec A gens) : (gensAny ord n gens).length ≤ 2 := by
  unfold gensAny
  rw [List.length_map]
  exact gens_few gens hg

/-- the generators of PARI are not the point at infinity -/
theorem gens_nonzero [Finite A] (ord : A → Nat) (n : Nat) (gens : List A) (hg : GensSpec A gens) : ∀ g ∈ gensAny ord n gens, g.point ≠ 0 := by
  intro g hm
  obtain ⟨P, hP, rfl⟩ := List.mem_map.1 hm
  match gens, hg, hP with
  | [a], ⟨h1, _⟩, hP =>
    rw [List.mem_singleton] at hP
    exact hP ▸ h1
  | [a, b], ⟨h1, h2, _⟩, hP =>
    simp only [List.mem_cons, List.not_mem_nil, or_false] at hP
    rcases hP with rfl | rfl
    · rintro h0
      change P = 0 at h0
      rw [h0, addOrderOf_zero, Nat.dvd_one, AddMonoid.addOrderOf_eq_one_iff] at h2
      exact h1 h2
    · exact h1

theorem known_any [Finite A] (c : Config) (hu : c.unique = false) (hc : c.cofactor = false) (ord : A → Nat) (hord : ∀ P, ord P = addOrderOf P)
    (gens : List A) (hg : GensSpec A gens) : GensKnown A c (gensAny ord (Nat.card A) gens) where
  order g h := (gens_any ord hord gens g h).1
  cofactor g h _ := (gens_any ord hord gens g h).2
  unique h := by rw [hu] at h; cases h
  first _ h := by rw [hc] at h; cases h
  all _ := gens_generate gens hg ord _
  nonzero _ := gens_nonzero ord _ gens hg
  few := (any_few ord _ gens hg).trans (by decide)
  plain _ h := by rw [hc] at h; cases h

theorem known_one [Finite A] (c : Config) (hu : c.unique = true) (ord : A → Nat) (hord : ∀ P, ord P = addOrderOf P)
    (gens : List A) (hg : GensSpec A gens) (l : List (Group.Pt A)) (h : gensOne ord (Nat.card A) gens = some l) : GensKnown A c l := by
  have hl : l = gensAny ord (Nat.card A) gens := by
    unfold gensOne at h
    split at h
    · cases h
    · exact (Option.some.inj h).symm
  refine ⟨fun g hm => ?_, fun g hm _ => ?_, fun _ => ?_, fun h => (by rw [hu] at h; cases h), fun _ => ?_,
    fun _ => hl ▸ gens_nonzero ord _ gens hg, hl ▸ (any_few ord _ gens hg).trans (by decide), fun h => (by rw [hu] at h; cases h)⟩
  · exact (gens_any ord hord gens g (hl ▸ hm)).1
  · exact (gens_any ord hord gens g (hl ▸ hm)).2
  · rcases gens_one ord hord gens hg with ⟨h1, -⟩ | ⟨-, ⟨h1, h2⟩ | ⟨g, h1, -, h2, -⟩⟩
    · rw [h] at h1; cases h1
    · rw [h] at h1; cases h1; exact Or.inl ⟨h2, rfl⟩
    · rw [h] at h1; cases h1
      refine Or.inr ⟨g, rfl, ?_⟩
      rw [← h2, (gens_any ord hord gens g (by rw [← hl]; simp)).1]
  · rw [hl]; exact gens_generate gens hg ord _

theorem known_cofactor [Finite A] (c : Config) (hu : c.unique = false) (hc : c.cofactor = true) (ord : A → Nat) (hord : ∀ P, ord P = addOrderOf P)
    (q : Nat) (hq : q.Prime) (hn : Nat.card A = toSize c.cofactorValue * q) (gens : List A) (hg : GensSpec A gens) (l : List (Group.Pt A))
    (h : gensCofactor ord (Nat.card A) (toSize c.cofactorValue) gens = some l) : GensKnown A c l := by
  unfold gensCofactor at h
  rw [Option.map_eq_some_iff] at h
  obtain ⟨p, hp, rfl⟩ := h
  obtain ⟨h1, h2, h3⟩ := cofactor_first ord hord _ q hq hn gens p hp
  refine ⟨fun g hm => ?_, fun g hm hne => ?_, fun h => (by rw [hu] at h; cases h), fun _ _ => ⟨p, _, rfl, gens_generate gens hg ord _, fun hne => ?_⟩,
    fun h => ?_, fun h => ?_, Nat.succ_le_succ (any_few ord _ gens hg),
    fun _ _ hne => cofactor_plain ord hord _ q hq hn gens hg p hp (hne p (by simp))⟩
  · rcases List.mem_cons.1 hm with rfl | hm
    · exact h1
    · exact (gens_any ord hord gens g hm).1
  · rcases List.mem_cons.1 hm with rfl | hm
    · rw [h3 hne, h2, hn, Nat.mul_comm]
    · exact (gens_any ord hord gens g hm).2
  · rw [← h1, h3 hne]; exact ⟨hn, hq⟩
  · rw [hu, hc] at h; rcases h with h | h <;> cases h
  · rcases h with h | h | h
    · rw [hu] at h; cases h
    · rw [hc] at h; cases h
    · intro g hm
      rcases List.mem_cons.1 hm with rfl | hm
      · exact cofactor_nonzero ord hord _ q hq hn (h q hq hn) gens hg _ hp
      · exact gens_nonzero ord _ gens hg g hm

/-! ## Points -/

/-- what is known of the points of the generators, if none of these is the point at infinity -/
structure PointsKnown (c : Config) (l : List (Group.Sub A)) : Prop where
  listed : ∀ s ∈ l, ∃ ps : List (Group.Pt A), s.points = ps.map some ∧
    (∀ p ∈ ps, p.order = addOrderOf p.point ∧ p.point ∈ zmultiples s.gen.point) ∧
    ∀ Q, pointOrders c s.gen.order = some Q → (ps.map Group.Pt.order).Pairwise (· < ·) ∧ ∀ d, d ∈ ps.map Group.Pt.order ↔ Q d
  count : c.pointsType = .random → c.pointsAmount ≠ 0 → (l.map fun s => s.points.length).sum = c.pointsAmount
  finite : c.pointsType = .random → c.pointsAmount ≠ 0 → ∀ s ∈ l, ∀ q, some q ∈ s.points → q.point ≠ 0

theorem mapM_some {α β : Type} (f : α → Option β) : ∀ (l : List α) (r : List β), l.mapM f = some r → ∀ x ∈ l, (f x).isSome := by
  intro l
  induction l with
  | nil => intro r _ x hx; cases hx
  | cons a l ih =>
    intro r h x hx
    rw [List.mapM_cons] at h
    cases ha : f a with
    | none => rw [ha] at h; cases h
    | some b =>
      rw [ha] at h
      cases hl : l.mapM f with
      | none => simp [hl] at h
      | some r' =>
        rcases List.mem_cons.1 hx with rfl | hx
        · rw [ha]; rfl
        · exact ih r' hl x hx

theorem few_factors (isprime : Nat → Bool) (hip : ∀ n, isprime n = true ↔ n.Prime) (fac : Nat → List (Nat × Nat)) (hf : Subgroup.FactorSpec fac)
    (n : Nat) (hn : 2 ≤ n) (h : (Subgroup.all isprime fac n).isSome ∨ (Subgroup.nonprime isprime fac n).isSome) :
    n.primeFactorsList.length < 63 := by
  by_contra h63
  have hnp : isprime n = false := by
    cases hp : isprime n
    · rfl
    · rw [Nat.primeFactorsList_prime ((hip n).1 hp)] at h63
      simp at h63
  have hlen := (Subgroup.divisors_perm fac hf n (by omega)).length_eq
  have htwo : ∀ b, b ≤ 1 → Subgroup.twoN (Subgroup.divisors (fac n)) b = none := by
    intro b hb
    unfold Subgroup.twoN
    simp only
    rw [if_neg (by omega), if_pos (by omega)]
  unfold Subgroup.all Subgroup.nonprime at h
  rw [hnp] at h
  simp [htwo] at h

/-- a list of points as `Group` describes it is as asked for -/
theorem listed_of {c : Config} {s : Group.Sub A} {ps : List (Group.Pt A)} {Q : Nat → Prop} (hc : pointOrders c s.gen.order = some Q)
    (h : s.points = ps.map some ∧ (ps.map Group.Pt.order).Pairwise (· < ·) ∧ (∀ d, d ∈ ps.map Group.Pt.order ↔ Q d) ∧
      ∀ p ∈ ps, addOrderOf p.point = p.order ∧ p.point ∈ zmultiples s.gen.point) :
    s.points = ps.map some ∧ (∀ p ∈ ps, p.order = addOrderOf p.point ∧ p.point ∈ zmultiples s.gen.point) ∧
    ∀ Q, pointOrders c s.gen.order = some Q → (ps.map Group.Pt.order).Pairwise (· < ·) ∧ ∀ d, d ∈ ps.map Group.Pt.order ↔ Q d := by
  obtain ⟨h1, h2, h3, h4⟩ := h
  refine ⟨h1, fun p hp => ⟨(h4 p hp).1.symm, (h4 p hp).2⟩, fun Q' hQ => ?_⟩
  rw [hc] at hQ
  cases hQ
  exact ⟨h2, h3⟩

omit [AddCommGroup A] in
theorem mapIdx_gen (F : Nat → Group.Pt A → Group.Sub A) (h : ∀ i g, (F i g).gen = g) (gens : List (Group.Pt A)) :
    (gens.mapIdx F).map Group.Sub.gen = gens := by
  apply List.ext_getElem
  · simp
  · intro i h1 h2
    simp [h]

end

/-- the stage of the points, when it does not run into undefined behaviour and no generator is the point at infinity -/
theorem points_known (P : Pari) (hP : P.Ok) (c : Config) (p : Pick) (hw : ∀ n i, 0 < n → p.which n i < n)
    (hm : ∀ o i j, 2 ≤ o → 1 ≤ p.mul o i j ∧ p.mul o i j ≤ o - 1) (E : Crv) (gens : List (Group.Pt E.Pt))
    (ho : ∀ g ∈ gens, g.order = addOrderOf g.point) (hne : ∀ g ∈ gens, g.point ≠ 0) (l : List (Group.Sub E.Pt))
    (h : pointsStage P p E gens (ainit c).points (pointsChoice c) = some l) : l.map Group.Sub.gen = gens ∧ PointsKnown c l := by
  have hpos : ∀ g ∈ gens, 0 < g.order := fun g hg => by
    rw [ho g hg]; exact addOrderOf_pos g.point
  have h2 : ∀ g ∈ gens, 2 ≤ g.order := fun g hg => by
    have h0 := hpos g hg
    have h1 : g.order ≠ 1 := by
      rw [ho g hg]
      intro h
      exact hne g hg (AddMonoid.addOrderOf_eq_one_iff.1 h)
    omega
  have harg := (orderArg c).2.2.2
  unfold pointsChoice at h
  cases ht : c.pointsType with
  | prime =>
    simp only [ht, pointsStage, Option.some.injEq] at h
    obtain ⟨h3, h4⟩ := Group.points_prime P.isprime hP.isprime P.fac hP.fac gens fun g hg => ⟨ho g hg, hpos g hg⟩
    rw [h] at h3 h4
    refine ⟨h3, ⟨fun s hs => ?_, (fun h => by rw [ht] at h; cases h), (fun h => by rw [ht] at h; cases h)⟩⟩
    obtain ⟨ps, hps⟩ := h4 s hs
    exact ⟨ps, listed_of (by simp only [pointOrders, ht]) hps⟩
  | none =>
    simp only [ht, pointsStage] at h
    cases h
  | all =>
    simp only [ht, pointsStage] at h
    have hfew : ∀ g ∈ gens, g.order.primeFactorsList.length < 63 := by
      intro g hg
      have := mapM_some _ _ _ h g hg
      refine few_factors P.isprime hP.isprime P.fac hP.fac _ (h2 g hg) (Or.inl ?_)
      unfold Group.pointsAll1 at this
      cases e : Subgroup.all P.isprime P.fac g.order with
      | none => rw [e] at this; cases this
      | some _ => rfl
    obtain ⟨subs, h3, h4, h5⟩ := Group.points_all_partial P.isprime hP.isprime P.fac hP.fac gens fun g hg => ⟨ho g hg, h2 g hg, hfew g hg⟩
    rw [h] at h3
    cases h3
    refine ⟨h4, ⟨fun s hs => ?_, (fun h => by rw [ht] at h; cases h), (fun h => by rw [ht] at h; cases h)⟩⟩
    obtain ⟨ps, hps⟩ := h5 s hs
    exact ⟨ps, listed_of (by simp only [pointOrders, ht]) hps⟩
  | nonprime =>
    simp only [ht, pointsStage] at h
    have hfew : ∀ g ∈ gens, g.order.primeFactorsList.length < 63 := by
      intro g hg
      have := mapM_some _ _ _ h g hg
      refine few_factors P.isprime hP.isprime P.fac hP.fac _ (h2 g hg) (Or.inr ?_)
      unfold Group.pointsNonprime1 at this
      cases e : Subgroup.nonprime P.isprime P.fac g.order with
      | none => rw [e] at this; cases this
      | some _ => rfl
    obtain ⟨subs, h3, h4, h5⟩ := Group.points_nonprime_partial P.isprime hP.isprime P.fac hP.fac gens
      fun g hg => ⟨ho g hg, hpos g hg, hfew g hg⟩
    rw [h] at h3
    cases h3
    refine ⟨h4, ⟨fun s hs => ?_, (fun h => by rw [ht] at h; cases h), (fun h => by rw [ht] at h; cases h)⟩⟩
    obtain ⟨ps, hps⟩ := h5 s hs
    exact ⟨ps, listed_of (by simp only [pointOrders, ht]) hps⟩
  | random =>
    have hnone : ∀ n, pointOrders c n = none := fun n => by simp only [pointOrders, ht]
    by_cases ha : c.pointsAmount ≠ 0
    · simp only [ht, if_pos ha, pointsStage, harg ht, Option.bind_some, argNat] at h
      have hgens : gens ≠ [] := by
        rintro rfl
        obtain ⟨n, hn⟩ := Nat.exists_eq_succ_of_ne_zero ha
        unfold Group.pointsRandom at h
        have : ∀ n, Group.distribute (p.which 0) 0 (n + 1) = none := by
          intro n
          unfold Group.distribute
          induction n with
          | zero => rfl
          | succ n ih => rw [forN, ih]; rfl
        rw [hn] at h
        simp only [List.length_nil, Nat.succ_eq_add_one, this] at h
        cases h
      have hlen : 0 < gens.length := List.length_pos_iff.2 hgens
      obtain ⟨subs, h3, h4, h5, h6⟩ := Group.points_random (P.ord E) (hP.ord E) (p.which gens.length) (mulOf p gens) c.pointsAmount gens
        (fun g hg => ⟨ho g hg, h2 g hg⟩) (fun i _ => hw _ i hlen) (fun i j hi => by
          unfold mulOf
          rw [List.getElem?_eq_getElem hi]
          exact hm _ i j (h2 _ (List.getElem_mem hi)))
      rw [h] at h3
      cases h3
      refine ⟨h4, ⟨fun s hs => ?_, fun _ _ => h5, fun _ _ s hs q hq => ?_⟩⟩
      rotate_left
      · obtain ⟨q', e, h7, -⟩ := h6 s hs _ hq
        cases e
        exact h7
      choose F hF using h6 s hs
      refine ⟨s.points.attach.map fun o => F o.1 o.2, ?_, ?_, fun Q hQ => by rw [hnone] at hQ; cases hQ⟩
      · rw [List.map_map]
        conv_lhs => rw [← List.attach_map_subtype_val s.points]
        apply List.map_congr_left
        intro o _
        exact (hF o.1 o.2).1
      · intro q hq
        rw [List.mem_map] at hq
        obtain ⟨o, -, rfl⟩ := hq
        exact ⟨(hF o.1 o.2).2.2.2, (hF o.1 o.2).2.2.1⟩
    · simp only [ht, if_neg ha, pointsStage] at h
      unfold Group.pointRandom at h
      split at h
      · cases h
        refine ⟨mapIdx_gen _ (fun i g => rfl) gens, ⟨fun s hs => ?_, fun _ h => absurd h ha, fun _ h => absurd h ha⟩⟩
        rw [List.mem_mapIdx] at hs
        obtain ⟨i, hi, rfl⟩ := hs
        simp only
        split
        · refine ⟨[⟨p.mul0 • gens[i].point, P.ord E (p.mul0 • gens[i].point), 0⟩], rfl, ?_, fun Q hQ => by rw [hnone] at hQ; cases hQ⟩
          intro q hq
          rw [List.mem_singleton] at hq
          subst hq
          exact ⟨hP.ord E _, AddSubgroup.nsmul_mem_zmultiples _ _⟩
        · exact ⟨[], rfl, fun q hq => (nomatch hq), fun Q hQ => by rw [hnone] at hQ; cases hQ⟩
      · cases h

end Ecgen.Whole
