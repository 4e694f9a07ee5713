import Verif.Koblitz.LFunction
import Verif.Koblitz.Props
import Verif.Count.Lemmas
import Mathlib.FieldTheory.Finite.Extension
import Mathlib.FieldTheory.Finite.Trace
import Mathlib.RingTheory.Trace.Basic
import Mathlib.Algebra.Polynomial.Reverse

/-!
C25: the number of points of Koblitz curves over every binary field.
-/

namespace Ecgen.Koblitz

open Polynomial Ecgen.Count

variable {F : Type*} [Field F] [Fintype F] [Algebra (ZMod 2) F]

/-! ### Minimal polynomials and traces -/

omit [Fintype F] in
theorem aeval_reverse {f : (ZMod 2)[X]} {x : F} (hx : x ≠ 0) (h : aeval x f = 0) : aeval x⁻¹ f.reverse = 0 := by
  have : Invertible x := invertibleOfNonzero hx
  have e := eval₂_reverse_mul_pow (algebraMap (ZMod 2) F) x f
  rw [invOf_eq_inv] at e
  rw [aeval_def] at h ⊢
  rw [h] at e
  exact (mul_eq_zero.1 e).resolve_right (pow_ne_zero _ hx)

theorem minpoly_coeff (x : F) (hx : x ≠ 0) : (minpoly (ZMod 2) x).coeff 0 = 1 := by
  rcases zmod_two_cases ((minpoly (ZMod 2) x).coeff 0) with h | h
  · exact absurd h (minpoly.coeff_zero_ne_zero (.of_finite _ x) hx)
  · exact h

theorem minpoly_inv (x : F) (hx : x ≠ 0) : minpoly (ZMod 2) x⁻¹ = (minpoly (ZMod 2) x).reverse := by
  have hx' := inv_ne_zero hx
  have h1 : minpoly (ZMod 2) x⁻¹ ∣ (minpoly (ZMod 2) x).reverse := minpoly.dvd _ _ (aeval_reverse hx (minpoly.aeval _ x))
  have h2 : minpoly (ZMod 2) x ∣ (minpoly (ZMod 2) x⁻¹).reverse := by
    have := minpoly.dvd (ZMod 2) x⁻¹⁻¹ (aeval_reverse hx' (minpoly.aeval _ x⁻¹))
    rwa [inv_inv] at this
  have hne : ∀ y : F, (minpoly (ZMod 2) y).reverse ≠ 0 := fun y h =>
    minpoly.ne_zero (.of_finite (ZMod 2) y) ((reverse_eq_zero).1 h)
  refine (eq_of_monic_of_dvd_of_natDegree_le (minpoly.monic (.of_finite _ _)) (monic_of_ne (hne x)) h1 ?_).symm
  exact (reverse_natDegree_le _).trans ((natDegree_le_of_dvd h2 (hne _)).trans (reverse_natDegree_le _))

theorem nextCoeff_reverse {f : (ZMod 2)[X]} (h : f.coeff 0 = 1) (hd : 0 < f.natDegree) : f.reverse.nextCoeff = f.coeff 1 := by
  have hr : f.reverse.natDegree = f.natDegree := by
    rw [reverse_natDegree, natTrailingDegree_eq_zero_of_constantCoeff_ne_zero, Nat.sub_zero]
    rw [constantCoeff_apply, h]; decide
  rw [nextCoeff, if_neg (by omega), hr, coeff_reverse, revAt_le (by omega)]
  congr 1
  omega

theorem finrank_mul (x : F) (m : ℕ) (hm : Module.finrank (ZMod 2) F = m) :
    Module.finrank (IntermediateField.adjoin (ZMod 2) {x}) F * (minpoly (ZMod 2) x).natDegree = m := by
  rw [← hm, ← IntermediateField.adjoin.finrank (.of_finite (ZMod 2) x), mul_comm]
  exact Module.finrank_mul_finrank _ _ _

/-- the sign of an element of the field -/
noncomputable def sign (x : F) : ℤ := sgn (Algebra.trace (ZMod 2) F x)

omit [Fintype F] in
theorem sign_add (x y : F) : sign (x + y) = sign x * sign y := by
  unfold sign
  rw [map_add, sgn_add]

/-- the sign of `x + 1/x` by the minimal polynomial -/
theorem sign_minpoly (m : ℕ) (hm : Module.finrank (ZMod 2) F = m) (x : F) (hx : x ≠ 0) (j : ℕ)
    (hj : j * (minpoly (ZMod 2) x).natDegree = m) : sign (x + x⁻¹) = lam (minpoly (ZMod 2) x) ^ j := by
  have hpos : 0 < (minpoly (ZMod 2) x).natDegree := minpoly.natDegree_pos (.of_finite _ x)
  have hinv := minpoly_inv x hx
  have hdeg : (minpoly (ZMod 2) x⁻¹).natDegree = (minpoly (ZMod 2) x).natDegree := by
    rw [hinv, reverse_natDegree, natTrailingDegree_eq_zero_of_constantCoeff_ne_zero, Nat.sub_zero]
    rw [constantCoeff_apply, minpoly_coeff x hx]; decide
  have e1 : Module.finrank (IntermediateField.adjoin (ZMod 2) {x}) F = j :=
    Nat.eq_of_mul_eq_mul_right hpos ((finrank_mul x m hm).trans hj.symm)
  have e2 : Module.finrank (IntermediateField.adjoin (ZMod 2) {x⁻¹}) F = j := by
    have := finrank_mul x⁻¹ m hm
    rw [hdeg] at this
    exact Nat.eq_of_mul_eq_mul_right hpos (this.trans hj.symm)
  have neg : ∀ c : ZMod 2, -c = c := by decide
  unfold sign lam
  rw [map_add, trace_eq_finrank_mul_minpoly_nextCoeff, trace_eq_finrank_mul_minpoly_nextCoeff, e1, e2, hinv,
    nextCoeff_reverse (minpoly_coeff x hx) hpos, neg, neg, ← mul_add, ← sgn_smul, nsmul_eq_mul]

/-- the sum of the signs -/
noncomputable def total (F : Type*) [Field F] [Fintype F] [DecidableEq F] [Algebra (ZMod 2) F] : ℤ :=
  ∑ x ∈ Finset.univ.filter (fun x : F => x ≠ 0), sign (x + x⁻¹)

open scoped Classical in
/-- an irreducible polynomial of a degree dividing that of the field has as many roots as its degree -/
theorem card_minpoly (m : ℕ) (hm : Module.finrank (ZMod 2) F = m) (P : (ZMod 2)[X]) (hP : Irreducible P) (hd : P.natDegree ∣ m) :
    (Finset.univ.filter fun x : F => minpoly (ZMod 2) x = P).card = P.natDegree := by
  have hcard : Fintype.card F = 2 ^ m := by
    rw [← hm, Module.card_eq_pow_finrank (K := ZMod 2), ZMod.card]
  have hdvd : P ∣ X ^ Fintype.card F - X := by
    have := hP.natDegree_dvd_iff_dvd_X_pow_card_pow_sub_X.1 hd
    rwa [Nat.card_zmod, ← hcard] at this
  have hne : (X ^ Fintype.card F - X : (ZMod 2)[X]) ≠ 0 := FiniteField.X_pow_card_sub_X_ne_zero _ Fintype.one_lt_card
  have hall : ((X ^ Fintype.card F - X : (ZMod 2)[X]).map (algebraMap (ZMod 2) F)).Splits := FiniteField.splits_X_pow_card_sub_X 2
  have hmap : P.map (algebraMap (ZMod 2) F) ∣ (X ^ Fintype.card F - X : (ZMod 2)[X]).map (algebraMap (ZMod 2) F) :=
    Polynomial.map_dvd (algebraMap (ZMod 2) F) hdvd
  have hsplit : (P.map (algebraMap (ZMod 2) F)).Splits := Splits.of_dvd hall (Polynomial.map_ne_zero hne) hmap
  have hsep : P.Separable := PerfectField.separable_of_irreducible hP
  have hroots := card_rootSet_eq_natDegree hsep hsplit
  rw [← Set.toFinset_card] at hroots
  rw [← hroots]
  congr 1
  ext x
  rw [Finset.mem_filter, Set.mem_toFinset, mem_rootSet]
  constructor
  · rintro ⟨-, rfl⟩
    exact ⟨hP.ne_zero, minpoly.aeval _ x⟩
  · rintro ⟨-, h⟩
    exact ⟨Finset.mem_univ _, (minpoly.eq_of_irreducible_of_monic hP h (monic_of_ne hP.ne_zero)).symm⟩

/-- the sum over the field is the sum over the powers of irreducible polynomials -/
theorem total_eq [DecidableEq F] (m n : ℕ) (hm : Module.finrank (ZMod 2) F = m) (hn : m ≤ n) : total F = powers n m := by
  classical
  have hm0 : 0 < m := hm ▸ Module.finrank_pos
  have hmaps : ∀ x ∈ Finset.univ.filter (fun x : F => x ≠ 0), minpoly (ZMod 2) x ∈ irreds n := by
    intro x hx
    have hx := (Finset.mem_filter.1 hx).2
    refine mem_irreds.2 ⟨?_, minpoly_coeff x hx, minpoly.irreducible (.of_finite _ x)⟩
    exact (minpoly.natDegree_le x).trans (hm ▸ hn)
  rw [total, ← Finset.sum_fiberwise_of_maps_to hmaps, powers]
  refine Finset.sum_congr rfl fun P hP => ?_
  obtain ⟨-, hc, hirr⟩ := mem_irreds.1 hP
  have hpos := hirr.natDegree_pos
  have hfil : (Finset.univ.filter (fun x : F => x ≠ 0)).filter (fun x => minpoly (ZMod 2) x = P) =
      Finset.univ.filter fun x : F => minpoly (ZMod 2) x = P := by
    ext x
    simp only [Finset.mem_filter, Finset.mem_univ, true_and]
    refine ⟨fun h => h.2, fun h => ⟨?_, h⟩⟩
    rintro rfl
    rw [minpoly.zero] at h
    rw [← h, coeff_X_zero] at hc
    exact absurd hc (by decide)
  rw [hfil]
  by_cases hd : P.natDegree ∣ m
  · obtain ⟨j, hj⟩ := hd
    have hj1 : 1 ≤ j := by
      rcases Nat.eq_zero_or_pos j with h | h
      · rw [h, mul_zero] at hj; omega
      · exact h
    have hjm : j ≤ m := by rw [hj]; exact Nat.le_mul_of_pos_left j hpos
    rw [Finset.sum_eq_single j, if_pos (by rw [hj, mul_comm])]
    · rw [Finset.sum_congr rfl (g := fun _ => lam P ^ j), Finset.sum_const, card_minpoly m hm P hirr ⟨j, hj⟩, nsmul_eq_mul]
      intro x hx
      have hx := (Finset.mem_filter.1 hx).2
      have hx0 : x ≠ 0 := by
        rintro rfl
        rw [minpoly.zero] at hx
        rw [← hx, coeff_X_zero] at hc
        exact absurd hc (by decide)
      rw [sign_minpoly m hm x hx0 j (by rw [hx, hj, mul_comm]), hx]
    · intro i _ hi
      rw [if_neg]
      intro h
      apply hi
      rw [hj, mul_comm] at h
      exact Nat.eq_of_mul_eq_mul_left hpos h
    · intro h
      exact absurd (Finset.mem_Icc.2 ⟨hj1, by omega⟩) h
  · have h0 : Finset.univ.filter (fun x : F => minpoly (ZMod 2) x = P) = ∅ := by
      rw [Finset.filter_eq_empty_iff]
      rintro x - rfl
      exact hd ⟨_, by rw [← finrank_mul x m hm, mul_comm]⟩
    rw [h0, Finset.sum_empty, Finset.sum_eq_zero]
    intro j _
    rw [if_neg]
    intro h
    exact hd ⟨j, by rw [← h, mul_comm]⟩

/-! ### The recurrence -/

theorem powers_stable (n n' k : ℕ) (hk : 1 ≤ k) (h : k ≤ n) (h' : k ≤ n') : powers n k = powers n' k := by
  have : NeZero k := ⟨by omega⟩
  have : Fintype (GaloisField 2 k) := Fintype.ofFinite _
  classical
  have hf : Module.finrank (ZMod 2) (GaloisField 2 k) = k := GaloisField.finrank 2 (by omega)
  rw [← total_eq (F := GaloisField 2 k) k n hf h, ← total_eq (F := GaloisField 2 k) k n' hf h']

theorem powers_V (n : ℕ) (hn : 1 ≤ n) : powers n n = -V (-1) n := by
  induction n using Nat.strongRecOn with
  | ind n ih =>
    have hnew := newton n
    match n, hn with
    | 1, _ =>
      rw [show Finset.Icc 1 1 = {1} by rfl, Finset.sum_singleton, Nat.sub_self, Lam_zero, Lam_one] at hnew
      simp only [V]
      push_cast at hnew
      linarith
    | 2, _ =>
      rw [show Finset.Icc 1 2 = {1, 2} by rfl, Finset.sum_pair (by norm_num), Nat.sub_self, Lam_zero, Lam_two, Lam_one,
        powers_stable 2 1 1 (by norm_num) (by norm_num) (by norm_num), ih 1 (by norm_num) (by norm_num)] at hnew
      simp only [V] at hnew ⊢
      push_cast at hnew
      linarith
    | n + 3, _ =>
      have hs : ∑ k ∈ Finset.Icc 1 (n + 3), powers (n + 3) k * Lam (n + 3 - k) =
          powers (n + 3) (n + 1) * 2 + powers (n + 3) (n + 2) * 1 + powers (n + 3) (n + 3) * 1 := by
        rw [Finset.sum_Icc_succ_top (by omega), Finset.sum_Icc_succ_top (by omega), Finset.sum_Icc_succ_top (by omega),
          Finset.sum_eq_zero]
        · rw [show n + 3 - (n + 2 + 1) = 0 by omega, show n + 3 - (n + 1 + 1) = 1 by omega, show n + 3 - (n + 1) = 2 by omega,
            Lam_zero, Lam_one, Lam_two, zero_add]
        · intro k hk
          rw [Lam_large _ (by have := (Finset.mem_Icc.1 hk).2; omega), mul_zero]
      rw [hs, Lam_large (n + 3) (by omega), mul_zero, powers_stable (n + 3) (n + 1) (n + 1) (by omega) (by omega) (by omega),
        powers_stable (n + 3) (n + 2) (n + 2) (by omega) (by omega) (by omega), ih (n + 1) (by omega) (by omega),
        ih (n + 2) (by omega) (by omega)] at hnew
      rw [show V (-1) (n + 3) = -1 * V (-1) (n + 2) - 2 * V (-1) (n + 1) from rfl]
      linarith

theorem V_neg (mu : ℤ) (n : ℕ) : V (-mu) n = (-1) ^ n * V mu n ∧ V (-mu) (n + 1) = (-1) ^ (n + 1) * V mu (n + 1) := by
  induction n with
  | zero => simp [V]
  | succ n ih =>
    refine ⟨ih.2, ?_⟩
    rw [show V (-mu) (n + 1 + 1) = -mu * V (-mu) (n + 1) - 2 * V (-mu) n from rfl,
      show V mu (n + 1 + 1) = mu * V mu (n + 1) - 2 * V mu n from rfl, ih.1, ih.2]
    ring

/-! ### Points -/

section

variable [CharP F 2] [DecidableEq F]

omit [DecidableEq F] in
theorem trace_sq (z : F) : Algebra.trace (ZMod 2) F (z ^ 2) = Algebra.trace (ZMod 2) F z := by
  have := Algebra.trace_eq_of_algEquiv (FiniteField.frobeniusAlgEquiv (ZMod 2) F 2) z
  simpa using this

theorem count_sign (c : F) : ((Finset.univ.filter fun z : F => z ^ 2 + z = c).card : ℤ) = 1 + sign c := by
  have htr : ∀ z : F, Algebra.trace (ZMod 2) F (z ^ 2 + z) = 0 := by
    intro z
    rw [map_add, trace_sq]
    exact CharTwo.add_self_eq_zero _
  obtain ⟨T, hT⟩ := Algebra.trace_surjective (ZMod 2) F 1
  have hTno : ∀ z : F, z ^ 2 + z ≠ T := by
    intro z h
    have := htr z
    rw [h, hT] at this
    exact absurd this (by decide)
  have key := artinSchreier T c hTno
  have hempty : ∀ d : F, Algebra.trace (ZMod 2) F d = 1 → (Finset.univ.filter fun z : F => z ^ 2 + z = d).card = 0 := by
    intro d hd
    rw [Finset.card_eq_zero, Finset.filter_eq_empty_iff]
    intro z _ h
    have := htr z
    rw [h, hd] at this
    exact absurd this (by decide)
  unfold sign
  rcases zmod_two_cases (Algebra.trace (ZMod 2) F c) with h | h
  · have h1 := hempty (c + T) (by rw [map_add, h, hT, zero_add])
    rw [h]
    have : sgn 0 = 1 := by decide
    rw [this]
    omega
  · have h1 := hempty c h
    rw [h, h1]
    decide

omit [DecidableEq F] in
theorem sign_sq (x : F) : sign (x ^ 2) = sign x := by
  unfold sign
  rw [trace_sq]

/-- the number of points as a sum of signs -/
theorem card2_sign (a : F) : (card2 a (1 : F) : ℤ) = Fintype.card F + 1 + sign a * total F := by
  have e : card2 a (1 : F) = (∑ x : F, (Finset.univ.filter fun y : F => y ^ 2 + x * y = x ^ 3 + a * x ^ 2 + 1).card) + 1 := by
    unfold card2
    exact congrArg (· + 1) (card_fiber (fun x y => y ^ 2 + x * y = x ^ 3 + a * x ^ 2 + 1))
  have h0 : ((Finset.univ.filter fun y : F => y ^ 2 + 0 * y = 0 ^ 3 + a * 0 ^ 2 + 1).card : ℤ) = 1 := by
    have : (Finset.univ.filter fun y : F => y ^ 2 + 0 * y = 0 ^ 3 + a * 0 ^ 2 + 1) = {1} := by
      ext y
      simp only [Finset.mem_filter, Finset.mem_univ, true_and, Finset.mem_singleton]
      constructor
      · intro h
        have two : (2 : F) = 0 := CharTwo.two_eq_zero
        have : (y - 1) ^ 2 = 0 := by linear_combination h + (1 - y) * two
        exact sub_eq_zero.1 (pow_eq_zero_iff (by norm_num) |>.1 this)
      · rintro rfl; ring
    rw [this]; simp
  have hx : ∀ x : F, x ≠ 0 → ((Finset.univ.filter fun y : F => y ^ 2 + x * y = x ^ 3 + a * x ^ 2 + 1).card : ℤ) =
      1 + sign a * sign (x + x⁻¹) := by
    intro x hx
    have hsc : (Finset.univ.filter fun y : F => y ^ 2 + x * y = x ^ 3 + a * x ^ 2 + 1).card =
        (Finset.univ.filter fun z : F => z ^ 2 + z = x + a + x⁻¹ ^ 2).card := by
      symm
      apply Finset.card_bij (fun z _ => x * z)
      · intro z hz
        simp only [Finset.mem_filter, Finset.mem_univ, true_and] at hz ⊢
        have hb : x⁻¹ ^ 2 * x ^ 2 = 1 := by field_simp
        linear_combination x ^ 2 * hz + hb
      · intro z1 _ z2 _ h
        exact mul_left_cancel₀ hx h
      · intro y hy
        simp only [Finset.mem_filter, Finset.mem_univ, true_and] at hy
        refine ⟨y / x, ?_, by field_simp⟩
        simp only [Finset.mem_filter, Finset.mem_univ, true_and]
        field_simp
        linear_combination hy
    rw [hsc, count_sign, sign_add, sign_add, sign_sq, sign_add]
    ring
  rw [e]
  push_cast
  rw [← Finset.sum_filter_add_sum_filter_not Finset.univ (fun x : F => x ≠ 0)]
  have hz : Finset.univ.filter (fun x : F => ¬ x ≠ 0) = {0} := by
    ext x; simp
  rw [hz, Finset.sum_singleton, h0, Finset.sum_congr rfl fun x hm => hx x (Finset.mem_filter.1 hm).2, Finset.sum_add_distrib,
    ← Finset.mul_sum, Finset.sum_const]
  have hc : (Finset.univ.filter fun x : F => x ≠ 0).card = Fintype.card F - 1 := by
    rw [Finset.filter_ne', Finset.card_erase_of_mem (Finset.mem_univ _), Finset.card_univ]
  have hc1 : 1 ≤ Fintype.card F := Fintype.card_pos
  rw [hc, total]
  simp only [nsmul_eq_mul, mul_one]
  push_cast [hc1]
  ring

/-- **C25** Weil's formula for the Koblitz curves: over every field with 2^m elements, `y² + xy = x³ + a x² + 1` with `a` 0 or 1 has
`2^m + 1 - V_m` points -/
theorem koblitz_points (m a : ℕ) (hF : Fintype.card F = 2 ^ m) (ha : a = 0 ∨ a = 1) : (card2 (a : F) 1 : ℤ) = weil m a := by
  have hm : Module.finrank (ZMod 2) F = m := by
    have := Module.card_eq_pow_finrank (K := ZMod 2) (V := F)
    rw [hF, ZMod.card] at this
    exact (Nat.pow_right_injective (le_refl 2) this).symm
  have hm0 : 1 ≤ m := hm ▸ Module.finrank_pos
  rw [card2_sign, total_eq m m hm (le_refl m), powers_V m hm0, hF, weil]
  rcases ha with rfl | rfl
  · have : sign ((0 : ℕ) : F) = 1 := by simp [sign, sgn]
    rw [this, if_neg (by norm_num)]
    push_cast; ring
  · have : sign ((1 : ℕ) : F) = (-1) ^ m := by
      rw [sign, Nat.cast_one, ← map_one (algebraMap (ZMod 2) F), Algebra.trace_algebraMap, hm, sgn_smul]
      rfl
    rw [this, if_pos rfl, (V_neg 1 m).1]
    have : ((-1 : ℤ) ^ m) * (-1) ^ m = 1 := by rw [← mul_pow]; simp
    push_cast
    linear_combination V 1 m * (-this)

/-- **C25** whatever the lookup finds is the number of points of the curve over every field of that size -/
theorem getOrder_points (m a n : ℕ) (hF : Fintype.card F = 2 ^ m) (hm : m < 2 ^ 32) (ha : a < 2 ^ 32) (h : getOrder m a = some n) :
    card2 (a : F) 1 = n := by
  obtain ⟨h1, h2, -⟩ := getOrder_weil m a n hm ha h
  have := koblitz_points m a hF h2
  rw [← h1] at this
  exact_mod_cast this

/-- **C25** over binary fields the order stage for Koblitz curves gives the number of points, whether it comes from the table or from
counting -/
theorem genOrder_points (m a : ℕ) (hF : Fintype.card F = 2 ^ m) (hm : m < 2 ^ 32) (ha : a < 2 ^ 32) :
    genOrder m a (card2 (a : F) 1) = card2 (a : F) 1 := by
  unfold genOrder
  cases h : getOrder m a with
  | none => rfl
  | some n => rw [getOrder_points m a n hF hm ha h]; rfl

end

/-- the hypotheses of `getOrder_points` are met for 163 bits -/
theorem getOrder_points_met : ∃ (F : Type) (_ : Field F) (_ : Fintype F) (_ : Algebra (ZMod 2) F) (_ : CharP F 2),
    Fintype.card F = 2 ^ 163 ∧ getOrder 163 1 ≠ none := by
  refine ⟨GaloisField 2 163, inferInstance, Fintype.ofFinite _, inferInstance, inferInstance, ?_, by decide +kernel⟩
  rw [Fintype.card_eq_nat_card, GaloisField.card 2 163 (by norm_num)]

end Ecgen.Koblitz
