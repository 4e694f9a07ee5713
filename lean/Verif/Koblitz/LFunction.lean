import Mathlib.RingTheory.UniqueFactorizationDomain.Multiplicity
import Mathlib.Tactic.ComputeDegree
import Mathlib.RingTheory.Polynomial.UniqueFactorization
import Mathlib.Algebra.Polynomial.FieldDivision
import Mathlib.Algebra.Polynomial.BigOperators
import Mathlib.Data.ZMod.Basic
import Mathlib.Algebra.Field.ZMod
import Mathlib.Tactic.Ring
import Mathlib.Tactic.Linarith
import Mathlib.Tactic.LinearCombination

/-!
The sums behind the number of points of Koblitz curves: a multiplicative sign on polynomials over GF(2), its sums over all polynomials of a
degree, and its sums over the powers of irreducible polynomials.
-/

namespace Ecgen.Koblitz

open Polynomial

/-- (-1)^t -/
def sgn (t : ZMod 2) : ℤ := if t = 0 then 1 else -1

theorem sgn_add (s t : ZMod 2) : sgn (s + t) = sgn s * sgn t := by revert s t; decide

theorem sgn_smul (n : ℕ) (t : ZMod 2) : sgn (n • t) = sgn t ^ n := by
  induction n with
  | zero => simp [sgn]
  | succ n ih => rw [succ_nsmul, sgn_add, ih, pow_succ]

/-- the sign of a polynomial: that of the second highest plus the second lowest coefficient -/
noncomputable def lam (g : (ZMod 2)[X]) : ℤ := sgn (g.nextCoeff + g.coeff 1)

theorem monic_of_ne {g : (ZMod 2)[X]} (h : g ≠ 0) : g.Monic := by
  have h0 := leadingCoeff_ne_zero.2 h
  have : ∀ c : ZMod 2, c ≠ 0 → c = 1 := by decide
  exact this _ h0

theorem ne_of_coeff {g : (ZMod 2)[X]} (h : g.coeff 0 = 1) : g ≠ 0 := by
  rintro rfl
  simp at h

theorem lam_mul {g h : (ZMod 2)[X]} (hg : g.coeff 0 = 1) (hh : h.coeff 0 = 1) : lam (g * h) = lam g * lam h := by
  unfold lam
  rw [(monic_of_ne (ne_of_coeff hg)).nextCoeff_mul (monic_of_ne (ne_of_coeff hh)), mul_coeff_one, hg, hh, ← sgn_add]
  congr 1
  ring

theorem lam_one : lam 1 = 1 := by
  have : (1 : (ZMod 2)[X]).nextCoeff = 0 := by simp [nextCoeff]
  simp [lam, this, coeff_one, sgn]

theorem coeff_pow_zero {g : (ZMod 2)[X]} (hg : g.coeff 0 = 1) (j : ℕ) : (g ^ j).coeff 0 = 1 := by
  rw [coeff_zero_eq_eval_zero, eval_pow, ← coeff_zero_eq_eval_zero, hg, one_pow]

theorem lam_pow {g : (ZMod 2)[X]} (hg : g.coeff 0 = 1) (j : ℕ) : lam (g ^ j) = lam g ^ j := by
  induction j with
  | zero => simp [lam_one]
  | succ j ih => rw [pow_succ, lam_mul (coeff_pow_zero hg j) hg, ih, pow_succ]

theorem finite_le (n : ℕ) : {g : (ZMod 2)[X] | g.natDegree ≤ n ∧ g.coeff 0 = 1}.Finite := by
  refine (Set.finite_range fun a : Fin (n + 1) → ZMod 2 => ∑ i : Fin (n + 1), monomial (i : ℕ) (a i)).subset ?_
  rintro g ⟨hg, -⟩
  refine ⟨fun i => g.coeff i, ?_⟩
  conv_rhs => rw [g.as_sum_range' (n + 1) (by omega)]
  exact Fin.sum_univ_eq_sum_range (fun i => monomial i (g.coeff i)) (n + 1)

/-- the polynomials of degree at most `n` with constant term 1 -/
noncomputable def upTo (n : ℕ) : Finset (ZMod 2)[X] := (finite_le n).toFinset

theorem mem_upTo {n : ℕ} {g : (ZMod 2)[X]} : g ∈ upTo n ↔ g.natDegree ≤ n ∧ g.coeff 0 = 1 := by simp [upTo]

open scoped Classical in
/-- those of degree `n` -/
noncomputable def monics (n : ℕ) : Finset (ZMod 2)[X] := (upTo n).filter fun g => g.natDegree = n

theorem mem_monics {n : ℕ} {g : (ZMod 2)[X]} : g ∈ monics n ↔ g.natDegree = n ∧ g.coeff 0 = 1 := by
  simp only [monics, Finset.mem_filter, mem_upTo]
  constructor
  · rintro ⟨⟨_, h⟩, h'⟩; exact ⟨h', h⟩
  · rintro ⟨h, h'⟩; exact ⟨⟨h.le, h'⟩, h⟩

open scoped Classical in
/-- the irreducible ones of degree at most `n` -/
noncomputable def irreds (n : ℕ) : Finset (ZMod 2)[X] := (upTo n).filter Irreducible

theorem mem_irreds {n : ℕ} {g : (ZMod 2)[X]} : g ∈ irreds n ↔ g.natDegree ≤ n ∧ g.coeff 0 = 1 ∧ Irreducible g := by
  simp only [irreds, Finset.mem_filter, mem_upTo, and_assoc]

/-- the sum of the signs of the polynomials of a degree -/
noncomputable def Lam (n : ℕ) : ℤ := ∑ g ∈ monics n, lam g

/-! ### These sums -/

theorem Lam_zero : Lam 0 = 1 := by
  have : monics 0 = {1} := by
    ext g
    rw [mem_monics, Finset.mem_singleton]
    constructor
    · rintro ⟨h, h1⟩
      rw [natDegree_eq_zero] at h
      obtain ⟨c, rfl⟩ := h
      rw [coeff_C_zero] at h1
      rw [h1, C_1]
    · rintro rfl; simp
  rw [Lam, this, Finset.sum_singleton, lam_one]

theorem zmod_two_cases (c : ZMod 2) : c = 0 ∨ c = 1 := by revert c; decide

theorem Lam_one : Lam 1 = 1 := by
  have : monics 1 = {X + C 1} := by
    ext g
    rw [mem_monics, Finset.mem_singleton]
    constructor
    · rintro ⟨h, h1⟩
      have hm := monic_of_ne (ne_of_coeff h1)
      have hl : g.coeff 1 = 1 := by rw [← h]; exact hm
      have := eq_X_add_C_of_natDegree_le_one (p := g) h.le
      rw [this, hl, h1]
      simp
    · rintro rfl
      exact ⟨natDegree_X_add_C 1, by simp⟩
  have h1 : (X + C 1 : (ZMod 2)[X]).coeff 1 = 1 := by
    rw [coeff_add, coeff_X_one, coeff_C, if_neg (by norm_num), add_zero]
  rw [Lam, this, Finset.sum_singleton, lam, nextCoeff_X_add_C, h1]
  decide

theorem Lam_two : Lam 2 = 2 := by
  classical
  have hd : ∀ c : ZMod 2, (X ^ 2 + C c * X + 1 : (ZMod 2)[X]).natDegree = 2 := fun c => by
    compute_degree!
  have hs : monics 2 = {X ^ 2 + C 0 * X + 1, X ^ 2 + C 1 * X + 1} := by
    ext g
    rw [mem_monics, Finset.mem_insert, Finset.mem_singleton]
    constructor
    · rintro ⟨h, h1⟩
      have hm := monic_of_ne (ne_of_coeff h1)
      have hl : g.coeff 2 = 1 := by
        have : g.coeff g.natDegree = 1 := hm
        rwa [h] at this
      have e : g = X ^ 2 + C (g.coeff 1) * X + 1 := by
        ext i
        rcases i with _ | _ | _ | i
        · simp [h1]
        · simp [coeff_one, coeff_X_pow]
        · simp [hl, coeff_one]
        · rw [coeff_eq_zero_of_natDegree_lt (by omega), coeff_eq_zero_of_natDegree_lt (by rw [hd]; omega)]
      rcases zmod_two_cases (g.coeff 1) with h0 | h0 <;> rw [h0] at e
      · exact Or.inl e
      · exact Or.inr e
    · rintro (rfl | rfl) <;> exact ⟨hd _, by simp⟩
  have hne : (X ^ 2 + C 0 * X + 1 : (ZMod 2)[X]) ≠ X ^ 2 + C 1 * X + 1 := by
    intro h
    have := congrArg (fun g => coeff g 1) h
    simp [coeff_one, coeff_X_pow] at this
  have hl : ∀ c : ZMod 2, lam (X ^ 2 + C c * X + 1) = 1 := by
    intro c
    have h1 : (X ^ 2 + C c * X + 1 : (ZMod 2)[X]).coeff 1 = c := by simp [coeff_one, coeff_X_pow]
    have : ∀ c : ZMod 2, sgn (c + c) = 1 := by decide
    rw [lam, nextCoeff, hd, if_neg (by norm_num), h1, this]
  rw [Lam, hs, Finset.sum_pair hne, hl, hl]
  norm_num

theorem Lam_large (n : ℕ) (hn : 3 ≤ n) : Lam n = 0 := by
  have hneg : ∑ g ∈ monics n, lam g = ∑ g ∈ monics n, -lam g := by
    have hX : (X : (ZMod 2)[X]) + X = 0 := by
      rw [← two_mul]
      have : (2 : (ZMod 2)[X]) = 0 := by
        have h2 : (2 : ZMod 2) = 0 := by decide
        rw [← C_ofNat, h2, C_0]
      rw [this, zero_mul]
    have hdeg : ∀ g ∈ monics n, (g + X).natDegree = n := by
      intro g hg
      have h := (mem_monics.1 hg).1
      rw [natDegree_add_eq_left_of_natDegree_lt]
      · exact h
      · rw [natDegree_X, h]; omega
    refine Finset.sum_bij' (fun g _ => g + X) (fun g _ => g + X) ?_ ?_ ?_ ?_ ?_
    · intro g hg
      exact mem_monics.2 ⟨hdeg g hg, by simp [(mem_monics.1 hg).2]⟩
    · intro g hg
      exact mem_monics.2 ⟨hdeg g hg, by simp [(mem_monics.1 hg).2]⟩
    · intro g _; rw [add_assoc, hX, add_zero]
    · intro g _; rw [add_assoc, hX, add_zero]
    · intro g hg
      have h := (mem_monics.1 hg).1
      have hc : (X : (ZMod 2)[X]).coeff (n - 1) = 0 := by
        rw [coeff_X, if_neg (by omega)]
      rw [lam, lam, nextCoeff, nextCoeff, hdeg g hg, h, if_neg (by omega), if_neg (by omega), coeff_add, coeff_add, hc, coeff_X_one,
        add_zero, ← add_assoc, sgn_add _ 1]
      have : sgn 1 = -1 := by decide
      rw [this]; ring
  rw [Finset.sum_neg_distrib] at hneg
  rw [Lam]
  omega

/-! ### Powers of irreducible polynomials -/

/-- the degree of a polynomial is the sum of the degrees of the irreducible ones over all their powers dividing it -/
theorem degree_eq_sum {n : ℕ} {g : (ZMod 2)[X]} (hg : g ∈ monics n) : (open scoped Classical in
    ∑ P ∈ irreds n, ∑ j ∈ Finset.Icc 1 n, if P ^ j ∣ g then P.natDegree else 0) = n := by
  classical
  obtain ⟨hd, hc⟩ := mem_monics.1 hg
  have hg0 := ne_of_coeff hc
  have hmon := monic_of_ne hg0
  set s := UniqueFactorizationMonoid.normalizedFactors g with hs
  have hirr : ∀ P ∈ s, Irreducible P := fun P hP => UniqueFactorizationMonoid.irreducible_of_normalized_factor P hP
  have hmonP : ∀ P ∈ s, P.Monic := fun P hP => monic_of_ne (hirr P hP).ne_zero
  have hmonS : s.prod.Monic := by
    have := monic_multiset_prod_of_monic s id hmonP
    rwa [Multiset.map_id] at this
  have hprod : s.prod = g := eq_of_monic_of_associated hmonS hmon (UniqueFactorizationMonoid.prod_normalizedFactors hg0)
  have hdeg : (s.map natDegree).sum = n := by
    rw [← natDegree_multiset_prod_of_monic s hmonP, hprod, hd]
  have hcard : Multiset.card s ≤ n := by
    rw [← hdeg]
    have := Multiset.card_nsmul_le_sum (s := s.map natDegree) (a := 1) (by
      intro d hd
      obtain ⟨P, hP, rfl⟩ := Multiset.mem_map.1 hd
      exact (hirr P hP).natDegree_pos)
    simpa using this
  have hdvd : ∀ P : (ZMod 2)[X], Irreducible P → ∀ j, P ^ j ∣ g ↔ j ≤ s.count P := by
    intro P hP j
    have h1 := UniqueFactorizationMonoid.emultiplicity_eq_count_normalizedFactors hP hg0
    rw [(monic_of_ne hP.ne_zero).normalize_eq_self] at h1
    rw [pow_dvd_iff_le_emultiplicity, h1]
    exact Nat.cast_le
  have hinner : ∀ P ∈ irreds n, (∑ j ∈ Finset.Icc 1 n, if P ^ j ∣ g then P.natDegree else 0) = s.count P * P.natDegree := by
    intro P hP
    have hP' := (mem_irreds.1 hP).2.2
    simp only [hdvd P hP']
    rw [← Finset.sum_filter, Finset.sum_const, smul_eq_mul]
    congr 1
    have : (Finset.Icc 1 n).filter (fun j => j ≤ s.count P) = Finset.Icc 1 (s.count P) := by
      ext j
      have := s.count_le_card P
      simp only [Finset.mem_filter, Finset.mem_Icc]
      omega
    rw [this]; simp
  rw [Finset.sum_congr rfl hinner]
  have hsub : s.toFinset ⊆ irreds n := by
    intro P hP
    have hP := Multiset.mem_toFinset.1 hP
    have hPg : P ∣ g := by rw [← hprod]; exact Multiset.dvd_prod hP
    refine mem_irreds.2 ⟨?_, ?_, hirr P hP⟩
    · rw [← hd]; exact natDegree_le_of_dvd hPg hg0
    · obtain ⟨h, rfl⟩ := hPg
      rw [mul_coeff_zero] at hc
      rcases zmod_two_cases (P.coeff 0) with h0 | h0
      · rw [h0, zero_mul] at hc; exact absurd hc (by decide)
      · exact h0
  rw [← Finset.sum_subset hsub, ← hdeg, Finset.sum_multiset_map_count]
  · simp
  · intro P _ hP
    rw [Multiset.count_eq_zero_of_notMem (fun h => hP (Multiset.mem_toFinset.2 h)), zero_mul]

open scoped Classical in
/-- the multiples of a power -/
theorem sum_multiples {n j : ℕ} {P : (ZMod 2)[X]} (hP : P ∈ irreds n) :
    (∑ g ∈ monics n, if P ^ j ∣ g then lam g else 0) =
      if j * P.natDegree ≤ n then lam P ^ j * Lam (n - j * P.natDegree) else 0 := by
  obtain ⟨-, hc, hirr⟩ := mem_irreds.1 hP
  have hcj := coeff_pow_zero hc j
  have hdj : (P ^ j).natDegree = j * P.natDegree := natDegree_pow P j
  rw [← Finset.sum_filter]
  split
  · rename_i hle
    rw [Lam, Finset.mul_sum]
    symm
    refine Finset.sum_bij (fun h _ => P ^ j * h) ?_ ?_ ?_ ?_
    · intro h hh
      obtain ⟨h1, h2⟩ := mem_monics.1 hh
      refine Finset.mem_filter.2 ⟨mem_monics.2 ⟨?_, ?_⟩, dvd_mul_right _ _⟩
      · rw [natDegree_mul (ne_of_coeff hcj) (ne_of_coeff h2), hdj, h1]; omega
      · rw [mul_coeff_zero, hcj, h2, one_mul]
    · intro a _ b _ hab
      exact mul_left_cancel₀ (ne_of_coeff hcj) hab
    · intro g hg
      obtain ⟨hg, h, rfl⟩ := Finset.mem_filter.1 hg
      obtain ⟨h1, h2⟩ := mem_monics.1 hg
      rw [mul_coeff_zero, hcj, one_mul] at h2
      rw [natDegree_mul (ne_of_coeff hcj) (ne_of_coeff h2), hdj] at h1
      exact ⟨h, mem_monics.2 ⟨by omega, h2⟩, rfl⟩
    · intro h hh
      rw [lam_mul hcj (mem_monics.1 hh).2, lam_pow hc]
  · rename_i hle
    apply Finset.sum_eq_zero
    intro g hg
    exfalso
    obtain ⟨hg, hdv⟩ := Finset.mem_filter.1 hg
    obtain ⟨h1, h2⟩ := mem_monics.1 hg
    have := natDegree_le_of_dvd hdv (ne_of_coeff h2)
    omega

/-- the sum over the powers of degree `k` of irreducible polynomials -/
noncomputable def powers (n k : ℕ) : ℤ :=
  ∑ P ∈ irreds n, ∑ j ∈ Finset.Icc 1 n, if j * P.natDegree = k then (P.natDegree : ℤ) * lam P ^ j else 0

/-- Newton's identity between the two kinds of sums -/
theorem newton (n : ℕ) : (n : ℤ) * Lam n = ∑ k ∈ Finset.Icc 1 n, powers n k * Lam (n - k) := by
  classical
  have h1 : (n : ℤ) * Lam n = ∑ g ∈ monics n, ∑ P ∈ irreds n, ∑ j ∈ Finset.Icc 1 n,
      (if P ^ j ∣ g then (P.natDegree : ℤ) * lam g else 0) := by
    rw [Lam, Finset.mul_sum]
    refine Finset.sum_congr rfl fun g hg => ?_
    have := degree_eq_sum hg
    have hcast : (n : ℤ) = ∑ P ∈ irreds n, ∑ j ∈ Finset.Icc 1 n, (if P ^ j ∣ g then (P.natDegree : ℤ) else 0) := by
      conv_lhs => rw [← this]
      push_cast
      rfl
    rw [hcast, Finset.sum_mul]
    refine Finset.sum_congr rfl fun P _ => ?_
    rw [Finset.sum_mul]
    refine Finset.sum_congr rfl fun j _ => ?_
    rw [ite_mul, zero_mul]
  have h2 : ∀ P ∈ irreds n, ∀ j ∈ Finset.Icc 1 n,
      (∑ g ∈ monics n, if P ^ j ∣ g then (P.natDegree : ℤ) * lam g else 0) =
        ∑ k ∈ Finset.Icc 1 n, (if j * P.natDegree = k then (P.natDegree : ℤ) * lam P ^ j else 0) * Lam (n - k) := by
    intro P hP j hj
    have hpos : 0 < P.natDegree := (mem_irreds.1 hP).2.2.natDegree_pos
    have hj1 := (Finset.mem_Icc.1 hj).1
    have e : (∑ g ∈ monics n, if P ^ j ∣ g then (P.natDegree : ℤ) * lam g else 0) =
        P.natDegree * ∑ g ∈ monics n, if P ^ j ∣ g then lam g else 0 := by
      rw [Finset.mul_sum]
      exact Finset.sum_congr rfl fun g _ => by rw [mul_ite, mul_zero]
    rw [e, sum_multiples hP]
    have hk1 : 1 ≤ j * P.natDegree := Nat.mul_pos hj1 hpos
    by_cases hle : j * P.natDegree ≤ n
    · rw [if_pos hle, Finset.sum_eq_single (j * P.natDegree)]
      · rw [if_pos rfl, mul_assoc]
      · intro k _ hk
        rw [if_neg (Ne.symm hk), zero_mul]
      · intro hk
        exact absurd (Finset.mem_Icc.2 ⟨hk1, hle⟩) hk
    · rw [if_neg hle, mul_zero, Finset.sum_eq_zero]
      intro k hk
      rw [if_neg (by have := (Finset.mem_Icc.1 hk).2; omega), zero_mul]
  rw [h1, Finset.sum_comm]
  have h3 : ∀ P ∈ irreds n, (∑ g ∈ monics n, ∑ j ∈ Finset.Icc 1 n, (if P ^ j ∣ g then (P.natDegree : ℤ) * lam g else 0)) =
      ∑ k ∈ Finset.Icc 1 n, (∑ j ∈ Finset.Icc 1 n, if j * P.natDegree = k then (P.natDegree : ℤ) * lam P ^ j else 0) * Lam (n - k) := by
    intro P hP
    rw [Finset.sum_comm, Finset.sum_congr rfl (h2 P hP), Finset.sum_comm]
    exact Finset.sum_congr rfl fun k _ => by rw [Finset.sum_mul]
  rw [Finset.sum_congr rfl h3, Finset.sum_comm]
  exact Finset.sum_congr rfl fun k _ => by rw [powers, Finset.sum_mul]

end Ecgen.Koblitz
