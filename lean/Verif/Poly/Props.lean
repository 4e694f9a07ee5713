import Verif.Poly.Lemmas
import Mathlib.Algebra.Polynomial.Degree.Defs
import Mathlib.Algebra.Polynomial.Coeff
import Mathlib.Algebra.Polynomial.Monic
import Mathlib.Data.ZMod.Defs
import Mathlib.Algebra.Field.ZMod
import Mathlib.Tactic.IntervalCases

/-!
# Reduction polynomials of binary fields (C26)
-/

namespace Ecgen.Poly

open Polynomial

/-- the polynomial over GF(2) with the given coefficients, lowest first -/
noncomputable def toPoly (v : List Nat) : (ZMod 2)[X] :=
  ∑ i ∈ Finset.range v.length, C ((v.getD i 0 : Nat) : ZMod 2) * X ^ i

theorem coeff_toPoly (v : List Nat) (i : Nat) : (toPoly v).coeff i = ((v.getD i 0 : Nat) : ZMod 2) := by
  unfold toPoly
  rw [Polynomial.finsetSum_coeff]
  simp only [coeff_C_mul, coeff_X_pow]
  by_cases h : i < v.length
  · rw [Finset.sum_eq_single i]
    · simp
    · intro b _ hb; simp [Ne.symm hb]
    · intro hh; simp at hh; omega
  · rw [Finset.sum_eq_zero]
    · simp [List.getElem?_eq_none (Nat.le_of_not_lt h)]
    · intro b hb; simp at hb; rw [if_neg (by omega)]; simp

/-- A trinomial `x^m + x^a + 1` or pentanomial `x^m + x^a + x^b + x^c + 1` of degree `m` over GF(2) with
exponents strictly between `0` and `m`, all different -/
def TriOrPenta (m : Nat) (f : (ZMod 2)[X]) : Prop :=
  (∃ a, 0 < a ∧ a < m ∧ f = X ^ m + X ^ a + 1) ∨
  (∃ a b c, 0 < a ∧ a < m ∧ 0 < b ∧ b < m ∧ 0 < c ∧ c < m ∧ a ≠ b ∧ a ≠ c ∧ b ≠ c ∧
    f = X ^ m + X ^ a + X ^ b + X ^ c + 1)

theorem findRow (m : Nat) (r : Row) (h : find m = some r) : 2 ≤ m ∧ m ≤ 10000 ∧ r.m = m ∧
    (triOk r = true ∨ pentaOk r = true) := by
  unfold find at h
  by_cases he : exists_ m = true
  · rw [if_pos he] at h
    have hm : 2 ≤ m ∧ m ≤ 10000 := by simpa [exists_] using he
    rw [Nat.mod_eq_of_lt (show m < 2 ^ 32 by omega)] at h
    obtain ⟨h1, h2, -, -⟩ := chosen_ok m
    cases hs : bsearch (compare m) (chosen m).1 with
    | some x =>
      rw [hs] at h; cases h
      obtain ⟨hx, hc⟩ := bsearch_sound _ _ _ hs
      rw [compare_small m r hm.2 (triOk_bound r (h1 r hx).2).1] at hc
      exact ⟨hm.1, hm.2, by omega, Or.inl (h1 r hx).2⟩
    | none =>
      rw [hs] at h
      simp only at h
      obtain ⟨hx, hc⟩ := bsearch_sound _ _ _ h
      rw [compare_small m r hm.2 (pentaOk_bound r (h2 r hx).2).1] at hc
      exact ⟨hm.1, hm.2, by omega, Or.inr (h2 r hx).2⟩
  · rw [if_neg he] at h; cases h

theorem findSome (m : Nat) (h : 2 ≤ m) (h' : m ≤ 10000) (hne : m ≠ 1060) : ∃ r, find m = some r := by
  unfold find
  rw [if_pos (by simp [exists_, h, h']), Nat.mod_eq_of_lt (show m < 2 ^ 32 by omega)]
  obtain ⟨h1, h2, h3, h4⟩ := chosen_ok m
  cases hs : bsearch (compare m) (chosen m).1 with
  | some x => exact ⟨x, rfl⟩
  | none =>
    rcases chosen_cover m h h' hne with ⟨r, hr, e⟩ | ⟨r, hr, e⟩
    · rw [find_in m h' _ (fun r hr => (triOk_bound r (h1 r hr).2).1) h3 r hr e] at hs
      cases hs
    · exact ⟨r, find_in m h' _ (fun r hr => (pentaOk_bound r (h2 r hr).2).1) h4 r hr e⟩

theorem put1_some (v : List Nat) (i : Nat) (h : i < v.length) : put1 v i = some (v.set i 1) := if_pos h

theorem genCoeffs_eq (r : Row) (h1 : r.e1 < r.m) (h2 : r.e2 < r.m) (h3 : r.e3 < r.m) :
    genCoeffs r = some (((((((List.replicate (r.m + 1) 0).set r.m 1).set r.e1 1).set r.e2 1).set r.e3 1)).set 0 1) := by
  unfold genCoeffs
  rw [put1_some _ _ (by simp)]
  simp only [Option.bind_eq_bind, Option.bind_some]
  rw [put1_some _ _ (by simp; omega), Option.bind_some, put1_some _ _ (by simp; omega), Option.bind_some,
    put1_some _ _ (by simp; omega), Option.bind_some, put1_some _ _ (by simp)]

theorem getD_set (v : List Nat) (i j : Nat) (hi : i < v.length) :
    (v.set i 1).getD j 0 = if j = i then 1 else v.getD j 0 := by
  simp only [List.getD_eq_getElem?_getD, List.getElem?_set]
  by_cases h : i = j
  · subst h; simp [hi]
  · simp [h, Ne.symm h]

theorem genCoeffs_coeff (r : Row) (v : List Nat) (h1 : r.e1 < r.m) (h2 : r.e2 < r.m) (h3 : r.e3 < r.m)
    (hv : genCoeffs r = some v) (j : Nat) :
    (toPoly v).coeff j = if j = 0 ∨ j = r.e3 ∨ j = r.e2 ∨ j = r.e1 ∨ j = r.m then 1 else 0 := by
  rw [genCoeffs_eq r h1 h2 h3, Option.some.injEq] at hv
  subst hv
  rw [coeff_toPoly, getD_set _ _ _ (by simp), getD_set _ _ _ (by simp; omega), getD_set _ _ _ (by simp; omega),
    getD_set _ _ _ (by simp; omega), getD_set _ _ _ (by simp)]
  have : (List.replicate (r.m + 1) 0).getD j 0 = 0 := by
    simp only [List.getD_eq_getElem?_getD, List.getElem?_replicate]; split <;> rfl
  rw [this]
  by_cases a : j = 0 <;> by_cases b : j = r.e3 <;> by_cases c : j = r.e2 <;> by_cases d : j = r.e1 <;>
    by_cases e : j = r.m <;> simp only [a, b, c, d, e, if_true, if_false, or_true, or_false, true_or] <;> simp

theorem toPoly_tri (r : Row) (hok : triOk r = true) (v : List Nat) (hg : genCoeffs r = some v) :
    toPoly v = X ^ r.m + X ^ r.e1 + 1 := by
  obtain ⟨-, p1, l1, z2, z3⟩ := triOk_bound r hok
  ext j
  rw [genCoeffs_coeff r _ l1 (by omega) (by omega) hg, z2, z3]
  simp only [coeff_add, coeff_X_pow, coeff_one]
  by_cases a : j = 0
  · subst a; rw [if_neg (show ¬ (0 = r.m) by omega), if_neg (show ¬ (0 = r.e1) by omega)]; simp
  · by_cases b : j = r.e1
    · subst b; rw [if_neg (show ¬ (r.e1 = r.m) by omega), if_neg (show ¬ (r.e1 = 0) by omega)]; simp
    · by_cases c : j = r.m
      · subst c; simp [a, b]
      · simp [a, b, c]

theorem toPoly_penta (r : Row) (hok : pentaOk r = true) (v : List Nat) (hg : genCoeffs r = some v) :
    toPoly v = X ^ r.m + X ^ r.e1 + X ^ r.e2 + X ^ r.e3 + 1 := by
  obtain ⟨-, p1, l1, p2, l2, p3, l3, d12, d13, d23⟩ := pentaOk_bound r hok
  ext j
  rw [genCoeffs_coeff r _ l1 l2 l3 hg]
  simp only [coeff_add, coeff_X_pow, coeff_one]
  have g0 : r.m ≠ 0 := by omega
  have g1 : r.e1 ≠ 0 := by omega
  have g2 : r.e2 ≠ 0 := by omega
  have g3 : r.e3 ≠ 0 := by omega
  have k1 : r.e1 ≠ r.m := by omega
  have k2 : r.e2 ≠ r.m := by omega
  have k3 : r.e3 ≠ r.m := by omega
  by_cases a : j = 0
  · subst a; simp [g0.symm, g1.symm, g2.symm, g3.symm]
  · by_cases b : j = r.e1
    · subst b; simp [g1, k1, d12, d13]
    · by_cases c : j = r.e2
      · subst c; simp [g2, k2, d12.symm, d23]
      · by_cases d : j = r.e3
        · subst d; simp [g3, k3, d13.symm, d23.symm]
        · simp [a, b, c, d]

/-- C26, partial (the full claim, without `m ≠ 1060`, is refuted below): for every degree for which the tool announces a
polynomial the lookup succeeds and the polynomial handed to PARI is a trinomial or pentanomial of exactly that
degree. -/
theorem findGen_partial (m : Nat) (h : 2 ≤ m) (h' : m ≤ 10000) (hne : m ≠ 1060) :
    ∃ v, findGen m = some v ∧ TriOrPenta m (toPoly v) := by
  obtain ⟨r, hr⟩ := findSome m h h' hne
  obtain ⟨-, -, e, hok⟩ := findRow m r hr
  subst e
  rcases hok with hok | hok
  · obtain ⟨-, p1, l1, z2, z3⟩ := triOk_bound r hok
    have hg := genCoeffs_eq r l1 (by omega) (by omega)
    exact ⟨_, by unfold findGen; rw [hr, Option.bind_some, hg], Or.inl ⟨r.e1, p1, l1, toPoly_tri r hok _ hg⟩⟩
  · obtain ⟨-, p1, l1, p2, l2, p3, l3, d12, d13, d23⟩ := pentaOk_bound r hok
    have hg := genCoeffs_eq r l1 l2 l3
    exact ⟨_, by unfold findGen; rw [hr, Option.bind_some, hg],
      Or.inr ⟨r.e1, r.e2, r.e3, p1, l1, p2, l2, p3, l3, d12, d13, d23, toPoly_penta r hok _ hg⟩⟩

/-- C26: outside of the announced range nothing is found. -/
theorem find_outside (m : Nat) (h : ¬ (2 ≤ m ∧ m ≤ 10000)) : find m = none := by
  unfold find
  rw [if_neg]
  simp [exists_]
  omega

/-- C26 is false at `m = 1060`: the size is announced as available but the lookup fails, so building the field
dereferences a null pointer. -/
theorem find_1060_false : exists_ 1060 = true ∧ findGen 1060 = none := by
  refine ⟨by decide, ?_⟩
  have h1 : ∀ r ∈ ansiTrinomials, r.m ≠ 1060 := by
    have : ansiTrinomials.all (fun r => r.m != 1060) = true := by decide +kernel
    intro r hr; simpa using List.all_eq_true.1 this r hr
  have h2 : ∀ r ∈ ansiPentanomials, r.m ≠ 1060 := by
    have : ansiPentanomials.all (fun r => r.m != 1060) = true := by decide +kernel
    intro r hr; simpa using List.all_eq_true.1 this r hr
  have hc : chosen 1060 = (ansiTrinomials, ansiPentanomials) := rfl
  cases hf : find 1060 with
  | none => unfold findGen; rw [hf]; rfl
  | some r =>
    exfalso
    obtain ⟨-, -, e, -⟩ := findRow 1060 r hf
    unfold find at hf
    rw [if_pos (by decide), hc] at hf
    cases hs : bsearch (compare (1060 % 2 ^ 32)) (ansiTrinomials, ansiPentanomials).1 with
    | some x =>
      rw [hs] at hf; cases hf
      exact h1 r (bsearch_sound _ _ _ hs).1 e
    | none =>
      rw [hs] at hf
      exact h2 r (bsearch_sound _ _ _ hf).1 e

/-- The size 1060 is the only one: the announcement is right exactly when it is not asked for 1060. -/
theorem announced_iff (m : Nat) (h : exists_ m = true) : (find m = none) ↔ m = 1060 := by
  have hm : 2 ≤ m ∧ m ≤ 10000 := by simpa [exists_] using h
  constructor
  · intro hn
    by_contra hne
    obtain ⟨r, hr⟩ := findSome m hm.1 hm.2 hne
    rw [hr] at hn; cases hn
  · rintro rfl
    have := find_1060_false.2
    cases hf : find 1060 with
    | none => rfl
    | some r =>
      obtain ⟨-, -, e, hok⟩ := findRow _ _ hf
      unfold findGen at this
      rw [hf, Option.bind_some] at this
      rcases hok with hok | hok
      · obtain ⟨-, p1, l1, z2, z3⟩ := triOk_bound r hok
        rw [genCoeffs_eq r l1 (by omega) (by omega)] at this
        cases this
      · obtain ⟨-, p1, l1, p2, l2, p3, l3, -⟩ := pentaOk_bound r hok
        rw [genCoeffs_eq r l1 l2 l3] at this
        cases this

example : findGen 233 ≠ none ∧ findGen 163 ≠ none := by
  obtain ⟨v, hv, -⟩ := findGen_partial 233 (by decide) (by decide) (by decide)
  obtain ⟨w, hw, -⟩ := findGen_partial 163 (by decide) (by decide) (by decide)
  rw [hv, hw]; exact ⟨by simp, by simp⟩

end Ecgen.Poly
