import Verif.Koblitz.Weil

/-!
# The number of points of a curve over a binary field is even, and at least four
-/

namespace Ecgen.Unsat
open Ecgen.Count Ecgen.Koblitz Polynomial

variable {F : Type*} [Field F] [Fintype F] [DecidableEq F] [Algebra (ZMod 2) F] [CharP F 2]

/-- the points with a given `x` -/
def fibre (a b x : F) : Nat := (Finset.univ.filter fun y : F => y ^ 2 + x * y = x ^ 3 + a * x ^ 2 + b).card

omit [Algebra (ZMod 2) F] in
theorem fibre_zero (a b : F) : fibre a b 0 = 1 := by
  have hbij : Function.Bijective (frobenius F 2) := by
    rw [← Finite.injective_iff_bijective]; exact (frobenius F 2).injective
  obtain ⟨y0, hy0⟩ := hbij.2 b
  have e : ∀ y : F, frobenius F 2 y = y ^ 2 := fun y => rfl
  unfold fibre
  rw [Finset.card_eq_one]
  refine ⟨y0, ?_⟩
  ext y
  simp only [Finset.mem_filter, Finset.mem_univ, true_and, Finset.mem_singleton]
  constructor
  · intro h
    apply hbij.1
    rw [hy0, e]
    linear_combination h
  · rintro rfl
    rw [e] at hy0
    linear_combination hy0

omit [CharP F 2] [Algebra (ZMod 2) F] in
theorem fibre_as (a b x : F) (hx : x ≠ 0) : fibre a b x = (Finset.univ.filter fun z : F => z ^ 2 + z = x + a + b / x ^ 2).card := by
  symm
  apply Finset.card_bij (fun z _ => x * z)
  · intro z hz
    simp only [Finset.mem_filter, Finset.mem_univ, true_and] at hz ⊢
    have hb : b = b / x ^ 2 * x ^ 2 := by field_simp
    rw [hb]
    linear_combination x ^ 2 * hz
  · intro z1 _ z2 _ h
    exact mul_left_cancel₀ hx h
  · intro y hy
    simp only [Finset.mem_filter, Finset.mem_univ, true_and] at hy
    refine ⟨y / x, ?_, by field_simp⟩
    simp only [Finset.mem_filter, Finset.mem_univ, true_and]
    field_simp
    linear_combination hy

theorem fibre_two (a b x : F) (hx : x ≠ 0) :
    fibre a b x = if Algebra.trace (ZMod 2) F (x + a + b / x ^ 2) = 0 then 2 else 0 := by
  have h := count_sign (x + a + b / x ^ 2)
  rw [← fibre_as a b x hx] at h
  unfold sign sgn at h
  split at h <;> rename_i ht
  · rw [if_pos ht]; omega
  · rw [if_neg ht]; omega

omit [Algebra (ZMod 2) F] in
theorem card2_fibres (a b : F) : card2 a b = 2 + ∑ x ∈ Finset.univ.filter (fun x : F => x ≠ 0), fibre a b x := by
  have e : card2 a b = (∑ x : F, fibre a b x) + 1 := by
    unfold card2
    exact congrArg (· + 1) (card_fiber (fun x y => y ^ 2 + x * y = x ^ 3 + a * x ^ 2 + b))
  have hz : Finset.univ.filter (fun x : F => ¬ x ≠ 0) = {0} := by
    ext x; simp
  rw [e, ← Finset.sum_filter_add_sum_filter_not Finset.univ (fun x : F => x ≠ 0), hz, Finset.sum_singleton, fibre_zero]
  omega

/-- the number of points is even -/
theorem card2_even (a b : F) : 2 ∣ card2 a b := by
  rw [card2_fibres]
  refine dvd_add (dvd_refl 2) (Finset.dvd_sum fun x hx => ?_)
  rw [fibre_two a b x (Finset.mem_filter.1 hx).2]
  split <;> decide

omit [Algebra (ZMod 2) F] [CharP F 2] in
/-- more than four elements: one that is not in the field with four elements -/
theorem exists_outside (hF : 4 < Fintype.card F) : ∃ t : F, t ^ 4 ≠ t := by
  by_contra h
  push Not at h
  have hne : (X ^ 4 - X : F[X]) ≠ 0 := by
    intro h0
    have : (X ^ 4 - X : F[X]).coeff 4 = 0 := by rw [h0]; simp
    simp [coeff_X] at this
  have hdeg : (X ^ 4 - X : F[X]).natDegree = 4 := by
    compute_degree!
  have hsub : (Finset.univ : Finset F).val ⊆ (X ^ 4 - X : F[X]).roots := by
    intro t _
    rw [mem_roots hne]
    simp [h t]
  have := card_le_degree_of_subset_roots hsub
  rw [hdeg, Finset.card_univ] at this
  omega

/-- over a field with more than four elements there is an affine point with `x ≠ 0` -/
theorem exists_point (hF : 4 < Fintype.card F) (a b : F) : ∃ x : F, x ≠ 0 ∧ fibre a b x = 2 := by
  by_contra hno
  push Not at hno
  have two : (2 : F) = 0 := CharTwo.two_eq_zero
  obtain ⟨c, rfl⟩ : ∃ c : F, c ^ 2 = b := by
    have hbij : Function.Bijective (frobenius F 2) := by
      rw [← Finite.injective_iff_bijective]; exact (frobenius F 2).injective
    obtain ⟨c, hc⟩ := hbij.2 b
    exact ⟨c, hc⟩
  -- the trace of `x + c / x` is constant
  have hk : ∃ k : ZMod 2, ∀ x : F, x ≠ 0 → Algebra.trace (ZMod 2) F x + Algebra.trace (ZMod 2) F (c / x) = k := by
    refine ⟨1 + Algebra.trace (ZMod 2) F a, fun x hx => ?_⟩
    have h := hno x hx
    rw [fibre_two a _ x hx] at h
    have h1 : Algebra.trace (ZMod 2) F (x + a + c ^ 2 / x ^ 2) = 1 := by
      rcases zmod_two_cases (Algebra.trace (ZMod 2) F (x + a + c ^ 2 / x ^ 2)) with h2 | h2
      · rw [if_pos h2] at h; exact absurd rfl h
      · exact h2
    rw [map_add, map_add, ← div_pow, trace_sq] at h1
    rw [← h1]
    have h2 : Algebra.trace (ZMod 2) F a + Algebra.trace (ZMod 2) F a = 0 := CharTwo.add_self_eq_zero _
    linear_combination -h2
  obtain ⟨k, hk⟩ := hk
  obtain ⟨t, ht⟩ := exists_outside (F := F) hF
  have hfac : t ^ 4 + t = t * (t + 1) * (t ^ 2 + t + 1) := by linear_combination (-t ^ 3 - t ^ 2) * two
  have hsum : t ^ 4 + t ≠ 0 := by
    intro h
    apply ht
    linear_combination h - t * two
  rw [hfac] at hsum
  have t0 : t ≠ 0 := fun h => hsum (by rw [h]; ring)
  have t1 : t + 1 ≠ 0 := fun h => hsum (by rw [h]; ring)
  have t2 : t ^ 2 + t + 1 ≠ 0 := fun h => hsum (by rw [h]; ring)
  -- the trace is constant on all nonzero elements
  have hconst : ∀ u : F, u ≠ 0 → Algebra.trace (ZMod 2) F u = k := by
    intro u hu
    by_cases hc : c = 0
    · have := hk u hu
      rwa [hc, zero_div, map_zero, add_zero] at this
    · have hx : c * (t ^ 2 + t + 1) / (t * (t + 1)) / u ≠ 0 :=
        div_ne_zero (div_ne_zero (mul_ne_zero hc t2) (mul_ne_zero t0 t1)) hu
      generalize hxe : c * (t ^ 2 + t + 1) / (t * (t + 1)) / u = x at hx
      have h1 := hk x hx
      have h2 := hk (t * x) (mul_ne_zero t0 hx)
      have h3 := hk ((t + 1) * x) (mul_ne_zero t1 hx)
      have e1 : Algebra.trace (ZMod 2) F x + Algebra.trace (ZMod 2) F (t * x) + Algebra.trace (ZMod 2) F ((t + 1) * x) = 0 := by
        rw [← map_add, ← map_add]
        have : x + t * x + (t + 1) * x = 0 := by linear_combination (x + t * x) * two
        rw [this, map_zero]
      have e2 : Algebra.trace (ZMod 2) F (c / x) + Algebra.trace (ZMod 2) F (c / (t * x)) + Algebra.trace (ZMod 2) F (c / ((t + 1) * x))
          = Algebra.trace (ZMod 2) F u := by
        rw [← map_add, ← map_add]
        congr 1
        have hu' : u = c * (t ^ 2 + t + 1) / (t * (t + 1)) / x := by
          rw [← hxe]
          exact (div_div_cancel₀ (div_ne_zero (mul_ne_zero hc t2) (mul_ne_zero t0 t1))).symm
        rw [hu']
        field_simp
        linear_combination t * two
      have e3 : k + k = 0 := CharTwo.add_self_eq_zero _
      linear_combination -e2 + h1 + h2 + h3 - e1 + e3
  -- but the trace is additive and not zero
  obtain ⟨T, hT⟩ := Algebra.trace_surjective (ZMod 2) F 1
  have hT0 : T ≠ 0 := fun h => by rw [h, map_zero] at hT; exact absurd hT (by decide)
  have hk1 : k = 1 := by rw [← hT]; exact (hconst T hT0).symm
  have h1 := hconst 1 one_ne_zero
  have h2 := hconst t t0
  have h3 := hconst (t + 1) t1
  rw [map_add, h1, h2, hk1] at h3
  exact absurd h3 (by decide)

/-- a curve over a binary field with at least eight elements has at least four points -/
theorem card2_four (hF : 4 < Fintype.card F) (a b : F) : 4 ≤ card2 a b := by
  obtain ⟨x, hx, h⟩ := exists_point hF a b
  rw [card2_fibres]
  have hm : x ∈ Finset.univ.filter (fun x : F => x ≠ 0) := by simp [hx]
  have := Finset.single_le_sum (f := fibre a b) (fun i _ => Nat.zero_le _) hm
  omega

end Ecgen.Unsat
