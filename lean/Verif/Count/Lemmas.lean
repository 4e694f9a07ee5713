import Verif.Count.Spec
import Mathlib.Tactic.Ring
import Mathlib.Tactic.LinearCombination
import Mathlib.Algebra.CharP.Two
import Mathlib.Tactic.FieldSimp
import Mathlib.FieldTheory.Perfect

namespace Ecgen.Count

open Finset

variable {F : Type*} [Field F] [Fintype F] [DecidableEq F]

/-- counting solutions fibre by fibre -/
theorem card_fiber {F : Type*} [Fintype F] (f : F → F → Prop) [∀ x y, Decidable (f x y)] :
    (univ.filter fun q : F × F => f q.1 q.2).card = ∑ x : F, (univ.filter fun y : F => f x y).card := by
  rw [Finset.card_filter, ← Finset.univ_product_univ, Finset.sum_product]
  exact Finset.sum_congr rfl fun x _ => by rw [Finset.card_filter]

/-- the number of points in terms of the quadratic character -/
theorem card_char (hF : ringChar F ≠ 2) (a b : F) :
    (card a b : Int) = Fintype.card F + 1 + ∑ x : F, quadraticChar F (x ^ 3 + a * x + b) := by
  have e : card a b = (∑ x : F, (univ.filter fun y : F => y ^ 2 = x ^ 3 + a * x + b).card) + 1 := by
    unfold card
    exact congrArg (· + 1) (card_fiber (fun x y => y ^ 2 = x ^ 3 + a * x + b))
  rw [e]
  push_cast
  have : ∀ x : F, ((univ.filter fun y : F => y ^ 2 = x ^ 3 + a * x + b).card : Int) =
      quadraticChar F (x ^ 3 + a * x + b) + 1 := by
    intro x
    rw [← quadraticChar_card_sqrts hF]
    congr 2
    ext y
    simp
  simp only [this, Finset.sum_add_distrib, Finset.sum_const, Finset.card_univ, nsmul_eq_mul, mul_one]
  ring

/-- the quadratic twist -/
theorem card_twist (hF : ringChar F ≠ 2) (a b T : F) (hT : ¬ IsSquare T) :
    card a b + card (a * T ^ 2) (b * T ^ 3) = 2 * Fintype.card F + 2 := by
  have hT0 : T ≠ 0 := fun h => hT (h ▸ IsSquare.zero)
  have hchi : quadraticChar F T = -1 := quadraticChar_neg_one_iff_not_isSquare.2 hT
  have key : ∑ x : F, quadraticChar F (x ^ 3 + a * T ^ 2 * x + b * T ^ 3) =
      -∑ x : F, quadraticChar F (x ^ 3 + a * x + b) := by
    rw [← Equiv.sum_comp (Equiv.mulLeft₀ T hT0), ← Finset.sum_neg_distrib]
    refine Finset.sum_congr rfl fun x _ => ?_
    have : (Equiv.mulLeft₀ T hT0 x) ^ 3 + a * T ^ 2 * (Equiv.mulLeft₀ T hT0 x) + b * T ^ 3 = T ^ 3 * (x ^ 3 + a * x + b) := by
      show (T * x) ^ 3 + a * T ^ 2 * (T * x) + b * T ^ 3 = _
      ring
    rw [this, map_mul, map_pow, hchi]
    ring
  have h1 := card_char hF a b
  have h2 := card_char hF (a * T ^ 2) (b * T ^ 3)
  rw [key] at h2
  have : (card a b : Int) + card (a * T ^ 2) (b * T ^ 3) = 2 * Fintype.card F + 2 := by rw [h1, h2]; ring
  exact_mod_cast this

/-- isomorphic curves -/
theorem card_iso (hF : ringChar F ≠ 2) (a b d : F) (hd : d ≠ 0) : card (a * d ^ 4) (b * d ^ 6) = card a b := by
  have key : ∑ x : F, quadraticChar F (x ^ 3 + a * d ^ 4 * x + b * d ^ 6) =
      ∑ x : F, quadraticChar F (x ^ 3 + a * x + b) := by
    rw [← Equiv.sum_comp (Equiv.mulLeft₀ (d ^ 2) (pow_ne_zero 2 hd))]
    refine Finset.sum_congr rfl fun x _ => ?_
    have : (Equiv.mulLeft₀ (d ^ 2) (pow_ne_zero 2 hd) x) ^ 3 + a * d ^ 4 * (Equiv.mulLeft₀ (d ^ 2) (pow_ne_zero 2 hd) x)
        + b * d ^ 6 = (d ^ 3) ^ 2 * (x ^ 3 + a * x + b) := by
      show (d ^ 2 * x) ^ 3 + a * d ^ 4 * (d ^ 2 * x) + b * d ^ 6 = _
      ring
    rw [this, map_mul, quadraticChar_sq_one' (pow_ne_zero 3 hd), one_mul]
  have h1 := card_char hF a b
  have h2 := card_char hF (a * d ^ 4) (b * d ^ 6)
  rw [key, ← h1] at h2
  exact_mod_cast h2

/-- an odd right-hand side over a field where -1 is not a square -/
theorem card_odd (hF : ringChar F ≠ 2) (hm : ¬ IsSquare (-1 : F)) (a : F) : card a 0 = Fintype.card F + 1 := by
  have hchi : quadraticChar F (-1) = -1 := quadraticChar_neg_one_iff_not_isSquare.2 hm
  have key : ∑ x : F, quadraticChar F (x ^ 3 + a * x + 0) = -∑ x : F, quadraticChar F (x ^ 3 + a * x + 0) := by
    conv_lhs => rw [← Equiv.sum_comp (Equiv.neg F)]
    rw [← Finset.sum_neg_distrib]
    refine Finset.sum_congr rfl fun x _ => ?_
    have : (Equiv.neg F x) ^ 3 + a * (Equiv.neg F x) + 0 = (-1) * (x ^ 3 + a * x + 0) := by
      show (-x) ^ 3 + a * (-x) + 0 = _
      ring
    rw [this, map_mul, hchi]
    ring
  have h0 : ∑ x : F, quadraticChar F (x ^ 3 + a * x + 0) = 0 := by omega
  have h1 := card_char hF a 0
  rw [h0] at h1
  have : (card a 0 : Int) = (Fintype.card F + 1 : Nat) := by rw [h1]; push_cast; ring
  exact_mod_cast this

/-- `y² = x³ + b` when cubing is a bijection -/
theorem card_cubes (hF : ringChar F ≠ 2) (hc : Function.Bijective fun x : F => x ^ 3) (b : F) :
    card 0 b = Fintype.card F + 1 := by
  have h0 : ∑ x : F, quadraticChar F (x ^ 3 + 0 * x + b) = 0 := by
    rw [← quadraticChar_sum_zero hF]
    have : Function.Bijective fun x : F => x ^ 3 + 0 * x + b := by
      have h2 : Function.Bijective fun x : F => x + b := (Equiv.addRight b).bijective
      have := h2.comp hc
      convert this using 2
      simp
    exact Function.Bijective.sum_comp this (fun x => quadraticChar F x)
  have h1 := card_char hF 0 b
  rw [h0] at h1
  have : (card 0 b : Int) = (Fintype.card F + 1 : Nat) := by rw [h1]; push_cast; ring
  exact_mod_cast this

omit [DecidableEq F] in
/-- cubing is a bijection for `q = 2 mod 3` -/
theorem cube_bijective (h : Fintype.card F % 3 = 2) : Function.Bijective fun x : F => x ^ 3 := by
  rw [← Finite.injective_iff_bijective]
  set q := Fintype.card F with hq
  obtain ⟨k, hk⟩ : ∃ k, 3 * k = 2 * (q - 1) + 1 := ⟨(2 * (q - 1) + 1) / 3, by omega⟩
  intro x y hxy
  have hxy : x ^ 3 = y ^ 3 := hxy
  have pw : ∀ z : F, (z ^ 3) ^ k = z := by
    intro z
    rw [← pow_mul, hk, pow_add, pow_one, mul_comm 2, pow_mul]
    rcases eq_or_ne z 0 with rfl | hz
    · simp
    · rw [FiniteField.pow_card_sub_one_eq_one z hz]; simp
  rw [← pw x, hxy, pw y]

/-- the number of solutions of `z² + z = c` in characteristic 2 is 0 or 2, and `T` switches between the two cases -/
theorem artinSchreier [CharP F 2] (T c : F) (hT : ∀ z : F, z ^ 2 + z ≠ T) :
    (univ.filter fun z : F => z ^ 2 + z = c).card + (univ.filter fun z : F => z ^ 2 + z = c + T).card = 2 := by
  have two : (2 : F) = 0 := CharTwo.two_eq_zero
  have fib : ∀ d z0 : F, z0 ^ 2 + z0 = d → (univ.filter fun z : F => z ^ 2 + z = d) = {z0, z0 + 1} := by
    intro d z0 h0
    ext z
    simp only [mem_filter, mem_univ, true_and, mem_insert, mem_singleton]
    constructor
    · intro h
      have : (z - z0) * (z - (z0 + 1)) = 0 := by
        linear_combination h - h0 + (z0 ^ 2 + z0 - z * z0 - z) * two
      rcases mul_eq_zero.1 this with h | h
      · exact Or.inl (sub_eq_zero.1 h)
      · exact Or.inr (sub_eq_zero.1 h)
    · rintro (rfl | rfl)
      · exact h0
      · linear_combination h0 + (z0 + 1) * two
  have hcard : ∀ z0 : F, ({z0, z0 + 1} : Finset F).card = 2 := fun z0 => Finset.card_pair (by simp)
  -- the image of `z² + z` has index two: its complement is its translate by `T`
  have himg : ∀ d : F, (∃ z, z ^ 2 + z = d) ∨ (∃ z, z ^ 2 + z = d + T) := by
    let img : Finset F := univ.image fun z : F => z ^ 2 + z
    have h2 : img.card * 2 = Fintype.card F := by
      rw [← Finset.card_univ, Finset.card_eq_sum_card_image (fun z : F => z ^ 2 + z) univ]
      rw [Finset.sum_congr rfl (g := fun _ => 2)]
      · rw [Finset.sum_const, smul_eq_mul]
      · intro d hd
        obtain ⟨z0, -, h0⟩ := Finset.mem_image.1 hd
        rw [fib d z0 h0, hcard]
    let tr : Finset F := img.image fun d => d + T
    have htr : tr.card = img.card := Finset.card_image_of_injective _ (add_left_injective T)
    have hdis : Disjoint img tr := by
      rw [Finset.disjoint_left]
      intro d h1 h3
      obtain ⟨z1, -, h1⟩ := Finset.mem_image.1 h1
      obtain ⟨d', h4, h3⟩ := Finset.mem_image.1 h3
      obtain ⟨z2, -, h4⟩ := Finset.mem_image.1 h4
      refine hT (z1 + z2) ?_
      have h3 : d' + T = d := h3
      linear_combination h1 + h4 - h3 + (z1 * z2 + d') * two
    have hun : img ∪ tr = univ := by
      apply Finset.eq_univ_of_card
      rw [Finset.card_union_of_disjoint hdis, htr]
      omega
    intro d
    have : d ∈ img ∪ tr := by rw [hun]; exact mem_univ d
    rcases Finset.mem_union.1 this with h | h
    · obtain ⟨z, -, h⟩ := Finset.mem_image.1 h
      exact Or.inl ⟨z, h⟩
    · obtain ⟨d', h4, h3⟩ := Finset.mem_image.1 h
      obtain ⟨z2, -, h4⟩ := Finset.mem_image.1 h4
      have h3 : d' + T = d := h3
      exact Or.inr ⟨z2, by linear_combination h4 + h3 - T * two⟩
  have empty : ∀ d z0 : F, z0 ^ 2 + z0 = d → ∀ z : F, z ^ 2 + z ≠ d + T := by
    intro d z0 h0 z h
    refine hT (z + z0) ?_
    linear_combination h + h0 + (z * z0 + d) * two
  rcases himg c with ⟨z0, h0⟩ | ⟨z0, h0⟩
  · rw [fib c z0 h0, hcard, Finset.filter_false_of_mem (fun z _ => empty c z0 h0 z)]
    simp
  · rw [fib (c + T) z0 h0, hcard, Finset.filter_false_of_mem]
    · simp
    · intro z _ h
      exact empty c z h z0 h0

/-- the twist in characteristic 2 -/
theorem card2_twist [CharP F 2] (a b T : F) (hT : ∀ z : F, z ^ 2 + z ≠ T) :
    card2 a b + card2 (a + T) b = 2 * Fintype.card F + 2 := by
  have two : (2 : F) = 0 := CharTwo.two_eq_zero
  have e : ∀ a : F, card2 a b = (∑ x : F, (univ.filter fun y : F => y ^ 2 + x * y = x ^ 3 + a * x ^ 2 + b).card) + 1 := by
    intro a
    unfold card2
    exact congrArg (· + 1) (card_fiber (fun x y => y ^ 2 + x * y = x ^ 3 + a * x ^ 2 + b))
  rw [e, e]
  have key : ∀ x : F, (univ.filter fun y : F => y ^ 2 + x * y = x ^ 3 + a * x ^ 2 + b).card +
      (univ.filter fun y : F => y ^ 2 + x * y = x ^ 3 + (a + T) * x ^ 2 + b).card = 2 := by
    intro x
    rcases eq_or_ne x 0 with rfl | hx
    · have hone : ∀ c : F, (univ.filter fun y : F => y ^ 2 + 0 * y = 0 ^ 3 + c * 0 ^ 2 + b).card = 1 := by
        intro c
        have hbij : Function.Bijective (frobenius F 2) := by
          rw [← Finite.injective_iff_bijective]; exact (frobenius F 2).injective
        obtain ⟨y0, hy0⟩ := hbij.2 b
        rw [Finset.card_eq_one]
        refine ⟨y0, ?_⟩
        ext y
        simp only [mem_filter, mem_univ, true_and, mem_singleton]
        have e : ∀ y : F, frobenius F 2 y = y ^ 2 := fun y => rfl
        constructor
        · intro h
          apply hbij.1
          rw [hy0, e]
          linear_combination h
        · rintro rfl
          rw [e] at hy0
          linear_combination hy0
      rw [hone, hone]
    · have hsc : ∀ c : F, (univ.filter fun y : F => y ^ 2 + x * y = x ^ 3 + c * x ^ 2 + b).card =
          (univ.filter fun z : F => z ^ 2 + z = x + c + b / x ^ 2).card := by
        intro c
        symm
        apply Finset.card_bij (fun z _ => x * z)
        · intro z hz
          simp only [mem_filter, mem_univ, true_and] at hz ⊢
          have hb : b = b / x ^ 2 * x ^ 2 := by field_simp
          rw [hb]
          linear_combination x ^ 2 * hz
        · intro z1 _ z2 _ h
          exact mul_left_cancel₀ hx h
        · intro y hy
          simp only [mem_filter, mem_univ, true_and] at hy
          refine ⟨y / x, ?_, by field_simp⟩
          simp only [mem_filter, mem_univ, true_and]
          field_simp
          linear_combination hy
      rw [hsc a, hsc (a + T), show x + (a + T) + b / x ^ 2 = x + a + b / x ^ 2 + T by ring]
      exact artinSchreier T (x + a + b / x ^ 2) hT
  have : ∑ x : F, ((univ.filter fun y : F => y ^ 2 + x * y = x ^ 3 + a * x ^ 2 + b).card +
      (univ.filter fun y : F => y ^ 2 + x * y = x ^ 3 + (a + T) * x ^ 2 + b).card) = Fintype.card F * 2 := by
    rw [Finset.sum_congr rfl (fun x _ => key x), Finset.sum_const, Finset.card_univ, smul_eq_mul]
  rw [Finset.sum_add_distrib] at this
  omega

end Ecgen.Count
