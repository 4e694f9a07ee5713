import Verif.Cm.Props
import Verif.Count.Lemmas

/-!
# The curves of `--anomalous` have as many points as the field

From the number of points of one curve with complex multiplication by the integers of `ℚ(√-163)`, which a theorem of Gross and Stark gives: the curve
constructed is its twist by a number that is no square.
-/

namespace Ecgen.Special

/-- the curve constructed in `anomalous_gen_equation` from a factor `c` with the symbol asked for in `anomalous_c` -/
theorem anomalous_order (q : Nat) [Fact q.Prime] (b : Int) (hb : (q : Int) = Cm.anomalousP 163 b)
    (hG : Count.card (-34790720 : ZMod q) 78984748304 = q + 2) (c : Nat) (hc : jacobiSym c q = -jacobiSym 3717878010 q) :
    ((1728 - (-640320) ^ 3 : Int) : ZMod q) ≠ 0 ∧
    Count.card (Cm.anomalousCoeffs (((-640320) ^ 3 : Int) : ZMod q) (c : ZMod q)).1 (Cm.anomalousCoeffs (((-640320) ^ 3 : Int) : ZMod q) (c : ZMod q)).2 = q := by
  have hq : q.Prime := Fact.out
  have h41 := Cm.neg163_field b q hb
  have hnull := Cm.equation_never_null b q hq hb
  have hsym : jacobiSym 3717878010 q ≠ 0 := by
    unfold Cm.anomalousNull at hnull
    simpa using hnull
  have small : ∀ m : Nat, 0 < m → m < 41 → (m : ZMod q) ≠ 0 := by
    intro m h1 h2 h
    rw [ZMod.natCast_eq_zero_iff] at h
    have := Nat.le_of_dvd h1 h
    omega
  have n2 : (2 : ZMod q) ≠ 0 := by exact_mod_cast small 2 (by omega) (by omega)
  have n3 : (3 : ZMod q) ≠ 0 := by exact_mod_cast small 3 (by omega) (by omega)
  -- the norm equation
  have hnorm : (1 : ZMod q) = -163 * (2 * (b : ZMod q) + 1) ^ 2 := by
    have e : (4 * (q : Int)) = 1 + 163 * (2 * b + 1) ^ 2 := by rw [hb, Cm.anomalousP_163]; ring
    have e2 : ((4 * (q : Int) : Int) : ZMod q) = ((1 + 163 * (2 * b + 1) ^ 2 : Int) : ZMod q) := by rw [e]
    push_cast at e2
    rw [ZMod.natCast_self] at e2
    linear_combination -e2
  have n163 : (-163 : ZMod q) ≠ 0 := by
    intro h
    rw [h, zero_mul] at hnorm
    exact one_ne_zero hnorm
  have sq163 : quadraticChar (ZMod q) (-163) = 1 := by
    rw [quadraticChar_one_iff_isSquare n163]
    have hs : (2 * (b : ZMod q) + 1) ≠ 0 := by
      intro h
      rw [h] at hnorm
      simp at hnorm
    refine ⟨(2 * (b : ZMod q) + 1)⁻¹, ?_⟩
    field_simp
    linear_combination -hnorm
  -- the symbols
  have hleg : ∀ x : Int, jacobiSym x q = quadraticChar (ZMod q) (x : ZMod q) := by
    intro x
    rw [← jacobiSym.legendreSym.to_jacobiSym]
    rfl
  have hca : quadraticChar (ZMod q) (c : ZMod q) = -quadraticChar (ZMod q) (3717878010 : ZMod q) := by
    rw [hleg, hleg] at hc
    exact_mod_cast hc
  have nalpha : (3717878010 : ZMod q) ≠ 0 := by
    intro h
    apply hsym
    rw [hleg]
    push_cast
    rw [h]
    exact quadraticChar_zero
  set α : ZMod q := 3717878010 with hα
  set j : ZMod q := (((-640320) ^ 3 : Int) : ZMod q) with hj
  have ej : j = -262537412640768000 := by rw [hj]; norm_num
  -- the two identities
  have id1 : 3 * (163 * α) ^ 2 * j = -34790720 * (1728 - j) * 13340 ^ 4 := by rw [hα, ej]; norm_num
  have id2 : -2 * (163 * α) ^ 3 * j = 78984748304 * (1728 - j) * 13340 ^ 6 := by rw [hα, ej]; norm_num
  have nα : 163 * α ≠ 0 := mul_ne_zero (by simpa using n163) nalpha
  have nj : 1728 - j ≠ 0 := by
    intro h
    have e : j = 1728 := by linear_combination -h
    rw [h, e] at id1
    have : (3 : ZMod q) ^ 4 * 2 ^ 6 * (163 * α) ^ 2 = 0 := by linear_combination id1
    rcases mul_eq_zero.1 this with h1 | h1
    · rcases mul_eq_zero.1 h1 with h2 | h2
      · exact n3 (pow_eq_zero_iff (by omega) |>.1 h2)
      · exact n2 (pow_eq_zero_iff (by omega) |>.1 h2)
    · exact nα (pow_eq_zero_iff (by omega) |>.1 h1)
  refine ⟨by
    have e : ((1728 - (-640320) ^ 3 : Int) : ZMod q) = 1728 - j := by rw [hj]; push_cast; ring
    rw [e]; exact nj, ?_⟩
  -- the twist
  set T : ZMod q := (c : ZMod q) * 13340 ^ 2 * (-(163 * α))⁻¹ with hT
  have hns : ¬ IsSquare T := by
    intro hsq
    have h1 : IsSquare ((c : ZMod q) * (-163) * α) := by
      have e : (c : ZMod q) * (-163) * α * 13340 ^ 2 = T * (163 * α) ^ 2 := by
        rw [hT, inv_neg]
        field_simp
      have n13340 : (13340 : ZMod q) ≠ 0 := by
        intro h
        have : (3 : ZMod q) * (163 * α) ^ 2 * j = 0 := by rw [id1, h]; ring
        rcases mul_eq_zero.1 this with h1 | h1
        · rcases mul_eq_zero.1 h1 with h2 | h2
          · exact n3 h2
          · exact nα (pow_eq_zero_iff (by omega) |>.1 h2)
        · have h23 : (2 : ZMod q) ^ 18 * 3 ^ 3 * 5 ^ 3 * 23 ^ 3 * 29 ^ 3 = 0 := by
            have : -j = 0 := by rw [h1, neg_zero]
            rw [ej] at this
            rw [← this]; norm_num
          have n5 : (5 : ZMod q) ≠ 0 := by exact_mod_cast small 5 (by omega) (by omega)
          have n23 : (23 : ZMod q) ≠ 0 := by exact_mod_cast small 23 (by omega) (by omega)
          have n29 : (29 : ZMod q) ≠ 0 := by exact_mod_cast small 29 (by omega) (by omega)
          exact absurd h23 (mul_ne_zero (mul_ne_zero (mul_ne_zero (mul_ne_zero (pow_ne_zero _ n2) (pow_ne_zero _ n3)) (pow_ne_zero _ n5))
            (pow_ne_zero _ n23)) (pow_ne_zero _ n29))
      obtain ⟨t, ht⟩ := hsq
      refine ⟨t * (163 * α) * 13340⁻¹, ?_⟩
      have : (c : ZMod q) * (-163) * α = T * (163 * α) ^ 2 * (13340⁻¹) ^ 2 := by
        rw [← e]; field_simp
      rw [this, ht]; ring
    have hval : quadraticChar (ZMod q) ((c : ZMod q) * (-163) * α) = -1 := by
      rw [map_mul, map_mul, sq163, hca]
      have h2 : quadraticChar (ZMod q) α ^ 2 = 1 := quadraticChar_sq_one nalpha
      rw [mul_one]
      linear_combination -h2
    rw [quadraticChar_neg_one_iff_not_isSquare] at hval
    exact hval h1
  have hch : ringChar (ZMod q) ≠ 2 := Cm.ringChar_ne_two q (by omega)
  have htw := Count.card_twist hch (-34790720 : ZMod q) 78984748304 T hns
  rw [hG, ZMod.card] at htw
  have eA : (Cm.anomalousCoeffs j (c : ZMod q)).1 = -34790720 * T ^ 2 := by
    have : -34790720 * T ^ 2 * ((1728 - j) * (163 * α) ^ 2) = 3 * (c : ZMod q) ^ 2 * j * (163 * α) ^ 2 := by
      rw [hT]
      have e : (-(163 * α))⁻¹ * (163 * α) = -1 := by rw [inv_neg, neg_mul, inv_mul_cancel₀ nα]
      linear_combination (-34790720 * (c : ZMod q) ^ 2 * 13340 ^ 4 * (1728 - j)) * ((-(163 * α))⁻¹ * (163 * α) - 1) * e - (c : ZMod q) ^ 2 * id1
    simp only [Cm.anomalousCoeffs]
    have n0 : (1728 - j) * (163 * α) ^ 2 ≠ 0 := mul_ne_zero nj (pow_ne_zero _ nα)
    apply mul_right_cancel₀ n0
    rw [this]
    field_simp
  have eB : (Cm.anomalousCoeffs j (c : ZMod q)).2 = 78984748304 * T ^ 3 := by
    have : 78984748304 * T ^ 3 * ((1728 - j) * (163 * α) ^ 3) = 2 * (c : ZMod q) ^ 3 * j * (163 * α) ^ 3 := by
      rw [hT]
      have e : (-(163 * α))⁻¹ * (163 * α) = -1 := by rw [inv_neg, neg_mul, inv_mul_cancel₀ nα]
      have e3 : ((-(163 * α))⁻¹) ^ 3 * (163 * α) ^ 3 = -1 := by rw [← mul_pow, e]; ring
      linear_combination (78984748304 * (c : ZMod q) ^ 3 * 13340 ^ 6 * (1728 - j)) * e3 + (c : ZMod q) ^ 3 * id2
    simp only [Cm.anomalousCoeffs]
    have n0 : (1728 - j) * (163 * α) ^ 3 ≠ 0 := mul_ne_zero nj (pow_ne_zero _ nα)
    apply mul_right_cancel₀ n0
    rw [this]
    field_simp
  rw [eA, eB]
  omega

end Ecgen.Special
