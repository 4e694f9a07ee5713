import Verif.Special.Lemmas

/-!
# Points of order two

A curve with three points of order two has a number of points that is divisible by four. Hence `y² = x³ - x` is not supersingular over a field whose size
is 1 modulo 4.
-/

namespace Ecgen.Special

open Whole
open Seeded (Fp)

/-- two elements of order two -/
theorem four_dvd {A : Type} [AddCommGroup A] [Finite A] (x y : A) (hx : x ≠ 0) (hy : y ≠ 0) (hxy : x ≠ y) (h2x : 2 • x = 0) (h2y : 2 • y = 0) :
    4 ∣ Nat.card A := by
  have hox : addOrderOf x = 2 := addOrderOf_eq_prime h2x hx
  have hc : Nat.card (AddSubgroup.zmultiples x) = 2 := by rw [Nat.card_zmultiples, hox]
  have hmem : ∀ z, z ∈ AddSubgroup.zmultiples x → z = 0 ∨ z = x := by
    intro z hz
    obtain ⟨k, rfl⟩ := AddSubgroup.mem_zmultiples_iff.1 hz
    have h2 : (2 : Int) • x = 0 := by exact_mod_cast h2x
    rcases Int.even_or_odd' k with ⟨m, rfl | rfl⟩
    · left; rw [mul_comm, mul_zsmul, h2, zsmul_zero]
    · right; rw [add_zsmul, mul_comm, mul_zsmul, h2, zsmul_zero, zero_add, one_zsmul]
  let y' : A ⧸ AddSubgroup.zmultiples x := QuotientAddGroup.mk y
  have hy' : y' ≠ 0 := by
    intro h
    rcases hmem y ((QuotientAddGroup.eq_zero_iff y).1 h) with h | h
    · exact hy h
    · exact hxy h.symm
  have h2y' : 2 • y' = 0 := by
    change QuotientAddGroup.mk (2 • y) = _
    rw [h2y]
    rfl
  have hoy : addOrderOf y' = 2 := addOrderOf_eq_prime h2y' hy'
  have hd : 2 ∣ Nat.card (A ⧸ AddSubgroup.zmultiples x) := hoy ▸ addOrderOf_dvd_natCard y'
  rw [AddSubgroup.card_eq_card_quotient_mul_card_addSubgroup (AddSubgroup.zmultiples x), hc]
  exact Nat.mul_dvd_mul hd dvd_rfl

/-- points whose second coordinate is zero -/
theorem point_two {K : Type} [_root_.Field K] [DecidableEq K] (a b x : K) (h : (Invalid.primeCurve a b).Nonsingular x 0) :
    2 • (WeierstrassCurve.Affine.Point.some x 0 h) = 0 := by
  have : -(WeierstrassCurve.Affine.Point.some x 0 h) = WeierstrassCurve.Affine.Point.some x 0 h := by
    rw [WeierstrassCurve.Affine.Point.neg_some]
    congr 1
    simp [WeierstrassCurve.Affine.negY, Invalid.primeCurve]
  rw [two_nsmul, ← eq_neg_iff_add_eq_zero, this]

/-- a curve with two different roots -/
theorem roots_two (q : Nat) [Fact q.Prime] (h2 : (2 : ZMod q) ≠ 0) (a b x y : ZMod q) (hd : 4 * a ^ 3 + 27 * b ^ 2 ≠ 0) (hx : x ^ 3 + a * x + b = 0)
    (hy : y ^ 3 + a * y + b = 0) (hxy : x ≠ y) : 4 ∣ Count.card a b := by
  have hreg : Cm.Construct.Regular (a, b) := hd
  have hcard := Cm.Construct.natCard_point h2 a b hreg
  have hfin : Finite (Invalid.primeCurve a b).Point := Nat.finite_of_card_ne_zero (by rw [hcard]; unfold Count.card; omega)
  rw [← hcard]
  have hΔ : (Invalid.primeCurve a b).Δ ≠ 0 := by
    rw [disc_obj]
    refine mul_ne_zero ?_ hd
    intro h
    have : (2 : ZMod q) ^ 4 = 0 := by linear_combination -h
    exact h2 (pow_eq_zero_iff (by decide) |>.1 this)
  have ns : ∀ u : ZMod q, u ^ 3 + a * u + b = 0 → (Invalid.primeCurve a b).Nonsingular u 0 := by
    intro u hu
    refine (WeierstrassCurve.Affine.equation_iff_nonsingular_of_Δ_ne_zero hΔ).1 ?_
    rw [WeierstrassCurve.Affine.equation_iff]
    simp only [Invalid.primeCurve]
    linear_combination -hu
  refine four_dvd (WeierstrassCurve.Affine.Point.some x 0 (ns x hx)) (WeierstrassCurve.Affine.Point.some y 0 (ns y hy))
    (WeierstrassCurve.Affine.Point.some_ne_zero _) (WeierstrassCurve.Affine.Point.some_ne_zero _) ?_ (point_two a b x _) (point_two a b y _)
  intro h
  injection h with h
  exact hxy h

/-- the invariant 1728 does not belong to a supersingular curve if `q` is 1 modulo 4 -/
theorem not_1728 (q : Nat) [Fact q.Prime] (h4 : q % 4 = 1) (j : ZMod q) (hD : ∀ a b : ZMod q, Cm.HasJ a b j → Count.card a b = q + 1) : j ≠ 1728 := by
  rintro rfl
  have hq : q.Prime := Fact.out
  have h2 : (2 : ZMod q) ≠ 0 := by
    intro h
    have h : ((2 : Nat) : ZMod q) = 0 := by exact_mod_cast h
    rw [ZMod.natCast_eq_zero_iff] at h
    have := Nat.le_of_dvd (by omega) h
    have := hq.two_le
    omega
  have hd : (4 * (-1 : ZMod q) ^ 3 + 27 * (0 : ZMod q) ^ 2) ≠ 0 := by
    intro h
    have : (2 : ZMod q) ^ 2 = 0 := by linear_combination -h
    exact h2 (pow_eq_zero_iff (by decide) |>.1 this)
  have hc := hD (-1) 0 ⟨hd, by ring⟩
  have := roots_two q h2 (-1) 0 0 1 hd (by ring) (by ring) zero_ne_one
  rw [hc] at this
  omega

end Ecgen.Special
