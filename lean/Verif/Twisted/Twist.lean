import Verif.Twisted.Spec
import Verif.Whole.Stages
import Verif.Cm.ConstructLemmas

/-!
# Twists of curves
-/

namespace Ecgen.Twisted

open Whole Output

theorem card_short {K : Type} [_root_.Field K] [Fintype K] [DecidableEq K] (a b : K) (h : (Invalid.primeCurve a b).Δ ≠ 0) :
    (2 : K) ≠ 0 ∧ Nat.card (Invalid.primeCurve a b).Point = Count.card a b := by
  have e : (Invalid.primeCurve a b).Δ = -(2 ^ 4) * (4 * a ^ 3 + 27 * b ^ 2) := by
    simp only [WeierstrassCurve.Δ, WeierstrassCurve.b₂, WeierstrassCurve.b₄, WeierstrassCurve.b₆, WeierstrassCurve.b₈, Invalid.primeCurve]
    ring
  rw [e] at h
  have h2 : (2 : K) ≠ 0 := fun h2 => h (by rw [h2]; ring)
  exact ⟨h2, Cm.Construct.natCard_point h2 a b (right_ne_zero_of_mul h)⟩

theorem card_long {K : Type} [_root_.Field K] [Fintype K] [DecidableEq K] (a b : K) (h : (Invalid.binaryCurve a b).Δ ≠ 0) :
    Nat.card (Invalid.binaryCurve a b).Point = Count.card2 a b := by
  have hE : (Invalid.binaryCurve a b).IsElliptic := by
    rw [WeierstrassCurve.isElliptic_iff, isUnit_iff_ne_zero]; exact h
  rw [Nat.card_congr (WeierstrassCurve.Affine.pointEquiv (Invalid.binaryCurve a b))]
  rw [show WithZero {xy : K × K // (Invalid.binaryCurve a b).Equation xy.1 xy.2} = Option {xy : K × K // (Invalid.binaryCurve a b).Equation xy.1 xy.2} from rfl]
  rw [Finite.card_option]
  unfold Count.card2
  congr 1
  have e : {xy : K × K // (Invalid.binaryCurve a b).Equation xy.1 xy.2} ≃ {xy : K × K // xy.2 ^ 2 + xy.1 * xy.2 = xy.1 ^ 3 + a * xy.1 ^ 2 + b} :=
    Equiv.subtypeEquivRight fun xy => by
      rw [WeierstrassCurve.Affine.equation_iff]
      simp only [Invalid.binaryCurve]
      constructor <;> intro h <;> linear_combination h
  rw [Nat.card_congr e, Nat.card_eq_fintype_card, Fintype.card_subtype]

/-- **a twist of a curve that is not singular is not singular, and the orders of the two add up to `2q + 2`** -/
theorem twist_sum (f : Fld) (a b a' b' : Carrier f) (h : IsTwist f a b a' b') (hd : (equation f a b).Δ ≠ 0) :
    (equation f a' b').Δ ≠ 0 ∧ Nat.card (equation f a b).Point + Nat.card (equation f a' b').Point = 2 * fieldSize f.1 + 2 := by
  have := Fintype.ofFinite (Carrier f)
  have hq : Fintype.card (Carrier f) = fieldSize f.1 := by rw [← Nat.card_eq_fintype_card, card_carrier]
  obtain ⟨v, hv⟩ := f
  cases v with
  | prime p =>
    obtain ⟨d, h1, rfl, rfl⟩ := h
    change (Invalid.primeCurve a b).Δ ≠ 0 at hd
    change (Invalid.primeCurve (a * d ^ 2) (b * d ^ 3)).Δ ≠ 0 ∧
      Nat.card (Invalid.primeCurve a b).Point + Nat.card (Invalid.primeCurve (a * d ^ 2) (b * d ^ 3)).Point = _
    have hd0 : d ≠ 0 := fun h => h1 (h ▸ IsSquare.zero)
    have hd' : (Invalid.primeCurve (a * d ^ 2) (b * d ^ 3)).Δ ≠ 0 := by
      have e : (Invalid.primeCurve (a * d ^ 2) (b * d ^ 3)).Δ = d ^ 6 * (Invalid.primeCurve a b).Δ := by
        simp only [WeierstrassCurve.Δ, WeierstrassCurve.b₂, WeierstrassCurve.b₄, WeierstrassCurve.b₆, WeierstrassCurve.b₈, Invalid.primeCurve]
        ring
      rw [e]
      exact mul_ne_zero (pow_ne_zero 6 hd0) hd
    obtain ⟨h2, e1⟩ := card_short a b hd
    obtain ⟨-, e2⟩ := card_short _ _ hd'
    refine ⟨hd', ?_⟩
    rw [e1, e2, ← hq]
    have hc : ringChar (Carrier ⟨.prime p, hv⟩) ≠ 2 := fun hc => h2 (by
      have := ringChar.Nat.cast_ringChar (R := Carrier ⟨.prime p, hv⟩)
      rw [hc] at this
      exact_mod_cast this)
    have := Count.card_twist hc a b d h1
    omega
  | binary m e1 e2 e3 =>
    obtain ⟨t, h1, rfl, rfl⟩ := h
    change (Invalid.binaryCurve a b').Δ ≠ 0 at hd
    change (Invalid.binaryCurve (a + t) b').Δ ≠ 0 ∧
      Nat.card (Invalid.binaryCurve a b').Point + Nat.card (Invalid.binaryCurve (a + t) b').Point = _
    have h2 := two_zero m e1 e2 e3 hv
    have : CharP (Carrier ⟨.binary m e1 e2 e3, hv⟩) 2 := CharTwo.of_one_ne_zero_of_two_eq_zero one_ne_zero h2
    have hd' : (Invalid.binaryCurve (a + t) b').Δ ≠ 0 := by
      have e : ∀ a : Carrier ⟨.binary m e1 e2 e3, hv⟩, (Invalid.binaryCurve a b').Δ = -b' := by
        intro a
        simp only [WeierstrassCurve.Δ, WeierstrassCurve.b₂, WeierstrassCurve.b₄, WeierstrassCurve.b₆, WeierstrassCurve.b₈, Invalid.binaryCurve]
        linear_combination (-6 * a * b' - 24 * a ^ 2 * b' - 32 * a ^ 3 * b' - 216 * b' ^ 2) * h2
      rw [e] at hd ⊢
      exact hd
    refine ⟨hd', ?_⟩
    rw [card_long _ _ hd, card_long _ _ hd', ← hq]
    have := Count.card2_twist a b' t h1
    omega

end Ecgen.Twisted
