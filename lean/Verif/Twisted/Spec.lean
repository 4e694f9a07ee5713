import Verif.Whole.Spec

/-!
# Quadratic twists (C86)

The meaning of `--twist`, with Mathlib's fields and elliptic curves alone.
-/

namespace Ecgen.Twisted

open Whole Output Output.Spec

/-- the curve with the coefficients `a'`, `b'` is a quadratic twist of the one with `a`, `b`. Over prime fields the coefficients are multiplied with
the square and the cube of an element that is not a square. Over binary fields an element that is not of the form `z² + z` is added to `a`. -/
def IsTwist (f : Fld) (a b a' b' : Carrier f) : Prop :=
  match f.1 with
  | .prime _ => ∃ d : Carrier f, ¬ IsSquare d ∧ a' = a * d ^ 2 ∧ b' = b * d ^ 3
  | .binary .. => ∃ t : Carrier f, (∀ z : Carrier f, z ^ 2 + z ≠ t) ∧ a' = a + t ∧ b' = b

/-- **the printed curve is a twist of a given curve**, the one with the coefficients `a`, `b`: of numbers below the size of the field, not singular;
the two orders add up to `2q + 2` -/
def TwistOf (v : CurveV) (f : Fld) (a b : Nat) : Prop :=
  v.field = f.1 ∧ a < fieldSize f.1 ∧ b < fieldSize f.1 ∧ (equation f (elem f a) (elem f b)).Δ ≠ 0 ∧
    IsTwist f (elem f a) (elem f b) (elem f v.a) (elem f v.b) ∧
    Nat.card (equation f (elem f a) (elem f b)).Point + v.order = 2 * fieldSize f.1 + 2

end Ecgen.Twisted
