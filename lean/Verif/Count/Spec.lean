import Mathlib.NumberTheory.LegendreSymbol.QuadraticChar.Basic
import Mathlib.FieldTheory.Finite.Basic

/-!
# Numbers of points of curves over finite fields

The number of affine solutions plus one for the point at infinity.
-/

namespace Ecgen.Count

variable {F : Type*} [Field F] [Fintype F] [DecidableEq F]

/-- points of `y² = x³ + a x + b` -/
def card (a b : F) : Nat := (Finset.univ.filter fun q : F × F => q.2 ^ 2 = q.1 ^ 3 + a * q.1 + b).card + 1

/-- points of `y² + x y = x³ + a x² + b`, the form used over fields of characteristic 2 -/
def card2 (a b : F) : Nat :=
  (Finset.univ.filter fun q : F × F => q.2 ^ 2 + q.1 * q.2 = q.1 ^ 3 + a * q.1 ^ 2 + b).card + 1

end Ecgen.Count
