import Verif.Whole.Spec
import Verif.Invalid.Primes

/-!
# What a run of the invalid curve method is asked for (C91)
-/

namespace Ecgen.InvalidRun

open Output Output.Spec Cli Whole

/-- what is asked of the curve to invalidate: the field and the coefficients are as in the default method, random or typed; every other option is
without effect on it, and it is printed without points -/
def original (c : Config) : Config :=
  { c with
    method := 0, seedAlgo := .none, koblitz := false, koblitzValue := 0, prime := false, cofactor := false, smooth := false, unique := false
    pointsType := .none, pointsAmount := 0, metadata := false, hexCheck := none }

/-- what is asked of the other curves: `--unique` counts, and they have points, of orders that are described below -/
def invalid (c : Config) : Config := { original c with unique := c.unique, pointsType := .random }

/-- a decimal number from 1 to `2^63 - 1` -/
def Number (s : List Char) : Prop := Invalid.IsNumber s ∧ 1 ≤ Invalid.value s ∧ Invalid.value s < 2 ^ 63

/-- texts that say which primes are asked for: none, a number, or two numbers with a `-` in between. Without a text the primes depend on the order of
the curve, which must not be astronomic. -/
def Meant (bits : Nat) : Option (List Char) → Prop
  | none => bits < 2 ^ 59
  | some r => Number r ∨ ∃ s t, r = s ++ '-' :: t ∧ Number s ∧ Number t

/-- the primes asked for: without a text those from 2 upwards, until their product exceeds the square of the order, and one more; the least prime that is
not less than a single number; all primes of a range -/
structure Selected (range : Option (List Char)) (order : Nat) (qs : List Nat) : Prop where
  product : range = none → ∃ rs n, qs = rs ++ [n] ∧ Invalid.PrimesFromTo 2 n qs ∧ order ^ 2 < rs.prod ∧ ∀ rs' m, rs = rs' ++ [m] → rs'.prod ≤ order ^ 2
  single : ∀ s, range = some s → Number s → ∃ q, qs = [q] ∧ q.Prime ∧ Invalid.value s ≤ q ∧ ∀ r, r.Prime → Invalid.value s ≤ r → q ≤ r
  range : ∀ s t, range = some (s ++ '-' :: t) → Number s → Number t → Invalid.PrimesFromTo (Invalid.value s) (Invalid.value t) qs

/-- some point that is listed has this order -/
def HasPoint (v : CurveV) (q : Nat) : Prop := ∃ g ∈ v.gens, ∃ p ∈ g.2, p.order = q

/-- an invalid curve for the prime `q` of `qs` and the curve `v0`: a curve over the same field with the same first coefficient, whose order is right and
divisible by `q`; its generators and points are right, and a point is listed of order `q` or of a smaller prime of `qs`. (A prime from `2^63` on
becomes a negative number.) -/
def Serves (c : Config) (v0 : CurveV) (qs : List Nat) (q : Nat) (v : CurveV) : Prop :=
  Asked (invalid c) v ∧ v.field = v0.field ∧ v.a = v0.a ∧ (q < 2 ^ 63 → q ∣ v.order ∧ ∃ r ∈ qs, r ≤ q ∧ HasPoint v r)

end Ecgen.InvalidRun
