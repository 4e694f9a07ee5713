import Verif.Special.Spec

/-!
# What `--order` promises of a printed curve (C88)

In the numbers read back from the text and Mathlib's elliptic curves alone.
-/

namespace Ecgen.Ordered

open Whole Output Output.Spec
open Cli (Config)

/-- the text is one number in decimal digits, or several that are separated by commas -/
def Factors (s : List Char) (ns : List Nat) : Prop := ns ≠ [] ∧ s = [','].intercalate (ns.map (Nat.toDigits 10))

/-- what the options say about the points: for a single prime they are those of `--points=prime`, whatever was asked for -/
def pointsView (c : Config) (ns : List Nat) : Config := if ns.length = 1 ∧ ns.prod.Prime then { c with pointsType := .prime } else c

/-- **the printed curve has the order asked for**: it is nonsingular over a prime field and has exactly as many points as the product of the numbers
typed; the field is as large as the order, up to `2 √p`, and the order is below `2 ^ (bits + 1)` -/
def OrderedAsked (c : Config) (ns : List Nat) (v : CurveV) : Prop :=
  v.seed = none ∧ ∃ (p : Nat) (hp : p.Prime), Special.Sound (pointsView c ns) c.unique v p hp ∧ v.order = ns.prod ∧
    ((p : Int) + 1 - ns.prod) ^ 2 ≤ 4 * p ∧ ns.prod < 2 ^ (c.bits + 1)

end Ecgen.Ordered
