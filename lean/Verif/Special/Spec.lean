import Verif.Seeded.Spec

/-!
# What `--anomalous`, `--supersingular` and `--family` promise of a printed curve (C81, C82, C83)

In the numbers read back from the text and Mathlib's elliptic curves alone.
-/

namespace Ecgen.Special

open Whole Output Output.Spec
open Seeded (Fp curveOf)
open Cli (Config)

/-- what the three methods have in common: a nonsingular curve over a prime field with its number of points; generators of the group of points, a single
one if `unique`, with the points asked for -/
def Sound (c : Config) (unique : Bool) (v : CurveV) (p : Nat) (hp : p.Prime) : Prop :=
  v.field = .prime p ∧ v.a < p ∧ v.b < p ∧ (curveOf p hp v.a v.b).Δ ≠ 0 ∧ v.order = Nat.card (curveOf p hp v.a v.b).Point ∧
    ∃ gs : List (curveOf p hp v.a v.b).Point,
      List.Forall₂ (fun g G => GeneratorOk v.order g.1 G ∧ PointsOk c g.1 G g.2) v.gens gs ∧
      AddSubgroup.closure {P | P ∈ gs} = ⊤ ∧ (unique = true → (v.order = 1 ∧ gs = []) ∨ ∃ G, gs = [G] ∧ addOrderOf G = v.order) ∧
      (c.pointsType = .random → c.pointsAmount ≠ 0 → (v.gens.map fun g => g.2.length).sum = c.pointsAmount)

/-- **the printed curve is anomalous**: it has as many points as the field. The primes are those of the form `163 b (b + 1) + 41`; a request for 7 or more
bits is met up to the discriminant, smaller ones give the field with 41 elements. -/
def AnomalousAsked (c : Config) (v : CurveV) : Prop :=
  v.seed = none ∧ ∃ (p : Nat) (hp : p.Prime), Sound c c.unique v p hp ∧ v.order = p ∧ (∃ b : Nat, p = 163 * (b * (b + 1)) + 41) ∧
    (c.bits ≤ 7 → p = 41) ∧ (7 ≤ c.bits → p < 2 ^ c.bits ∧ 2 ^ (c.bits - 1) < p + 163)

/-- the supersingular curve of a prime: `y² = x³ - x`, `y² = x³ + 1`, or one of the form `y² = x³ + a x - a` -/
def SuperShape (p a b : Nat) : Prop :=
  p ≠ 2 ∧ (p % 4 = 3 → a = p - 1 ∧ b = 0) ∧ (p % 12 = 5 → a = 0 ∧ b = 1) ∧ (p % 12 = 1 → a + b = p)

/-- **the printed curve is supersingular**: over a prime field as asked for it has one point more than the field has elements -/
def SupersingularAsked (c : Config) (v : CurveV) : Prop :=
  v.seed = none ∧ ∃ (p : Nat) (hp : p.Prime), Sound c c.unique v p hp ∧ FieldAsked c (.prime p) ∧ v.order = p + 1 ∧ SuperShape p v.a v.b

/-- the primes `p` (of the field) and `r` (of the subgroup) of the parameter `z`, and the embedding degree: Barreto and Naehrig; Barreto, Lynn and Scott;
Kachisa, Schaefer and Scott -/
def Member : Cli.Family → (z p r : Int) → Prop
  | .bn, z, p, r => p = 36 * z ^ 4 + 36 * z ^ 3 + 24 * z ^ 2 + 6 * z + 1 ∧ r = 36 * z ^ 4 + 36 * z ^ 3 + 18 * z ^ 2 + 6 * z + 1
  | .bls12, z, p, r => 3 * p = (z - 1) ^ 2 * r + 3 * z ∧ r = z ^ 4 - z ^ 2 + 1
  | .bls24, z, p, r => 3 * p = (z - 1) ^ 2 * r + 3 * z ∧ r = z ^ 8 - z ^ 4 + 1
  | .kss16, z, p, r => ∃ x, x = 70 * z + 25 ∧ 61250 * r = x ^ 8 + 48 * x ^ 4 + 625 ∧
      980 * p = x ^ 10 + 2 * x ^ 9 + 5 * x ^ 8 + 48 * x ^ 6 + 152 * x ^ 5 + 240 * x ^ 4 + 625 * x ^ 2 + 2398 * x + 3125
  | .kss18, z, p, r => ∃ x, x = 42 * z + 14 ∧ 343 * r = x ^ 6 + 37 * x ^ 3 + 343 ∧
      21 * p = x ^ 8 + 5 * x ^ 7 + 7 * x ^ 6 + 37 * x ^ 5 + 188 * x ^ 4 + 259 * x ^ 3 + 343 * x ^ 2 + 1763 * x + 2401
  | .kss36, z, p, r => ∃ x, x = 777 * z + 287 ∧ 161061481 * r = x ^ 12 + 683 * x ^ 6 + 117649 ∧
      28749 * p = x ^ 14 - 4 * x ^ 13 + 7 * x ^ 12 + 683 * x ^ 8 - 2510 * x ^ 7 + 4781 * x ^ 6 + 117649 * x ^ 2 - 386569 * x + 823543
  | .kss40, z, p, r => ∃ x, x = 2370 * z + 1205 ∧
      2437890625 * r = x ^ 16 + 8 * x ^ 14 + 39 * x ^ 12 + 112 * x ^ 10 - 79 * x ^ 8 + 2800 * x ^ 6 + 24375 * x ^ 4 + 125000 * x ^ 2 + 390625 ∧
      1123380 * p = x ^ 22 - 2 * x ^ 21 + 5 * x ^ 20 + 6232 * x ^ 12 - 10568 * x ^ 11 + 31160 * x ^ 10 + 9765625 * x ^ 2 - 13398638 * x + 48828125

/-- the embedding degree of a family -/
def degree : Cli.Family → Nat
  | .bn | .bls12 => 12
  | .bls24 => 24
  | .kss16 => 16
  | .kss18 => 18
  | .kss36 => 36
  | .kss40 => 40

/-- **the printed curve belongs to the pairing family**: the printed seed is the parameter (with its sign), the primes of the field and of a subgroup are
those of the parameter, the order of the subgroup divides the number of points, the field has the embedding degree of the family, and outside of
KSS16 and KSS40 the curve is `y² = x³ + b` -/
def FamilyAsked (c : Config) (v : CurveV) : Prop :=
  ∃ (z : Int) (r : Nat), v.seed = some z ∧ ∃ (p : Nat) (hp : p.Prime), Sound c false v p hp ∧ r.Prime ∧ Member c.family z p r ∧ r ∣ v.order ∧
    r ∣ p ^ degree c.family - 1 ∧ (∀ k, 1 ≤ k → k < degree c.family → ¬ r ∣ p ^ k - 1) ∧
    (c.family ≠ .kss16 → c.family ≠ .kss40 → v.a = 0)

end Ecgen.Special
