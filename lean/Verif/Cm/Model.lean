import Verif.Count.Spec
import Mathlib.NumberTheory.LegendreSymbol.JacobiSymbol

/-!
# Model of `/repo/src/math/twists.c`, `/repo/src/cm/supersingular.c`, `/repo/src/cm/anomalous.c`

Field elements are elements of an arbitrary finite field or of `ZMod p`; PARI integers are integers.
`elltwist(E, NULL)` is modelled by its contract: for `y² = x³ + a x + b` it returns the curve `y² = x³ + a T² x + b T³`
for some `T` that is no square; for `y² + xy = x³ + a x² + b` in characteristic 2 the curve with `a + T` for some `T` not of
the form `z² + z`.
-/

namespace Ecgen.Cm

/-! ## twists.c -/

/-- a curve over the prime field or binary field `F`: `curve->a`, `curve->b` and `curve->order` (`none` is `NULL`) -/
structure Curve (F : Type*) where
  a : F
  b : F
  order : Option Int

/-- `twist_rand_to` over a prime field, twists.c:9-21, with the non-square `T` chosen by `elltwist`; `q` is the field size -/
def twistRand {F : Type*} [Field F] (q : Nat) (T : F) (c : Curve F) : Curve F :=
  { a := c.a * T ^ 2, b := c.b * T ^ 3,
    order := match c.order with
      | none => none
      | some n => some ((q : Int) * 2 + 2 - n) }

/-- `twist_rand_to` over a binary field, twists.c:22-30 -/
def twistRand2 {F : Type*} [Field F] (q : Nat) (T : F) (c : Curve F) : Curve F :=
  { a := c.a + T, b := c.b,
    order := match c.order with
      | none => none
      | some n => some ((q : Int) * 2 + 2 - n) }

/-! ## supersingular.c -/

/-- what `supersingular_gen_equation` does: step back, set the coefficients, or take a root of the class polynomial of
discriminant `-q` -/
inductive SuperEq where
  | back
  | curve (a b : Int)
  | root (q : Nat)
  deriving DecidableEq, Repr

/-- the loop supersingular.c:17-20: the first `q` of the sequence 3, nextprime(4), … that is 3 mod 4 with symbol -1;
PARI's `kronecker` on an odd second argument is the Jacobi symbol -/
def superSearch (nextprime : Nat → Nat) (p : Nat) : Nat → Nat → Option Nat
  | 0, _ => none
  | fuel + 1, q =>
    if q % 4 = 3 ∧ jacobiSym (p : Int) q = -1 then some q else superSearch nextprime p fuel (nextprime (q + 1))

/-- `supersingular_gen_equation`, supersingular.c:7-39; `none`: the loop did not end within the budget -/
def superEquation (nextprime : Nat → Nat) (p fuel : Nat) : Option SuperEq :=
  if p = 2 then some .back
  else if p % 4 = 3 then some (.curve ((p : Int) - 1) 0)
  else
    match superSearch nextprime p fuel 3 with
    | none => none
    | some q => if q = 3 then some (.curve 0 1) else some (.root q)

/-- `supersingular_gen_order`, supersingular.c:41-46 -/
def superOrder (p : Nat) : Nat := p + 1

/-- supersingular.c:29-36: the coefficients for a root `j` -/
def superCoeffs {F : Type*} [Field F] (j : F) : F × F :=
  let a := (27 * j) / (4 * (1728 - j))
  (a, -a)

/-! ## anomalous.c -/

/-- a row of the table: discriminant, j-invariant, alpha -/
structure Disc where
  d : Int
  j : Int
  alpha : Int
  deriving DecidableEq, Repr

/-- `anomalous_init`, anomalous.c:12-40: the assignments in order; the fourth row is overwritten, the fifth stays `NULL` -/
def discTable : List (Option Disc) :=
  let t : List (Option Disc) := List.replicate 5 none
  let t := t.set 0 (some ⟨11, (-32) ^ 3, 21⟩)
  let t := t.set 1 (some ⟨19, ((-32) * 3) ^ 3, 3⟩)
  let t := t.set 2 (some ⟨43, ((-64) * 16) ^ 3, 70⟩)
  let t := t.set 3 (some ⟨67, ((-32) * 165) ^ 3, 35805⟩)
  t.set 3 (some ⟨163, ((-64) * 10005) ^ 3, 3717878010⟩)

/-- the row used by both stages: `*i = 3` in `cm_ainit`, cm.c:113-126 -/
def discIndex : Nat := 3

/-- `p` as a function of `b`, anomalous.c:67-70; `divis` truncates -/
def anomalousP (D b : Int) : Int :=
  let last := (D + 1).tdiv 4
  let middle := D * b
  let first := middle * b
  first + middle + last

/-- the bounds for `b`, anomalous.c:45-58: least `b ≥ 0` with `b (b+1) ≥ lower` and greatest with `b (b+1) ≤ upper`, which is
what the rounded square roots compute (their precision is assumed to suffice) -/
structure Bounds (D : Int) (bits : Nat) (lo hi : Int) : Prop where
  lo0 : 0 ≤ lo
  lo_ge : (2 ^ (bits - 1) - (D + 1).tdiv 4).tdiv D ≤ lo * (lo + 1)
  lo_min : ∀ b, 0 ≤ b → b < lo → b * (b + 1) < (2 ^ (bits - 1) - (D + 1).tdiv 4).tdiv D
  hi_le : hi * (hi + 1) ≤ (2 ^ bits - (D + 1).tdiv 4).tdiv D
  hi_max : ∀ b, hi < b → (2 ^ bits - (D + 1).tdiv 4).tdiv D < b * (b + 1)

/-- `anomalous_gen_equation`, anomalous.c:109-123, with the factor `c` and the invariant `j` in the field -/
def anomalousCoeffs {F : Type*} [Field F] (j c : F) : F × F :=
  let a := j / (1728 - j)
  (3 * (c ^ 2 * a), 2 * (c ^ 3 * a))

/-- `anomalous_c` returns `NULL` (anomalous.c:79-81) exactly when the symbol vanishes -/
def anomalousNull (alpha : Int) (p : Nat) : Bool := jacobiSym alpha p == 0

end Ecgen.Cm
