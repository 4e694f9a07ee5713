import Mathlib.Data.Nat.Sqrt

/-!
# Model of the form enumeration and the index functions of `/repo/src/cm/p1363.c`
-/

namespace Ecgen.P1363

/-- the integer part of `p1363_form_t`: the form `A x² + 2 B x y + C y²` -/
structure Form where
  A : Int
  B : Int
  C : Int
  deriving DecidableEq, Repr

/-- PARI `divisors`: the positive divisors in ascending order -/
def divisors (d : Nat) : List Nat := (List.range (d + 1)).filter fun k => decide (0 < k) && decide (d % k = 0)

/-- the body of the loop over the divisors, p1363.c:25-46: the forms written for one divisor `A` of `d = D + B²`.
`gcmp(div, upper) <= 0` compares with a real square root of `d`; it is modelled as `A² ≤ d`. -/
def atDivisor (B d A : Nat) : List Form :=
  if 2 * B ≤ A ∧ A * A ≤ d then
    let C := d / A
    if Nat.gcd (Nat.gcd A (2 * B)) C = 1 then
      ⟨A, B, C⟩ :: (if 0 < 2 * B ∧ 2 * B < A ∧ A < C then [⟨A, -(B : Int), C⟩] else [])
    else []
  else []

/-- the body of the outer loop, p1363.c:16-47 -/
def atB (D B : Nat) : List Form := (divisors (D + B * B)).flatMap (atDivisor B (D + B * B))

/-- `s = floor(sqrt(D / 3))`, p1363.c:11; the real square root is modelled as exact -/
def bound (D : Nat) : Nat := Nat.sqrt (D / 3)

/-- everything `p1363_group` writes, in order -/
def written (D : Nat) : List Form := (List.range (bound D + 1)).flatMap (atB D)

/-- `p1363_group`, p1363.c:9-50, and `p1363_forms`, 54-67: the buffer has `2 s` slots; `none` when a form is written
past its end -/
def group (D : Nat) : Option (List Form) :=
  if (written D).length ≤ 2 * bound D then some (written D) else none

/-- outcome of the index functions: a value, or a raised PARI error -/
abbrev R := Option

/-- `p1363_I`, p1363.c:187-209 -/
def I (D : Nat) : R Nat :=
  match D % 8 with
  | 1 | 2 | 6 | 7 => some 3
  | 5 => some 6
  | 3 => if D % 3 = 0 then some 2 else some 0
  | _ => none

/-- `p1363_J`, p1363.c:211-227 -/
def J (f : Form) : R Nat :=
  if f.A * f.C % 2 = 1 then some 0
  else if f.C % 2 = 0 then some 1
  else if f.A % 2 = 0 then some 2
  else none

/-- `p1363_K`, p1363.c:229-246 -/
def K (D : Nat) : R Nat :=
  match D % 8 with
  | 1 | 2 | 6 => some 2
  | 3 | 7 => some 1
  | 5 => some 5
  | _ => none

/-- `p1363_L`, p1363.c:248-275 -/
def L (D : Nat) (f : Form) : R Int :=
  if f.A * f.C % 2 = 1 ∨ (D % 8 = 5 ∧ f.C % 2 = 0) then some (f.A - f.C + f.A ^ 2 * f.C)
  else if f.A % 2 = 0 then
    if D % 8 = 3 then some (f.A - f.C + 5 * (f.A * f.C ^ 2)) else some (f.A - f.C - f.A * f.C ^ 2)
  else if f.C % 2 = 0 then some (f.A + 2 * f.C - f.A * f.C ^ 2)
  else none

/-- `p1363_M`, p1363.c:277-286; the exponent is non-negative here -/
def M (f : Form) : Int :=
  if f.A % 2 = 0 then (-1) ^ ((f.C ^ 2 - 1).tdiv 8).toNat else (-1) ^ ((f.A ^ 2 - 1).tdiv 8).toNat

/-- `p1363_N`, p1363.c:288-322 -/
def N (D : Nat) (f : Form) : R Int :=
  match D % 8 with
  | 5 => some 1
  | 1 | 2 | 6 => some (M f)
  | 3 => if f.A * f.C % 2 = 0 then some (-(M f)) else some 1
  | 7 => if f.A * f.C % 2 = 0 then some 1 else some (M f)
  | _ => none

end Ecgen.P1363
