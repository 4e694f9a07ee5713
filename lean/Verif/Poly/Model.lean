import Verif.BSearch
import Verif.Poly.Tables

/-!
# Model of the functions of `/repo/src/math/poly.c`
-/

namespace Ecgen.Poly

/-- `compare_poly`, poly.c:2709-2713: an `unsigned` difference converted to `int` -/
def compare (m : Nat) (r : Row) : Int := Int.bmod ((m : Int) - r.m) (2 ^ 32)

/-- `poly_exists`, poly.c:2715 -/
def exists_ (m : Nat) : Bool := decide (2 ≤ m) && decide (m ≤ 10000)

/-- the pair of tables that `poly_find` chooses, poly.c:2721-2730 -/
def chosen (m : Nat) : List Row × List Row :=
  if m < 160 ∨ 2000 < m then (hpTrinomials, hpPentanomials) else (ansiTrinomials, ansiPentanomials)

/-- `poly_find`, poly.c:2717-2741 -/
def find (m : Nat) : Option Row :=
  if exists_ m then
    match bsearch (compare (m % 2 ^ 32)) (chosen m).1 with
    | some r => some r
    | none => bsearch (compare (m % 2 ^ 32)) (chosen m).2
  else none

/-- store `1` at position `i` (0-based) of a coefficient vector; outside of the vector is undefined behaviour -/
def put1 (v : List Nat) (i : Nat) : Option (List Nat) := if i < v.length then some (v.set i 1) else none

/-- the coefficient vector that `poly_gen` builds, poly.c:2746-2751; PARI then makes the polynomial over GF(2) with
these coefficients (index = exponent) and the field generated by it (`ffgen`, not modelled) -/
def genCoeffs (r : Row) : Option (List Nat) := do
  let v ← put1 (List.replicate (r.m + 1) 0) r.m
  let v ← put1 v r.e1
  let v ← put1 v r.e2
  let v ← put1 v r.e3
  put1 v 0

/-- `poly_find_gen`, poly.c:2757-2759: `none` stands for undefined behaviour (`poly_find` returned NULL) -/
def findGen (m : Nat) : Option (List Nat) := (find m).bind genCoeffs

end Ecgen.Poly
