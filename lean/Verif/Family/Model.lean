import Mathlib.Algebra.Order.Field.Rat
import Verif.Pari

/-!
# Model of `/repo/src/exhaustive/family.c`

PARI's `+ - * ^ /` on integers and fractions are the operations of `ℚ`; a result has type `t_INT` exactly
when its denominator is one.
-/

namespace Ecgen.Family

inductive Fam where
  | BN | BLS12 | BLS24 | KSS16 | KSS18 | KSS36 | KSS40
  deriving DecidableEq, Repr

/-- `nz_store`, family.c:25,31,37,43,49,55,61 -/
def nz : Fam → ℚ → ℚ
  | .BN, z => z
  | .BLS12, z => z
  | .BLS24, z => z
  | .KSS16, z => 70 * z + 25
  | .KSS18, z => 42 * z + 14
  | .KSS36, z => 777 * z + 287
  | .KSS40, z => 2370 * z + 1205

/-- `pz_store`, family.c:26,32,38,44,50,56,62 -/
def pz : Fam → ℚ → ℚ
  | .BN, z => 36 * z ^ 4 + 36 * z ^ 3 + 24 * z ^ 2 + 6 * z + 1
  | .BLS12, z => (z - 1) ^ 2 * (z ^ 4 - z ^ 2 + 1) / 3 + z
  | .BLS24, z => (z - 1) ^ 2 * (z ^ 8 - z ^ 4 + 1) / 3 + z
  | .KSS16, z => (z ^ 10 + 2 * z ^ 9 + 5 * z ^ 8 + 48 * z ^ 6 + 152 * z ^ 5 + 240 * z ^ 4 + 625 * z ^ 2
      + 2398 * z + 3125) / 980
  | .KSS18, z => (z ^ 8 + 5 * z ^ 7 + 7 * z ^ 6 + 37 * z ^ 5 + 188 * z ^ 4 + 259 * z ^ 3 + 343 * z ^ 2
      + 1763 * z + 2401) / 21
  | .KSS36, z => (z ^ 14 - 4 * z ^ 13 + 7 * z ^ 12 + 683 * z ^ 8 - 2510 * z ^ 7 + 4781 * z ^ 6
      + 117649 * z ^ 2 - 386569 * z + 823543) / 28749
  | .KSS40, z => (z ^ 22 - 2 * z ^ 21 + 5 * z ^ 20 + 6232 * z ^ 12 - 10568 * z ^ 11 + 31160 * z ^ 10
      + 9765625 * z ^ 2 - 13398638 * z + 48828125) / 1123380

/-- `rz_store`, family.c:27,33,39,45,51,57,63 -/
def rz : Fam → ℚ → ℚ
  | .BN, z => 36 * z ^ 4 + 36 * z ^ 3 + 18 * z ^ 2 + 6 * z + 1
  | .BLS12, z => z ^ 4 - z ^ 2 + 1
  | .BLS24, z => z ^ 8 - z ^ 4 + 1
  | .KSS16, z => (z ^ 8 + 48 * z ^ 4 + 625) / 61250
  | .KSS18, z => (z ^ 6 + 37 * z ^ 3 + 343) / 343
  | .KSS36, z => (z ^ 12 + 683 * z ^ 6 + 117649) / 161061481
  | .KSS40, z => (z ^ 16 + 8 * z ^ 14 + 39 * z ^ 12 + 112 * z ^ 10 - 79 * z ^ 8 + 2800 * z ^ 6
      + 24375 * z ^ 4 + 125000 * z ^ 2 + 390625) / 2437890625

/-- `tz_store`, family.c:28,34,40,46,52,58,64 -/
def tz : Fam → ℚ → ℚ
  | .BN, z => 6 * z + 1
  | .BLS12, z => z + 1
  | .BLS24, z => z + 1
  | .KSS16, z => (2 * z ^ 5 + 41 * z + 35) / 35
  | .KSS18, z => (z ^ 4 + 16 * z + 7) / 7
  | .KSS36, z => (2 * z ^ 7 + 757 * z + 259) / 259
  | .KSS40, z => (2 * z ^ 11 + 6469 * z + 1185) / 1185

/-- `D_store`, family.c:29,35,41,47,53,59,65 -/
def dStore : Fam → Int
  | .BN => -3
  | .BLS12 => -3
  | .BLS24 => -3
  | .KSS16 => -4
  | .KSS18 => -3
  | .KSS36 => -3
  | .KSS40 => -4

/-- `typ(x) == t_INT`: the integer, if it is one -/
def asInt (x : ℚ) : Option Int := if x.den = 1 then some x.num else none

/-- `family_gen_field`, family.c:95-110: the field prime, `none` for the return value -1 -/
def genField (isprime : Int → Bool) (f : Fam) (z : Int) : Option Int :=
  let n := nz f z
  match asInt (pz f n) with
  | none => none
  | some p =>
    if !isprime p then none
    else match asInt (rz f n) with
      | none => none
      | some r => if !isprime r then none else some p

/-- `family_gen_order`, family.c:155-172: accept the cardinality (given by PARI) when `r` divides it;
`none` for the return value -2 (also when `r` is not an integer, where PARI would raise an error) -/
def genOrder (f : Fam) (z : Int) (card : Int) : Option Int :=
  match asInt (rz f (nz f z)) with
  | none => none
  | some r => if r ∣ card then some card else none

end Ecgen.Family
