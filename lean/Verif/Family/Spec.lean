import Verif.Family.Model
import Mathlib.RingTheory.Polynomial.Cyclotomic.Basic

/-!
# What a pairing family promises
-/

namespace Ecgen.Family

/-- embedding degree of the family -/
def degree : Fam → Nat
  | .BN => 12
  | .BLS12 => 12
  | .BLS24 => 24
  | .KSS16 => 16
  | .KSS18 => 18
  | .KSS36 => 36
  | .KSS40 => 40

/-- trace polynomial of the family in the literature (for BN the code stores another one) -/
def trace : Fam → ℚ → ℚ
  | .BN, z => 6 * z ^ 2 + 1
  | .BLS12, z => z + 1
  | .BLS24, z => z + 1
  | .KSS16, z => (2 * z ^ 5 + 41 * z + 35) / 35
  | .KSS18, z => (z ^ 4 + 16 * z + 7) / 7
  | .KSS36, z => (2 * z ^ 7 + 757 * z + 259) / 259
  | .KSS40, z => (2 * z ^ 11 + 6469 * z + 1185) / 1185

/-- The identities of a pairing family with field prime `p`, subgroup order `r`, trace `t`, embedding
degree `k` and CM discriminant `-d`. -/
structure Identities (p r t : Int) (k : Nat) (d : Int) : Prop where
  subgroup : r ∣ p + 1 - t
  cyclotomic : r ∣ (Polynomial.cyclotomic k ℤ).eval (t - 1)
  unity : r ∣ p ^ k - 1
  cm : ∃ s : Int, 4 * p - t ^ 2 = d * s ^ 2

end Ecgen.Family
