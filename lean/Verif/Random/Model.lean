import Mathlib.Data.Nat.Prime.Defs

/-!
The random helpers of /repo/src/util/random.c. PARI's generator is a parameter: `draws k a b` is what the `k`-th call returns when asked for
a number between `a` and `b`. Seeding (`random_reseed`, random.c:11-36) is modelled in Verif.Reseed; here nothing is assumed of the numbers but their range.
-/

namespace Ecgen.Random

/-- the answers of `genrand(mkvec2(a, b))` or `randomprime(mkvec2(a, b))`, call by call -/
abbrev Draws := Nat → Int → Int → Int

/-- `int2n(n)`: 0 for a negative exponent -/
def int2n (n : Int) : Int := if n < 0 then 0 else 2 ^ n.toNat

/-- a call with an empty range raises a PARI error -/
def draw (d : Draws) (k : Nat) (a b : Int) : Option Int := if a ≤ b then some (d k a b) else none

/-- `random_int`, random.c:59-64 -/
def randomInt (d : Draws) (bits : Nat) : Option Int := draw d 0 (int2n ((bits : Int) - 1)) (int2n bits)

/-- the loop of `random_prime`, random.c:50-54, at its `k`-th round; `isprime` is PARI's proven test. `fuel` bounds the rounds looked at;
running out is the outer `none`. -/
def primeLoop (d : Draws) (isprime : Int → Bool) (a b : Int) : Nat → Nat → Option Int
  | 0, _ => none
  | fuel + 1, k => (draw d k a b).bind fun p => if isprime p then some p else primeLoop d isprime a b fuel (k + 1)

/-- `random_prime`, random.c:44-57 -/
def randomPrime (d : Draws) (isprime : Int → Bool) (fuel bits : Nat) : Option Int :=
  primeLoop d isprime (int2n ((bits : Int) - 1)) (int2n bits) fuel 0

/-- `random_range`, random.c:66-74 -/
def randomRange (d : Draws) (lower upper : Int) : Option Int :=
  if lower = upper then some lower else draw d 0 lower (upper - 1)

/-- `random_field_element` for a prime field, random.c:76-79: `genrand(p)` is between 0 and p - 1 -/
def randomFieldElement (d : Draws) (p : Int) : Option Int := draw d 0 0 (p - 1)

/-- PARI's contract: every answer is in the range asked for -/
def Contract (d : Draws) : Prop := ∀ k a b, a ≤ b → a ≤ d k a b ∧ d k a b ≤ b

/-- PARI's `isprime` is right -/
def Decides (isprime : Int → Bool) : Prop := ∀ p : Int, isprime p = true ↔ 0 ≤ p ∧ p.toNat.Prime

end Ecgen.Random
