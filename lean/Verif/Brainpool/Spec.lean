import Verif.SeedSpec
import Mathlib.Data.Int.ModEq
import Mathlib.Data.Nat.Prime.Basic

/-!
# The Brainpool generation procedures, on numbers

A seed is a number below `2^160`.
-/

namespace Ecgen.Brainpool.Spec

open Ecgen.Bits Ecgen.SeedSpec

/-- `find_integer`: the low `w` bits of the digest of the seed followed by the digests of the `v` following seeds -/
def findInteger (z w v : Nat) : Nat :=
  ofBits ((H (toBits 160 (z % 2 ^ 160))).drop (160 - w) ++
    (List.range v).flatMap fun i => H (toBits 160 ((z + (i + 1)) % 2 ^ 160)))

/-- `p` is the least prime congruent 3 modulo 4 above `c` -/
def IsNext (c p : Nat) : Prop :=
  p.Prime ∧ p % 4 = 3 ∧ c < p ∧ ∀ q : Nat, q.Prime → q % 4 = 3 → c < q → p ≤ q

/-- the number for the field of `L` bits -/
def fieldInt (L z : Nat) : Nat := findInteger z (L - 160 * ((L - 1) / 160)) ((L - 1) / 160)

/-- the number for a coefficient: one bit less -/
def coeffInt (L z : Nat) : Nat := findInteger z (L - 160 * ((L - 1) / 160) - 1) ((L - 1) / 160)

/-- `a z⁴ = -3` has a solution modulo `p` -/
def AOk (p : Nat) (a : Nat) : Prop := ∃ z : Int, (a : Int) * z ^ 4 ≡ -3 [ZMOD p]

/-- the quadratic residues including 0 -/
def Square (p : Nat) (b : Nat) : Prop := ∃ y : Int, y ^ 2 ≡ (b : Int) [ZMOD p]

/-- non-zero discriminant -/
def NonSingular (p : Nat) (a b : Nat) : Prop := ¬ (4 * (a : Int) ^ 3 + 27 * (b : Int) ^ 2 ≡ 0 [ZMOD p])

end Ecgen.Brainpool.Spec
