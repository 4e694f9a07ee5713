import Verif.CLoop
import Mathlib.Data.Nat.Prime.Basic
import Mathlib.Data.List.Sort

/-!
# Model of `/repo/src/math/subgroup.c`

`Z_factor` is a parameter: the list of pairs (prime, exponent) it returns. `none` is an error (PARI's "t_INT-->long
assignment" of `itos`, or the use of a NULL pointer). Memory is unbounded, although the vector has `2^k` entries for an
order with `k` prime factors.
-/

namespace Ecgen.Subgroup

/-- contract of PARI's `Z_factor` on positive integers -/
def FactorSpec (fac : Nat → List (Nat × Nat)) : Prop :=
  ∀ n, 0 < n → (∀ pe ∈ fac n, pe.1.Prime ∧ 0 < pe.2) ∧ ((fac n).map Prod.fst).Pairwise (· < ·) ∧
    ((fac n).map fun pe => pe.1 ^ pe.2).prod = n

/-- `subgroups_divisors`, subgroup.c:15-34: every prime as often as its exponent says -/
def divisors (factors : List (Nat × Nat)) : List Nat := factors.flatMap fun pe => List.replicate pe.2 pe.1

/-- the product and the number of the factors selected by the bits of `count`, subgroup.c:57-65 -/
def select (factors : List Nat) (count : Nat) : Nat × Nat :=
  (List.range factors.length).foldl
    (fun r bit => if count &&& 2 ^ bit ≠ 0 then (r.1 * factors.getD bit 0, r.2 + 1) else r) (1, 0)

/-- one pass of the loop subgroup.c:54-71 over `count = c + 1` on (the filled part of the vector, `i`): writing beyond the
`size` entries is undefined -/
def fill (factors : List Nat) (minBits size c : Nat) (groups : List Nat) : Option (List Nat) :=
  let r := select factors (c + 1)
  if r.2 > minBits then (if groups.length < size then some (groups ++ [r.1]) else none) else some groups

/-- PARI's `gtoset` on a vector of integers: sorted, without repetition -/
def gtoset (l : List Nat) : List Nat := (l.insertionSort (· ≤ ·)).dedup

/-- `subgroups_2n_factors`, subgroup.c:44-75: `some none` is NULL. `itos(int2n(k))` fails from `k = 63` on. When fewer
entries are written than allocated the rest of the vector is 0. -/
def twoN (factors : List Nat) (minBits : Nat) : Option (Option (List Nat)) :=
  let n := factors.length
  if n = minBits then some none
  else if 63 ≤ n then none
  else
    let size := 2 ^ n - minBits * n - 1
    (forN (fill factors minBits size) (2 ^ n - 1) []).map fun groups =>
      some (gtoset (groups ++ List.replicate (size - groups.length) 0))

/-- `subgroups_prime`, subgroup.c:77-83 -/
def primes (isprime : Nat → Bool) (fac : Nat → List (Nat × Nat)) (order : Nat) : List Nat :=
  if isprime order then [order] else (fac order).map Prod.fst

/-- `subgroups_nonprime`, subgroup.c:85-91 -/
def nonprime (isprime : Nat → Bool) (fac : Nat → List (Nat × Nat)) (order : Nat) : Option (Option (List Nat)) :=
  if isprime order then some none else twoN (divisors (fac order)) 1

/-- `subgroups_all`, subgroup.c:93-99 -/
def all (isprime : Nat → Bool) (fac : Nat → List (Nat × Nat)) (order : Nat) : Option (Option (List Nat)) :=
  if isprime order then some (some [order]) else twoN (divisors (fac order)) 0

end Ecgen.Subgroup
