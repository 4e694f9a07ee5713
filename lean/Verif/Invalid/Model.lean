import Mathlib.Data.Nat.Prime.Basic

/-!
# Model of `invalid_primes` (`/repo/src/invalid/invalid.c`, 71-119)

PARI's `unextprime` is the parameter `np`. The text of the range consists of digits and `-` (cli.c:259-262), so `strtol` is modelled
for such texts. Memory is unbounded.
-/

namespace Ecgen.Invalid

/-- contract of `unextprime`: the least prime that is not smaller, 0 when there is none below `2^64` -/
def NextSpec (np : Nat → Nat) : Prop :=
  ∀ n, n < 2 ^ 64 →
    (np n = 0 ∧ ∀ p, p.Prime → n ≤ p → 2 ^ 64 ≤ p) ∨
    ((np n).Prime ∧ n ≤ np n ∧ np n < 2 ^ 64 ∧ ∀ p, p.Prime → n ≤ p → np n ≤ p)

/-- value of a decimal digit -/
def digit? (c : Char) : Option Nat := if 48 ≤ c.toNat ∧ c.toNat ≤ 57 then some (c.toNat - 48) else none

/-- read digits as long as there are any -/
def digits : Nat → List Char → Nat × List Char
  | acc, [] => (acc, [])
  | acc, c :: s =>
    match digit? c with
    | some v => digits (10 * acc + v) s
    | none => (acc, c :: s)

/-- C `strtol(s, &end, 10)`: the value and the text at `end` -/
def strtol (s : List Char) : Int × List Char :=
  let t := if s.head? = some '-' then s.drop 1 else s
  if (t.head?.bind digit?).isSome then
    let r := digits 0 t
    let v : Int := if s.head? = some '-' then -(r.1 : Int) else r.1
    (max (-2 ^ 63) (min v (2 ^ 63 - 1)), r.2)
  else (0, s)

/-- conversion to `pari_ulong` -/
def toU (x : Int) : Nat := (x % 2 ^ 64).toNat

/-- conversion of a `pari_ulong` to `long` (argument of `mulis`) -/
def toS (x : Nat) : Int := if x < 2 ^ 63 then x else (x : Int) - 2 ^ 64

/-- invalid.c:80-89: the variables `last` and `upper` -/
def start (np : Nat → Nat) : Option (List Char) → Nat × Nat
  | none => (1, 0)
  | some s =>
    let r := strtol s
    let last := toU (r.1 - 1)
    match r.2 with
    | [] => (last, np (toU (last + 1)))
    | _ :: t => (last, toU (strtol t).1)

/-- the loop, invalid.c:94-110; `none` when the budget is exhausted -/
def primesLoop (np : Nat → Nat) (bound : Int) (upper : Nat) : Nat → Nat → Int → List Nat → Option (List Nat)
  | 0, _, _, _ => none
  | fuel + 1, last, product, acc =>
    if (upper = 0 ∧ product ≤ bound) ∨ last ≤ upper then
      let product := product * toS last
      let next := np (toU (last + 1))
      if upper ≠ 0 ∧ next > upper then some acc
      else primesLoop np bound upper fuel next product (acc ++ [next])
    else some acc

/-- `invalid_primes` -/
def invalidPrimes (np : Nat → Nat) (order : Nat) (range : Option (List Char)) (fuel : Nat) : Option (List Nat) :=
  let s := start np range
  primesLoop np ((order : Int) ^ 2) s.2 fuel s.1 1 []

end Ecgen.Invalid
