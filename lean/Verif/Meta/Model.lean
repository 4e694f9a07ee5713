import Verif.Order.Model

/-!
# Model of `/repo/src/gen/metadata.c`

PARI's `coredisc2` and `znorder` are parameters. `j` and the discriminant of the model are PARI's own values, they are
not modelled here.
-/

namespace Ecgen.Meta
open Ecgen.Order

/-- contract of `coredisc2`: a discriminant is a fundamental one times a square -/
def CorediscSpec (core2 : Int → Int × Int) : Prop :=
  ∀ x, x ≠ 0 → (x % 4 = 0 ∨ x % 4 = 1) →
    x = (core2 x).1 * (core2 x).2 ^ 2 ∧
    (((core2 x).1 % 4 = 1 ∧ Squarefree (core2 x).1) ∨
      ∃ m, (core2 x).1 = 4 * m ∧ (m % 4 = 2 ∨ m % 4 = 3) ∧ Squarefree m)

/-- `metadata_t` without `j` and the discriminant; absent values are `none` (NULL) -/
structure Info where
  embedding : Option Nat
  trace : Int
  cmDisc : Option Int
  conductor : Option Int
  deriving DecidableEq

/-- `gens_get_embedding`, gens.c:107-112, with the domain of `znorder`: PARI raises an error for a base that is not
coprime to the modulus -/
def embedding? (zn : Nat → Nat → Nat) (p n : Nat) : Option Nat :=
  if p = n then some 0 else if Nat.Coprime p n then some (zn p n) else none

/-- `metadata_gen`, metadata.c:9-47, over GF(p); `none` when PARI raises an error -/
def genPrime (zn : Nat → Nat → Nat) (core2 : Int → Int × Int) (p n : Nat) : Option Info :=
  match embedding? zn p n with
  | none => none
  | some k =>
    let t : Int := (p : Int) + 1 - n
    let df := core2 (t ^ 2 - p * 4)
    some ⟨some k, t, some df.1, some df.2⟩

/-- `metadata_gen`, metadata.c:9-47, over GF(2^m) -/
def genBinary (m n : Nat) : Info := ⟨none, (2 ^ m : Int) + 1 - n, none, none⟩

end Ecgen.Meta
