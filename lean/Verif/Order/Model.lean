import Verif.Subgroup.Model
import Mathlib.Data.Nat.Size
import Mathlib.Algebra.Squarefree.Basic

/-!
# Model of the filters and checks of `/repo/src/gen/order.c` and `/repo/src/gen/gens.c`

Group orders are natural numbers. PARI functions are parameters: `isprime`, the factorisation `fac`, `znorder`,
`core`; the number of points (`ellff_get_card`) is the argument `card`, `ellsea(E, 1)` the argument `sea`.
-/

namespace Ecgen.Order

open Ecgen.Subgroup (FactorSpec)

/-- contract of `ellsea(E, 1)` for a curve with `n` points: the number of points, or 0 when the search was given up
because that number is not prime -/
def SeaSpec (sea n : Nat) : Prop := sea = n ∨ (sea = 0 ∧ ¬ n.Prime)

/-- `order_gen_cofactor`, order.c:48-67: `none` is the return value -4 -/
def genCofactor (isprime : Nat → Bool) (k card : Nat) : Option Nat :=
  if ¬ k ∣ card then none
  else if !isprime (card / k) then none
  else some card

/-- `order_gen_smooth`, order.c:69-91 -/
def genSmooth (fac : Nat → List (Nat × Nat)) (bound card : Nat) : Option Nat :=
  if (fac card).any fun pe => decide (pe.1.size > bound) then none else some card

/-- `order_gen_prime`, order.c:93-103 -/
def genPrime (isprime : Nat → Bool) (sea : Nat) : Option Nat :=
  if sea = 0 ∨ !isprime sea then none else some sea

/-- `order_check_pohlig_hellman`, order.c:123-141: whether the order is accepted; for the order 1 the vector of primes is
empty and entry 0 is read (`none`) -/
def checkPohligHellman (fac : Nat → List (Nat × Nat)) (minf n : Nat) : Option Bool :=
  match (fac n).getLast? with
  | none => none
  | some pe => some (!decide (pe.1 ≤ minf))

/-- `order_check_discriminant`, order.c:143-164; `core` is PARI's square-free part -/
def checkDiscriminant (core : Int → Int) (binary : Bool) (q : Nat) (mind : Nat) (n : Nat) : Bool :=
  if binary then true
  else
    let t : Int := -((n : Int) - (q + 1))
    !decide ((core (t ^ 2 - 4 * q)).natAbs ≤ mind)

/-- contract of PARI's `core`: the argument is the result times a square, and the result is square-free -/
def CoreSpec (core : Int → Int) : Prop :=
  ∀ x, x ≠ 0 → (∃ f : Int, x = core x * f ^ 2) ∧ Squarefree (core x)

/-- contract of `znorder(Mod(p, n))` for coprime arguments: the least positive exponent -/
def ZnSpec (zn : Nat → Nat → Nat) : Prop :=
  ∀ p n, 0 < n → Nat.Coprime p n →
    0 < zn p n ∧ n ∣ p ^ zn p n - 1 ∧ ∀ j, 0 < j → j < zn p n → ¬ n ∣ p ^ j - 1

/-- `gens_get_embedding`, gens.c:107-112 -/
def embedding (zn : Nat → Nat → Nat) (p n : Nat) : Nat := if p = n then 0 else zn p n

/-- `gens_check_anomalous`, gens.c:97-105, on the orders of the generators -/
def checkAnomalous (binary : Bool) (p : Nat) (orders : List Nat) : Bool :=
  if binary then true else orders.all fun n => !(p == n)

/-- `gens_check_embedding`, gens.c:114-133 -/
def checkEmbedding (zn : Nat → Nat → Nat) (binary : Bool) (p mind : Nat) (orders : List Nat) : Bool :=
  if binary then true else orders.all fun n => !decide (embedding zn p n ≤ mind)

/-- `brainpool_check_gens`, brainpool.c:256-266, on the order of the first generator -/
def checkGens (zn : Nat → Nat → Nat) (p n : Nat) : Bool := !decide (embedding zn p n ≤ (n - 1) / 100)

/-- `brainpool_check_order`, brainpool.c:268-274 -/
def checkOrder (p n : Nat) : Bool := decide (n < p)

end Ecgen.Order
