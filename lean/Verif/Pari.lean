import Mathlib.Data.Int.ModEq
import Mathlib.Data.Nat.Prime.Basic

/-!
# Contracts of PARI functions used as parameters
-/

namespace Ecgen

/-- contract of PARI's `isprime` on `t_INT` -/
def IsPrimeSpec (isprime : Int → Bool) : Prop :=
  ∀ x : Int, isprime x = true ↔ 0 < x ∧ x.natAbs.Prime

end Ecgen

namespace Ecgen

/-- PARI's arithmetic modulo a fixed number: `Fp_invsafe` (`none` = NULL), `Fp_issquare`, `Fp_sqrt`,
`Fp_sqrtn(x, 4, p, NULL)` -/
structure FpOps where
  invsafe : Int → Option Int
  issquare : Int → Bool
  sqrt : Int → Int
  root4 : Int → Option Int

/-- the documented behaviour modulo `p` -/
structure FpSpec (p : Nat) (P : FpOps) : Prop where
  invsafe_some : ∀ x y, P.invsafe x = some y → x * y ≡ 1 [ZMOD p]
  invsafe_none : ∀ x, P.invsafe x = none ↔ (p : Int) ∣ x
  issquare : ∀ x, P.issquare x = true ↔ ∃ y : Int, y ^ 2 ≡ x [ZMOD p]
  sqrt : ∀ x, P.issquare x = true → (P.sqrt x) ^ 2 ≡ x [ZMOD p] ∧ 0 ≤ P.sqrt x ∧ P.sqrt x < p
  root4_some : ∀ x y, P.root4 x = some y → y ^ 4 ≡ x [ZMOD p]
  root4_none : ∀ x, P.root4 x = none ↔ ¬ ∃ y : Int, y ^ 4 ≡ x [ZMOD p]

end Ecgen

namespace Ecgen

/-- weak contract of PARI's `nextprime`: it goes up and skips no prime, but may stop at a composite pseudoprime -/
def NextPrimeWeak (np : Int → Int) : Prop :=
  ∀ x : Int, x ≤ np x ∧ ∀ q : Nat, q.Prime → x ≤ q → np x ≤ q

/-- strong contract of `nextprime` (no pseudoprimes) -/
def NextPrimeSpec (np : Int → Int) : Prop :=
  NextPrimeWeak np ∧ ∀ x : Int, 0 < np x ∧ (np x).natAbs.Prime

end Ecgen
