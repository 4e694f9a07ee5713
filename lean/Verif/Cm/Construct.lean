import Verif.Invalid.Formulas
import Verif.Cm.Model
import Verif.Bits.Model

/-!
# Model of `/repo/src/cm/cm_prime.c`, `/repo/src/cm/cm_any.c` and of the order argument in `/repo/src/cm/cm.c`

PARI integers are integers. What PARI computes is a parameter: the class polynomial and its roots (`roots`), solutions of norm equations
(`cornacchia2`, `traces`), random points, the non-square used by `elltwist`, the rounded logarithm. The searches are unbounded loops; they
take a budget, `none` means that it was used up. PARI stack handling (`gerepile`) and the log are left out.
-/

namespace Ecgen.Cm.Construct

open Ecgen.Invalid (addPrime)

/-! ## cm.c: the requested order -/

/-- the substrings between commas, the loop cm.c:166-175 (`strchr`, overwrite with 0, go on behind it) -/
def fields : List Char → List (List Char)
  | [] => [[]]
  | c :: s =>
    if c = ',' then [] :: fields s
    else match fields s with
      | [] => [[c]]
      | f :: fs => (c :: f) :: fs

/-- filling the vector of `delims + 1` factors, cm.c:160-175; `none`: an index outside of the vector is written -/
def fillFactors (strtoi : List Char → Nat) (size : Nat) : List (List Char) → List Nat → Option (List Nat)
  | [], acc => some acc
  | f :: fs, acc => if acc.length < size then fillFactors strtoi size fs (acc ++ [strtoi f]) else none

/-- the order, cm.c:154-190: without a comma the number itself, otherwise the product of the factors (`addprimes` only helps PARI to factor
and is left out); entries of the vector that are not written stay 0 -/
def requestedOrder (strtoi : List Char → Nat) (s : List Char) : Option Nat :=
  let delims := s.count ','
  if delims = 0 then some (strtoi s)
  else (fillFactors strtoi (delims + 1) (fields s) []).map fun l =>
    (l ++ List.replicate (delims + 1 - l.length) 0).foldl (fun o f => o * f) 1

/-- what `cm_init` does with the order, cm.c:191-208: error, or the order with the flag for prime orders -/
def cmInit (strtoi : List Char → Nat) (isprime : Int → Bool) (bits : Nat) (s : List Char) : Option (Option (Nat × Bool)) :=
  (requestedOrder strtoi s).map fun order =>
    if order = 0 then none
    else if Nat.log2 order > bits then none
    else some (order, if s.count ',' = 0 then isprime order else false)

/-! ## cm_prime.c: the search for a discriminant -/

/-- PARI's `kronecker(a, q)` for a positive `a` and a prime `q` -/
def kronecker (a q : Nat) : Int :=
  if q = 2 then ZMod.χ₈ a else jacobiSym a q

/-- `add_primes`, cm_prime.c:14-50: the primes `q` from `r * logN` to `(r + 1) * logN`, both included, for which the order is a square,
with a sign (`pstar`); the array grows as needed and is then cut to what it holds. `none`: it holds nothing, `try_realloc` is called with the size 0
(cm_prime.c:47). The C standard leaves open what this gives; with the GNU C library it is a null pointer, and `pari_realloc` ends the program with an
error. No handler for errors of PARI is set at this point. -/
def addPrimes (isprime : Int → Bool) (logN order r : Nat) (Sp : List Int) : Option (List Int) :=
  let Sp := Sp ++ ((List.range' (r * logN) (logN + 1)).filter fun (q : Nat) => isprime q && kronecker order q == 1).map fun (q : Nat) =>
    if (q - 1) / 2 % 2 = 1 then -(q : Int) else (q : Int)
  if Sp.length = 0 then none else some Sp

/-- the state kept in `cm_prime_qdisc_t` -/
structure QState where
  r : Nat
  i : Nat
  Sp : List Int
  deriving Repr

/-- `D`, `p` and `t` of `cm_prime_qdisc_t` -/
structure Found where
  D : Int
  p : Int
  t : Int
  deriving Repr, DecidableEq

/-- the product of the selected entries, cm_prime.c:81-89; `none`: an access outside of the bit string -/
def selected (Sp : List Int) (i : Nat) : Option Int :=
  (Bits.fromILen i Sp.length).bind fun ibits =>
    forN (fun j pprod => (Bits.getBit ibits.bits j).map fun v => if v = 1 then pprod * Sp.getD j 0 else pprod) Sp.length 1

/-- the test of one candidate, cm_prime.c:90-122; `cornacchia2 d n` is a solution of `x² + d y² = 4 n` if PARI finds one -/
def tryDisc (isprime : Int → Bool) (cornacchia2 : Nat → Nat → Option (Int × Int)) (logN order r : Nat) (D : Int) : Option Found :=
  if D.natAbs < ((r + 1) * logN) ^ 2 ∧ D % 8 = 5 ∧ D.natAbs % 4 ≠ 1 ∧ D.natAbs % 4 ≠ 2 then
    match cornacchia2 D.natAbs order with
    | none => none
    | some (x, _) =>
      if isprime (order + 1 + x) then some ⟨D, order + 1 + x, x⟩
      else if isprime (order + 1 - x) then some ⟨D, order + 1 - x, x⟩
      else none
  else none

/-- the loops of `qdisc_next`, cm_prime.c:76-133. `none`: the budget was used up, or the program was ended in `addPrimes`; which of the two is told by
`addPrimes` for the first round (`Cm.Alloc`). -/
def nextLoop (isprime : Int → Bool) (cornacchia2 : Nat → Nat → Option (Int × Int)) (logN order : Nat) :
    Nat → QState → Option (Found × QState)
  | 0, _ => none
  | fuel + 1, s =>
    if s.i < 2 ^ s.Sp.length then
      match (selected s.Sp s.i).bind (tryDisc isprime cornacchia2 logN order s.r) with
      | some f => some (f, { s with i := s.i + 1 })
      | none => nextLoop isprime cornacchia2 logN order fuel { s with i := s.i + 1 }
    else
      (addPrimes isprime logN order (s.r + 1) s.Sp).bind fun Sp =>
        nextLoop isprime cornacchia2 logN order fuel { s with r := s.r + 1, Sp := Sp }

/-- `qdisc_next`, cm_prime.c:65-134 -/
def qdiscNext (isprime : Int → Bool) (cornacchia2 : Nat → Nat → Option (Int × Int)) (logN order fuel : Nat) (s : QState) :
    Option (Found × QState) :=
  (if s.i = 2 ^ s.Sp.length ∨ s.Sp.length = 0 then (addPrimes isprime logN order s.r s.Sp).map fun Sp => { s with Sp := Sp } else some s).bind
    (nextLoop isprime cornacchia2 logN order fuel)

/-! ## cm_any.c: the search for a discriminant -/

/-- PARI's `quaddisc(-d)` for a square free `d > 0`: the discriminant of the field generated by a root of `-d` -/
def quaddisc (d : Nat) : Int := if d % 4 = 3 then -(d : Int) else -(4 * d : Int)

/-- `good_qdisc_minimal`, cm_any.c:17-52; `traces D n` are the traces of the elements of norm `n` which `bnfisintnorm` finds in the field
of discriminant `D`. Returns `d` and `p`. -/
def qdiscMinimal (isprime : Int → Bool) (issquarefree : Nat → Bool) (traces : Int → Nat → List Int) (order : Nat) :
    Nat → Nat → Option (Int × Int)
  | 0, _ => none
  | fuel + 1, d =>
    if issquarefree d then
      match (traces (quaddisc d) order).find? (fun t => isprime (order + 1 - t)) with
      | some t => some (quaddisc d, order + 1 - t)
      | none => qdiscMinimal isprime issquarefree traces order fuel (d + 1)
    else qdiscMinimal isprime issquarefree traces order fuel (d + 1)

/-! ## cm_any.c: the curve -/

section Curve

variable {K : Type} [Field K] [DecidableEq K]

/-- coefficients of `ellfromj`, as PARI chooses them in characteristic above 3 -/
def fromJ (j : K) : K × K :=
  if j = 0 then (0, 1) else if j = 1728 then (1, 0) else (3 * ((1728 - j) * j), 2 * ((1728 - j) * j * (1728 - j)))

/-- `ellmul(e, P, n)`: the `n`-fold sum. PARI uses the coefficient `a` of `e` in the formulas and never tests whether `P` is on `e`. -/
def ellmul (a : K) (n : Nat) (P : Option (K × K)) : Option (K × K) := (addPrime a P)^[n] none

/-- `ellinit(elltwist(e, NULL), p, 0)` with the non-square `T` -/
def twist (T : K) (e : K × K) : K × K := (e.1 * T ^ 2, e.2 * T ^ 3)

/-- the branch for prime orders, cm_any.c:156-168 -/
def choosePrime (order : Nat) (T : K) (e : K × K) (g : Option (K × K)) : K × K :=
  if ellmul e.1 order g = none then e else twist T e

/-- the loop of the branch for composite orders, cm_any.c:180-207; the two lists of random points are the values of `genrand(e)` and
`genrand(twist)` round by round. All four multiplications are computed on `e`. -/
def chooseAny (origMul twistMul : Nat) (T : K) (e : K × K) : List (Option (K × K) × Option (K × K)) → Option (K × K)
  | [] => none
  | (P, Q) :: rest =>
    if ellmul e.1 origMul P = none then some e
    else if ellmul e.1 twistMul P = none then some (twist T e)
    else if ellmul e.1 twistMul Q = none then some e
    else if ellmul e.1 origMul Q = none then some (twist T e)
    else chooseAny origMul twistMul T e rest

/-- a curve for which `ellinit` gives an object that `checkell` accepts -/
def Regular (e : K × K) : Prop := 4 * e.1 ^ 3 + 27 * e.2 ^ 2 ≠ 0

instance (e : K × K) : Decidable (Regular e) := by unfold Regular; infer_instance

/-- `cm_construct_curve` with `ord_prime`, cm_any.c:137-211: the first root that gives a curve decides. The outer `none` does not occur,
the inner one is `NULL`. `g e` is the random point. -/
def constructPrime (order : Nat) (T : K) (g : K × K → Option (K × K)) (roots : List K) : Option (K × K) :=
  (roots.find? fun j => Regular (fromJ j)).map fun j => choosePrime order T (fromJ j) (g (fromJ j))

/-- `cm_construct_curve` without `ord_prime`. The outer `none`: no decision within the rounds given by `pts`. `size` is `p`. -/
def constructAny (order size : Nat) (T : K) (pts : K × K → List (Option (K × K) × Option (K × K))) (roots : List K) :
    Option (Option (K × K)) :=
  match roots.find? fun j => Regular (fromJ j) with
  | none => some none
  | some j =>
    let twistOrder : Nat := 2 * size + 2 - order
    let gcd := Nat.gcd order twistOrder
    (chooseAny (order / gcd) (twistOrder / gcd) T (fromJ j) (pts (fromJ j))).map some

/-- `cm_construct_curve_subgroup`, cm_any.c:213-249, with `card` for `ellff_get_card` -/
def constructSubgroup (r : Nat) (card : K × K → Nat) (roots : List K) : Option (K × K) :=
  (roots.find? fun j => Regular (fromJ j) ∧ r ∣ card (fromJ j)).map fromJ

end Curve

/-! ## The two generators -/

/-- what a curve stage leaves in the curve: `field`, `a` and `b`; `D` is the discriminant the curve was constructed from, which is not
stored -/
structure Result where
  D : Int
  p : Nat
  a : ZMod p
  b : ZMod p

/-- the external calls of the curve stages which depend on the field -/
structure Calls where
  /-- `FpX_roots(polclass(D, 0, 0), p)` -/
  roots : (D : Int) → (p : Nat) → List (ZMod p)
  /-- the non-square chosen by `elltwist` -/
  T : (p : Nat) → ZMod p
  /-- `genrand(e)` in the branch for prime orders -/
  rand : (p : Nat) → ZMod p × ZMod p → Option (ZMod p × ZMod p)
  /-- the values of `genrand(e)` and `genrand(twist)` round by round -/
  rands : (p : Nat) → ZMod p × ZMod p → List (Option (ZMod p × ZMod p) × Option (ZMod p × ZMod p))

/-- division in `ZMod p` as needed by the formulas; for a prime `p` it is the field -/
noncomputable def constructAt (C : Calls) (order : Nat) (D : Int) (p : Nat) (hp : p.Prime) : Option Result :=
  letI : Fact p.Prime := ⟨hp⟩
  (constructPrime order (C.T p) (C.rand p) (C.roots D p)).map fun e => ⟨D, p, e.1, e.2⟩

/-- the loop of `cm_gen_curve_prime`, cm_prime.c:138-157. PARI's `isprime` is exact; a field that is not prime (impossible, see
`qdiscNext_spec`) gives `none`. -/
noncomputable def genPrime (C : Calls) (isprime : Int → Bool) (cornacchia2 : Nat → Nat → Option (Int × Int)) (logN order fuel : Nat) :
    Nat → QState → Option Result
  | 0, _ => none
  | n + 1, s =>
    match qdiscNext isprime cornacchia2 logN order fuel s with
    | none => none
    | some (f, s') =>
      if hp : f.p.toNat.Prime then
        match constructAt C order f.D f.p.toNat hp with
        | some r => some r
        | none => genPrime C isprime cornacchia2 logN order fuel n s'
      else none

/-- `cm_gen_curve_prime` from the beginning (`qdisc_init`, cm_prime.c:52-63) -/
noncomputable def cmGenPrime (C : Calls) (isprime : Int → Bool) (cornacchia2 : Nat → Nat → Option (Int × Int)) (logN order fuel n : Nat) :
    Option Result := genPrime C isprime cornacchia2 logN order fuel n ⟨0, 0, []⟩

/-- `cm_gen_curve_any`, cm_any.c:251-271: the inner `none` is the return value -3 -/
noncomputable def cmGenAny (C : Calls) (isprime : Int → Bool) (issquarefree : Nat → Bool) (traces : Int → Nat → List Int)
    (order fuel : Nat) : Option (Option Result) :=
  match qdiscMinimal isprime issquarefree traces order fuel 2 with
  | none => none
  | some (D, p) =>
    if hp : p.toNat.Prime then
      letI : Fact p.toNat.Prime := ⟨hp⟩
      (constructAny order p.toNat (C.T p.toNat) (C.rands p.toNat) (C.roots D p.toNat)).map fun r =>
        r.map fun e => ⟨D, p.toNat, e.1, e.2⟩
    else none

/-- `cm_gen_order`, cm_any.c:273-278: the order reported is the order requested -/
def cmGenOrder (order : Nat) : Nat := order

end Ecgen.Cm.Construct
