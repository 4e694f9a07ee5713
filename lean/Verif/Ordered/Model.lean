import Verif.Whole.Model
import Verif.Special.Model
import Verif.Ordered.Spec
import Verif.Cm.Construct

/-!
# A whole run of `--order` (C88, C89, C90)

The model of a run of `Whole` with the generators of cm_prime.c and cm_any.c and the tables of `cm_init`. The constructions are those of
`Cm.Construct`.

Simplifications: as in `Whole`. The searches for a discriminant and the loop of random points run for at most as many rounds as `Pick` says; one that
takes longer counts as a failure that ends the search. `addprimes` and `Z_factor` in `cm_init` only help PARI to factor and are left out.
-/

namespace Ecgen.Ordered

open Whole Output Cli Cm.Construct
open Seeded (Fp)
open Special (obj)

/-- the PARI functions: those of `Whole`; `strtoi`, `issquarefree`, the rounded logarithm, `cornacchia2`, the traces of what `bnfisintnorm` finds, and the
roots modulo `p` of the class polynomial of `D` (`polclass` and `FpX_roots`) -/
structure Pari extends Whole.Pari where
  strtoi : List Char → Nat
  issquarefree : Nat → Bool
  logN : Nat → Nat
  cornacchia2 : Nat → Nat → Option (Int × Int)
  traces : Int → Nat → List Int
  roots : (D : Int) → (p : Nat) → List (ZMod p)

/-- `isprime` of a `t_INT` -/
def Pari.isprimeI (P : Pari) (x : Int) : Bool := decide (0 < x) && P.isprime x.toNat

/-- what may happen during a call: as in `Whole`; the non-square of `elltwist` and the random points of the constructions; the numbers of rounds -/
structure Pick extends Whole.Pick where
  T : (p : Nat) → ZMod p
  rand : (p : Nat) → ZMod p × ZMod p → Option (ZMod p × ZMod p)
  rands : (p : Nat) → ZMod p × ZMod p → List (Option (ZMod p × ZMod p) × Option (ZMod p × ZMod p))
  rounds : Nat
  tries : Nat

/-- the external calls of the constructions -/
def calls (P : Pari) (p : Pick) : Calls := ⟨P.roots, p.T, p.rand, p.rands⟩

/-! ## cm.c: the order -/

/-- `order_s`, cm.c:154-190: the text itself, or the digits of the product -/
def orderText (P : Pari) (s : List Char) : List Char :=
  if s.count ',' = 0 then s else ((requestedOrder P.strtoi s).map (Nat.toDigits 10)).getD []

/-- `ord_prime`, cm.c:204-208 -/
def primeText (P : Pari) (s : List Char) : Bool := decide (s.count ',' = 0) && P.isprimeI (P.strtoi s)

/-- what `cm_init` makes of the order: an error, or the order and whether it is one prime -/
def accepted (P : Pari) (c : Config) : Option (Nat × Bool) := (cmInit P.strtoi P.isprimeI c.bits (c.cmOrder.getD [])).join

/-! ## The generators -/

/-- the string behind an argument, `(const char *)args->args` -/
def textOf : Arg → Option (List Char)
  | .text s => some s
  | _ => none

/-- field, coefficients and curve are set, cm_any.c:266-270, cm_prime.c:152-156. The numbers of a field that is not prime (a mistake of PARI) are not
followed further. -/
noncomputable def setResult (x : Cur) (r : Result) : Option (Cur × Int) :=
  if h : r.p.Prime then
    some ({ x with field := some (Fp r.p h), a := some (.intmod r.a.val r.p), b := some (.intmod r.b.val r.p), crv := some (obj r.p h r.a.val r.b.val) }, 1)
  else none

/-- `cm_gen_curve_prime`, cm_prime.c:138-158 -/
noncomputable def curvePrime (P : Pari) (p : Pick) (x : Cur) (order : Nat) : Option (Cur × Int) :=
  match cmGenPrime (calls P p) P.isprimeI P.cornacchia2 (P.logN order) order p.rounds p.tries with
  | none => some (x, Engine.INT_MIN)
  | some r => setResult x r

/-- `cm_gen_curve_any`, cm_any.c:251-271 -/
noncomputable def curveAny (P : Pari) (p : Pick) (x : Cur) (order : Nat) : Option (Cur × Int) :=
  match cmGenAny (calls P p) P.isprimeI P.issquarefree P.traces order p.rounds with
  | none => some (x, Engine.INT_MIN)
  | some none => some (x, -3)
  | some (some r) => setResult x r

/-- a call of a generator: cm_any.c, cm_prime.c; the other ones are those of `Whole` -/
noncomputable def call (P : Pari) (c : Config) (p : Pick) (arg : Option Arg) (x : Cur) : Gen → Option (Cur × Int)
  | .cmCurvePrime => (arg.bind textOf).bind fun s => curvePrime P p x (P.strtoi s)
  | .cmCurveAny => (arg.bind textOf).bind fun s => curveAny P p x (P.strtoi s)
  | .cmOrder => (arg.bind textOf).map fun s => ({ x with order := some (cmGenOrder (P.strtoi s)) }, 1)
  | g => Whole.call P.toPari c.bits p.toPick arg x g

/-! ## The search -/

/-- the world of a run -/
structure W where
  cur : Cur
  tape : Nat → Pick
  pos : Nat
  ub : Bool

def W.pick (w : W) : Pick := w.tape w.pos
def W.next (w : W) : W := { w with pos := w.pos + 1 }

/-- undefined behaviour ends the model of the run -/
def done (w : W) : Option (Cur × Int) → W × Engine.GenRes
  | some (x, d) => ({ w.next with cur := x }, .ret d)
  | none => ({ w.next with ub := true }, .ret Engine.INT_MIN)

/-- the generator of a stage, called under the timer, exhaustive.c:366-375 -/
noncomputable def gen (P : Pari) (c : Config) (S : Setup) (s : Nat) (w : W) : W × Engine.GenRes :=
  match w.pick.cut with
  | some x => ({ w.next with cur := x }, .timeout)
  | none =>
    match w.pick.fail s with
    | some d => (w.next, .ret d)
    | none => done w (((stageOf S.gens s).bind id).bind (call P c w.pick ((stageOf S.genArgs s).bind id) w.cur))

open Classical in
/-- the checks but for the hex check: `curve_check_nonzero`, curve.c:46-52; the others do not belong to this method -/
noncomputable def verdict (x : Cur) : Check → Option Int
  | .curveNonzero => x.crv.map fun E => if E.eqn.Δ = 0 then -3 else 1
  | _ => none

/-- a check; the hex check accepts or refuses at will -/
noncomputable def check (w : W) : Check → W × Int
  | .hexParam => (w.next, w.pick.verdict.getD 1)
  | k =>
    match verdict w.cur k with
    | some d => (w, d)
    | none => ({ w with ub := true }, Engine.INT_MIN)

/-- the tables that `main` chooses -/
def tables (P : Pari) (c : Config) : Setup :=
  match Cli.run (orderText P) (primeText P) c with
  | .search s => s
  | .invalid s _ _ => s

/-- the engine's tables for a configuration -/
noncomputable def setup (P : Pari) (c : Config) : Engine.Setup W where
  gen := gen P c (tables P c)
  checks s := ((stageOf (tables P c).checks s).getD []).map fun k w => check w k
  unroll s := some fun w => { w with cur := unroll s w.cur }

/-- a new curve, exhaustive.c:471 -/
def fresh (w : W) : W := { w with cur := {} }

/-- one curve: `curve_new` and `exhaustive_gen`, exhaustive.c:471-473 -/
noncomputable def one (P : Pari) (c : Config) (fuel : Nat) (w : W) : Option Output.Curve × W :=
  match Engine.gen (setup P c) 0 9 fuel (fresh w) with
  | some (r, st) => (if r = 0 then none else outCurve st.w.cur, st.w)
  | none => (none, w)

/-- `cm_do`, cm.c:229-259: nothing is printed and the status is 1 if the order is refused; otherwise `exhaustive_generate` -/
noncomputable def produce (P : Pari) (c : Config) (fuel : Nat) (w : W) : List (Ecgen.Json.Tok Output.Curve) × Int :=
  match accepted P c with
  | none => ([], 1)
  | some _ => Ecgen.Json.generate (one P c fuel) (toSize c.count) w

/-- the bytes printed -/
noncomputable def bytes (malloc : Nat → List Parson.Byte) (P : Pari) (c : Config) (fuel : Nat) (w : W) : List Parson.Byte :=
  Parson.outputText (Parson.curveText malloc c.hexDigits) (produce P c fuel w).1

/-! ## What PARI and the user may do -/

/-- PARI computes what it says; `strtoi` reads decimal digits -/
structure Pari.Ok (P : Pari) : Prop where
  base : P.toPari.Ok
  strtoi : ∀ n, P.strtoi (Nat.toDigits 10 n) = n

/-- what the generators of a stage return when they fail for other reasons: metadata.c:22, 37 -/
def failures : Nat → List Int
  | 8 => [-7]
  | _ => []

/-- a call behaves, as in `Whole` -/
structure Pick.Ok (c : Config) (p : Pick) : Prop where
  cut : ∀ x, p.cut = some x → (c.metadata = false → x.info = []) ∧ x.seed = none
  fail : ∀ s d, p.fail s = some d → d ∈ failures s
  which : ∀ n i, 0 < n → p.which n i < n
  mul : ∀ o i j, 2 ≤ o → 1 ≤ p.mul o i j ∧ p.mul o i j ≤ o - 1
  info : (∀ x ∈ p.info, x.1 ∈ Parson.metaNames) ∧ (p.info.map (·.1)).Nodup
  verdict : ∀ d, p.verdict = some d → d = -6

/-- the curve that a call of the curve stage would come to -/
noncomputable def built (P : Pari) (p : Pick) (prime : Bool) (N : Nat) : Option Result :=
  if prime then cmGenPrime (calls P p) P.isprimeI P.cornacchia2 (P.logN N) N p.rounds p.tries
  else (cmGenAny (calls P p) P.isprimeI P.issquarefree P.traces N p.rounds).join

/-- the calls of a run behave, and `ellff_get_gens` is right for the curves that are constructed -/
structure TapeOk (P : Pari) (c : Config) (prime : Bool) (N : Nat) (T : Nat → Pick) : Prop where
  picks : ∀ i, (T i).Ok c
  gens : ∀ i j r (h : r.p.Prime), built P (T j) prime N = some r → (obj r.p h r.a.val r.b.val).eqn.Δ ≠ 0 →
    Group.GensSpec (obj r.p h r.a.val r.b.val).Pt ((T i).gens (obj r.p h r.a.val r.b.val))

end Ecgen.Ordered
