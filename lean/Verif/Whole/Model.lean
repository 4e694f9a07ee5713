import Verif.Whole.Field
import Verif.Cli.Setup
import Verif.Engine.Model
import Verif.Order.Model
import Verif.Koblitz.Model
import Verif.Group.Model
import Verif.Group.Spec
import Verif.Json.Model
import Verif.Parson.Props
import Verif.Ansi.Model

/-!
# A whole run (C75)

The generators named in the tables of `exhaustive_init` (`Cli.Gen`), run by the engine of `exhaustive_gen` (`Engine`) on a curve whose fields,
equations and points are those of Mathlib, and the text that is printed for the curves found. The pieces are the models of the single
functions: the choice of the generators (`Cli.exhaustiveSetup`), the order stage (`Order`, `Koblitz`), generators and points (`Group`), the array
(`Json`) and its bytes (`Parson`).

Modelled: the default method and `--ansi`, over prime and binary fields, with every combination of `--random`, `--koblitz`, `--prime`,
`--cofactor`, `--smooth`, `--unique`, `--points`, `--hex-check`, `--metadata`, `--count`, and the timer. `--brainpool`, `--brainpool-rfc`,
`--nums`, `--twist` and `--family` have generators that are `none` here.

Simplifications: a generator that fails leaves the curve as it was, and may fail whenever it likes (`Pick.fail`); one that is cut off leaves an
arbitrary curve behind (`Pick.cut`). What is typed is what the user typed after the checks of `input.c`, as an element of the field: over a binary
field of degree `m` the number `2^m` and negative numbers of any size pass those checks and make elements that PARI does not reduce; such input is
outside the model (`Output.ielement`, C50). Random elements of a prime field are `t_INT` in C and residue classes here, with the same text. The verdict
of the hex check is arbitrary (C51). The coefficients of `--ansi` are those that `Ansi.genEquationFp` and `Ansi.genEquationF2m` find for the seed at
hand (`TapeOk.ansi`), as they are left by ansi.c:135-136: integers that are not reduced. A class of polynomials whose representative has the degree of the
field (`a = 2^m` in ansi.c:156-157) is taken for what it is by PARI.
-/

namespace Ecgen.Whole

open Output Cli

/-- a curve object of PARI: made from a field and two coefficients by `ellinit`, curve.c:10-26 -/
structure Crv where
  field : Fld
  a : Elt
  b : Elt

/-- the curve -/
noncomputable abbrev Crv.eqn (E : Crv) : WeierstrassCurve.Affine (Carrier E.field) :=
  equation E.field (elem E.field (Spec.eltV E.a)) (elem E.field (Spec.eltV E.b))

/-- its points -/
abbrev Crv.Pt (E : Crv) : Type := E.eqn.Point

/-- `curve_t`, types.h; null pointers are `none`. The generators and points live on the curve object they were computed from. -/
structure Cur where
  seed : Option Bits.Bits := none
  field : Option Fld := none
  a : Option Elt := none
  b : Option Elt := none
  crv : Option Crv := none
  order : Option Nat := none
  gens : Option (Σ E : Crv, List (Group.Sub E.Pt)) := none
  info : List (String × Text) := []

/-- how a call of `ansi_gen_equation` ends, ansi.c:106-180: the null pointer of a missing inverse is used, -3 is returned, or there are coefficients -/
inductive Derived where
  | crash
  | again
  | coeffs (a b : Elt)

/-- the PARI functions: `isprime`, `factor`, `ellff_get_card`, `ellorder` -/
structure Pari where
  isprime : Nat → Bool
  fac : Nat → List (Nat × Nat)
  card : Crv → Nat
  ord : (E : Crv) → E.Pt → Nat

/-- what may happen during the call of a generator or check: the timer, failures, and the random and typed numbers -/
structure Pick where
  /-- the timer goes off and leaves this curve behind -/
  cut : Option Cur
  /-- the return value of a failure of the stage -/
  fail : Nat → Option Int
  seed : Bits.Bits
  randomField : Fld
  typedField : Fld
  /-- `genrand(field)`, or the number typed, as an element of the field -/
  elt : Fld → Elt
  /-- what `ansi_gen_equation` finds for the field and the seed -/
  ansi : Fld → Bits.Bits → Derived := fun _ _ => .crash
  /-- `ellsea(E, 1)` -/
  sea : Crv → Nat
  /-- `ellff_get_gens` -/
  gens : (E : Crv) → List E.Pt
  /-- the `i`-th `random_range(0, ngens)` -/
  which : Nat → Nat → Nat
  /-- `random_range(1, order)` for point number `j` of generator number `i` -/
  mul : Nat → Nat → Nat → Nat
  /-- `random_range(0, order)` -/
  mul0 : Nat
  info : List (String × Text)
  /-- the return value of the hex check when it refuses -/
  verdict : Option Int

/-- the entry of a stage -/
def stageOf {α : Type} (t : Table α) : Nat → Option α
  | 0 => some t.seed
  | 1 => some t.field
  | 2 => some t.a
  | 3 => some t.b
  | 4 => some t.curve
  | 5 => some t.order
  | 6 => some t.gens
  | 7 => some t.points
  | 8 => some t.metadata
  | _ => none

/-- the `pari_ulong` or `size_t` behind an argument -/
def argNat : Arg → Nat
  | .size n => n
  | .long v => toSize v
  | _ => 0

/-- a filter of the order stage: success with the order, or -4 -/
def filtered (x : Cur) : Option Nat → Cur × Int
  | some n => ({ x with order := some n }, 1)
  | none => (x, -4)

/-- the order stage: order.c:25-35 (`order_gen_any`), 48-121 -/
def orderStage (P : Pari) (bits : Nat) (p : Pick) (E : Crv) (arg : Option Arg) (x : Cur) : Gen → Option (Cur × Int)
  | .orderAny => some ({ x with order := some (P.card E) }, 1)
  | .orderPrime => some (filtered x (Order.genPrime P.isprime (p.sea E)))
  | .orderCofactor => arg.map fun k => filtered x (Order.genCofactor P.isprime (argNat k) (P.card E))
  | .orderSmooth => arg.map fun k => filtered x (Order.genSmooth P.fac (argNat k) (P.card E))
  | .orderKoblitz =>
    -- `itou(curve->a)` wants a `t_INT`
    match x.a with
    | some (.int a) => some ({ x with order := some (Koblitz.genOrder bits a (P.card E)) }, 1)
    | _ => none
  | _ => none

/-- the generators of a curve, without points -/
def bare {A : Type} (l : List (Group.Pt A)) : List (Group.Sub A) := l.map fun g => ⟨g, []⟩

/-- the generators found, or -5 -/
def found (x : Cur) (E : Crv) : Option (List (Group.Pt E.Pt)) → Cur × Int
  | some l => ({ x with gens := some ⟨E, bare l⟩ }, 1)
  | none => (x, -5)

/-- the stage of the generators, gens.c:12-95 -/
noncomputable def gensStage (P : Pari) (p : Pick) (E : Crv) (n : Nat) (arg : Option Arg) (x : Cur) : Gen → Option (Cur × Int)
  | .gensAny => some (found x E (some (Group.gensAny (P.ord E) n (p.gens E))))
  | .gensOne => some (found x E (Group.gensOne (P.ord E) n (p.gens E)))
  | .gensCofactor => arg.map fun k => found x E (Group.gensCofactor (P.ord E) n (argNat k) (p.gens E))
  | _ => none

/-- the random multiples for the generators at hand -/
def mulOf {A : Type} (p : Pick) (gens : List (Group.Pt A)) (i j : Nat) : Nat := p.mul ((gens[i]?).elim 0 (·.order)) i j

/-- the points of the generators, point.c -/
noncomputable def pointsStage (P : Pari) (p : Pick) (E : Crv) (gens : List (Group.Pt E.Pt)) (arg : Option Arg) :
    Gen → Option (List (Group.Sub E.Pt))
  | .pointRandom => Group.pointRandom (P.ord E) (p.which gens.length 0) p.mul0 gens
  | .pointsRandom => arg.bind fun k => Group.pointsRandom (P.ord E) (p.which gens.length) (mulOf p gens) (argNat k) gens
  | .pointsPrime => some (Group.pointsPrime P.isprime P.fac gens)
  | .pointsAll => Group.pointsAll P.isprime P.fac gens
  | .pointsNonprime => Group.pointsNonprime P.isprime P.fac gens
  | _ => none

/-- the coefficients of `--ansi` -/
def derived (x : Cur) : Derived → Option (Cur × Int)
  | .crash => none
  | .again => some (x, -3)
  | .coeffs a b => some ({ x with a := some a, b := some b }, 1)

/-- a call of a generator: the curve afterwards and the return value. `none` is undefined behaviour: a missing argument, a member that is not
set, points on another curve object, or what `Group` finds; and the generators that are not modelled.
field.c:23-95, equation.c:9-106, ansi.c, curve.c:8-34, order.c, gens.c, point.c, metadata.c -/
noncomputable def call (P : Pari) (bits : Nat) (p : Pick) (arg : Option Arg) (x : Cur) : Gen → Option (Cur × Int)
  | .skip => some (x, 1)
  | .ansiSeedArgument | .ansiSeedRandom | .ansiSeedInput => some ({ x with seed := some p.seed }, 1)
  | .fieldRandom => some ({ x with field := some p.randomField }, 1)
  | .fieldInput => some ({ x with field := some p.typedField }, 1)
  | .aRandom | .aInput => x.field.map fun f => ({ x with a := some (p.elt f) }, 1)
  | .bRandom | .bInput => x.field.map fun f => ({ x with b := some (p.elt f) }, 1)
  | .aZero => some ({ x with a := some (.int 0) }, 1)
  | .aOne => some ({ x with a := some (.int 1) }, 1)
  | .bOne => some ({ x with b := some (.int 1) }, 1)
  | .ansiEquation => x.seed.bind fun s => x.field.bind fun f => derived x (p.ansi f s)
  | .curveAny =>
    match x.field, x.a, x.b with
    | some f, some a, some b => some ({ x with crv := some ⟨f, a, b⟩ }, 1)
    | _, _, _ => none
  | .orderAny => x.crv.bind fun E => orderStage P bits p E arg x .orderAny
  | .orderPrime => x.crv.bind fun E => orderStage P bits p E arg x .orderPrime
  | .orderCofactor => x.crv.bind fun E => orderStage P bits p E arg x .orderCofactor
  | .orderSmooth => x.crv.bind fun E => orderStage P bits p E arg x .orderSmooth
  | .orderKoblitz => x.crv.bind fun E => orderStage P bits p E arg x .orderKoblitz
  | .gensAny => x.crv.bind fun E => x.order.bind fun n => gensStage P p E n arg x .gensAny
  | .gensOne => x.crv.bind fun E => x.order.bind fun n => gensStage P p E n arg x .gensOne
  | .gensCofactor => x.crv.bind fun E => x.order.bind fun n => gensStage P p E n arg x .gensCofactor
  | .pointRandom => withPoints P p arg x .pointRandom
  | .pointsRandom => withPoints P p arg x .pointsRandom
  | .pointsPrime => withPoints P p arg x .pointsPrime
  | .pointsAll => withPoints P p arg x .pointsAll
  | .pointsNonprime => withPoints P p arg x .pointsNonprime
  | .metadata => some ({ x with info := p.info }, 1)
  | _ => none
where
  /-- points are computed on the curve object at hand, whose generators must be those of the curve -/
  withPoints (P : Pari) (p : Pick) (arg : Option Arg) (x : Cur) (g : Gen) : Option (Cur × Int) :=
    open Classical in
    match x.gens with
    | some ⟨E, l⟩ =>
      if x.crv = some E then (pointsStage P p E (l.map Group.Sub.gen) arg g).map fun l => ({ x with gens := some ⟨E, l⟩ }, 1) else none
    | none => none

/-- the world of a run: the curve at hand, the calls to come, and whether undefined behaviour has occurred -/
structure W where
  cur : Cur
  tape : Nat → Pick
  pos : Nat
  ub : Bool

/-- the next call -/
def W.pick (w : W) : Pick := w.tape w.pos
def W.next (w : W) : W := { w with pos := w.pos + 1 }

/-- undefined behaviour ends the model of the run -/
def done (w : W) : Option (Cur × Int) → W × Engine.GenRes
  | some (x, d) => ({ w.next with cur := x }, .ret d)
  | none => ({ w.next with ub := true }, .ret Engine.INT_MIN)

/-- the generator of a stage, called under the timer, exhaustive.c:366-375 -/
noncomputable def gen (P : Pari) (bits : Nat) (S : Setup) (s : Nat) (w : W) : W × Engine.GenRes :=
  match w.pick.cut with
  | some x => ({ w.next with cur := x }, .timeout)
  | none =>
    match w.pick.fail s with
    | some d => (w.next, .ret d)
    | none => done w (((stageOf S.gens s).bind id).bind (call P bits w.pick ((stageOf S.genArgs s).bind id) w.cur))

/-- the checks: `curve_check_nonzero`, curve.c:46-52, and `hex_check_param`; the others are not modelled -/
noncomputable def check (w : W) : Check → W × Int
  | .curveNonzero =>
    open Classical in
    match w.cur.crv with
    | some E => (w, if E.eqn.Δ = 0 then -3 else 1)
    | none => ({ w with ub := true }, Engine.INT_MIN)
  | .hexParam => (w.next, w.pick.verdict.getD 1)
  | _ => ({ w with ub := true }, Engine.INT_MIN)

/-- `seed_unroll`, `curve_unroll`, `gens_unroll`, `points_unroll`, and `unroll_skip` for the other stages, exhaustive.c:328-341 -/
def unroll (s : Nat) (x : Cur) : Cur :=
  match s with
  | 0 => { x with seed := none }
  | 4 => { x with crv := none }
  | 6 => { x with gens := none }
  | 7 => { x with gens := x.gens.map fun g => ⟨g.1, g.2.map fun s => ⟨s.gen, []⟩⟩ }
  | _ => x

/-- the engine's tables for a configuration -/
noncomputable def setup (P : Pari) (c : Config) : Engine.Setup W where
  gen := gen P c.bits (exhaustiveSetup c)
  checks s := ((stageOf (exhaustiveSetup c).checks s).getD []).map fun k w => check w k
  unroll s := some fun w => { w with cur := unroll s w.cur }

/-- a point in the representation of the printing code; the point at infinity has no second coordinate -/
noncomputable def outPoint (E : Crv) (cofactor : Option Nat) (q : Group.Pt E.Pt) : Option Output.Point :=
  match q.point with
  | .zero => none
  | .some x y _ =>
    match ielement (out E.field.1) (num E.field x), ielement (out E.field.1) (num E.field y) with
    | some x, some y => some ⟨x, y, q.order, cofactor⟩
    | _, _ => none

/-- a subgroup; an entry of the points that is a null pointer is read (`none`) -/
noncomputable def outSub (E : Crv) (s : Group.Sub E.Pt) : Option Output.Subgroup :=
  (outPoint E (some s.gen.cofactor) s.gen).bind fun g =>
    (allSome (s.points.map fun p => p.bind (outPoint E none))).map fun ps => ⟨g, ps⟩

/-- the curve given to `output_o` -/
noncomputable def outCurve (x : Cur) : Option Output.Curve :=
  match x.field, x.a, x.b, x.order, x.gens with
  | some f, some a, some b, some n, some ⟨E, l⟩ => (allSome (l.map (outSub E))).map fun gs => ⟨x.seed, out f.1, a, b, n, gs, x.info⟩
  | _, _, _, _, _ => none

/-- one curve: `curve_new` and `exhaustive_gen` from `OFFSET_SEED` to `OFFSET_END`, exhaustive.c:471-473, within `fuel` rounds of the search.
A search that takes longer counts as failed, like one that runs into undefined behaviour. -/
noncomputable def one (P : Pari) (c : Config) (fuel : Nat) (w : W) : Option Output.Curve × W :=
  match Engine.gen (setup P c) 0 9 fuel { w with cur := {} } with
  | some (r, st) => (if r = 0 then none else outCurve st.w.cur, st.w)
  | none => (none, w)

/-- `exhaustive_generate`: the tokens printed and the exit status; `cfg->count` is compared as an `unsigned long` -/
noncomputable def produce (P : Pari) (c : Config) (fuel : Nat) (w : W) : List (Ecgen.Json.Tok Output.Curve) × Int :=
  Ecgen.Json.generate (one P c fuel) (toSize c.count) w

/-- the bytes printed; `malloc n` is what fresh memory of `n` bytes holds -/
noncomputable def bytes (malloc : Nat → List Parson.Byte) (P : Pari) (c : Config) (fuel : Nat) (w : W) : List Parson.Byte :=
  Parson.outputText (Parson.curveText malloc c.hexDigits) (produce P c fuel w).1

/-! ## What PARI and the user may do -/

/-- PARI computes what it says: primality, factorisations, the number of points of a nonsingular curve, the order of a point -/
structure Pari.Ok (P : Pari) : Prop where
  isprime : ∀ n, P.isprime n = true ↔ n.Prime
  fac : Subgroup.FactorSpec P.fac
  card : ∀ E : Crv, E.eqn.Δ ≠ 0 → P.card E = Nat.card E.Pt
  ord : ∀ (E : Crv) (Q : E.Pt), P.ord E Q = addOrderOf Q

/-- what the generator of a stage returns when it fails: field.c:39-95, equation.c:17-25, 71-79, ansi.c:154, curve.c:29, order.c:54-99, gens.c:44, 92,
metadata.c:22, 37 -/
def failures : Nat → List Int
  | 0 => [0, Engine.INT_MIN]
  | 1 => [0, Engine.INT_MIN]
  | 2 => [0, Engine.INT_MIN]
  | 3 => [0, -3, Engine.INT_MIN]
  | 4 => [-3]
  | 5 => [-4]
  | 6 => [-5]
  | 8 => [-7]
  | _ => []

/-- the seeds of `--ansi`, ansi.c:39-73: from a random number of 160 bits (or 2^160), or from at least 40 hex digits -/
def AnsiSeed (s : Bits.Bits) : Prop :=
  (∃ x : Nat, 2 ^ 159 ≤ x ∧ x ≤ 2 ^ 160 ∧ Bits.fromI x = some s) ∨
  ∃ l : List Char, 40 ≤ l.length ∧ l.length < 2 ^ 28 ∧ (∀ ch ∈ l, Str.isxdigit ch) ∧ Bits.fromHex l = some s

/-- `d` is how a call of `ansi_gen_equation` for the field and the seed may end, if it ends -/
def AnsiCall (bits : Nat) (f : Fld) (s : Bits.Bits) (d : Derived) : Prop :=
  ∃ junk sd, Ansi.mkSeed s bits = some sd ∧
  match f.1 with
  | .prime p => ∃ (F : FpOps) (draws : Nat → Nat) (fuel : Nat), FpSpec p F ∧ (∀ k, 2 ^ (bits - 1) ≤ draws k ∧ draws k ≤ 2 ^ bits) ∧
    match Ansi.genEquationFp junk F draws fuel sd with
    | none => d = .crash
    | some none => False
    | some (some (_, a, b)) => d = .coeffs (.int a) (.int b.toNat)
  | .binary .. => ∃ a : Nat, 2 ^ (bits - 1) ≤ a ∧ a ≤ 2 ^ bits ∧
    match Ansi.genEquationF2m junk a sd with
    | none => d = .crash
    | some (.error ()) => d = .again
    | some (.ok (a, b)) => d = .coeffs (.ff (digits2 a)) (.ff (digits2 b.toNat))

/-- a call behaves: a generator that is cut off has not written what no generator of the run writes; failures have their return values; random
fields have the requested size and typed ones are accepted by the checks of the input; field elements belong to the field; random numbers are in
their range; the metadata has its names; the hex check goes back to the field when it refuses -/
structure Pick.Ok (c : Config) (p : Pick) : Prop where
  cut : ∀ x, p.cut = some x → (c.metadata = false → x.info = []) ∧ (c.seedAlgo = .none → x.seed = none)
  fail : ∀ s d, p.fail s = some d → d ∈ failures s
  seed : p.seed.WF ∧ p.seed.bitlen ≠ 0
  randomField : FieldAsked c p.randomField.1
  typedField : FieldAsked { c with random := 0 } p.typedField.1
  elt : ∀ f, Spec.Elem (out f.1) (p.elt f)
  ansiSeed : c.seedAlgo = .ansi → AnsiSeed p.seed
  which : ∀ n i, 0 < n → p.which n i < n
  mul : ∀ o i j, 2 ≤ o → 1 ≤ p.mul o i j ∧ p.mul o i j ≤ o - 1
  info : (∀ x ∈ p.info, x.1 ∈ Parson.metaNames) ∧ (p.info.map (·.1)).Nodup
  verdict : ∀ d, p.verdict = some d → d = -6

/-- a field that may come up in a run -/
def ComesField (T : Nat → Pick) (f : Fld) : Prop := ∃ i, f = (T i).randomField ∨ f = (T i).typedField

/-- a first coefficient that may come up -/
def ComesA (c : Config) (T : Nat → Pick) (f : Fld) (e : Elt) : Prop :=
  if c.koblitz = true ∧ c.seedAlgo = .none then e = .int c.koblitzValue.toNat
  else if c.seedAlgo = .none then ∃ i, e = (T i).elt f else ∃ i j b, (T i).ansi f (T j).seed = .coeffs e b

/-- a second coefficient that may come up -/
def ComesB (c : Config) (T : Nat → Pick) (f : Fld) (e : Elt) : Prop :=
  if c.koblitz = true ∧ c.seedAlgo = .none then e = .int 1
  else if c.seedAlgo = .none then ∃ i, e = (T i).elt f else ∃ i j a, (T i).ansi f (T j).seed = .coeffs a e

/-- the calls of a run behave, those of `ansi_gen_equation` for the seeds and fields that may come up, and `ellsea` and `ellff_get_gens` are right for the curves that may come up -/
structure TapeOk (c : Config) (T : Nat → Pick) : Prop where
  picks : ∀ i, (T i).Ok c
  ansi : c.seedAlgo = .ansi → ∀ i j f, ComesField T f → AnsiCall c.bits f (T j).seed ((T i).ansi f (T j).seed)
  sea : ∀ i (E : Crv), ComesField T E.field → ComesA c T E.field E.a → ComesB c T E.field E.b → E.eqn.Δ ≠ 0 →
    Order.SeaSpec ((T i).sea E) (Nat.card E.Pt)
  gens : ∀ i (E : Crv), ComesField T E.field → ComesA c T E.field E.a → ComesB c T E.field E.b → E.eqn.Δ ≠ 0 →
    Group.GensSpec E.Pt ((T i).gens E)

end Ecgen.Whole
