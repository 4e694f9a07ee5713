import Verif.Whole.Model
import Verif.Special.Spec
import Verif.Family.Model
import Verif.Cm.Props

/-!
# A whole run of `--anomalous`, `--supersingular` and `--family` (C81, C82, C83)

The model of a run of `Whole`, with the generators of anomalous.c, supersingular.c and family.c, and the tables that `main` chooses for the method
(`Cli.run`). The formulas are those of `Cm` and `Family`.

Simplifications: as in `Whole`. Loops run for at most `Pick.fuel` rounds; one that takes longer counts as a failure that ends the search. Where
PARI raises an error (a division by zero) the model of the run ends. A prime that is none (a mistake of PARI) is not followed further. The
address of a curve object is any number. The coefficients that the CM construction finds for KSS16 and KSS40 are arbitrary here.
-/

namespace Ecgen.Special

open Whole Output Cli
open Seeded (Fp)

/-- the PARI functions: those of `Whole`, `nextprime`, and the roots modulo a prime of the class polynomial of a negative discriminant (`polclass` and
`FpX_roots`) -/
structure Pari extends Whole.Pari where
  nextprime : Nat → Nat
  roots : Nat → Nat → List Nat

/-- `isprime` of a `t_INT` -/
def Pari.isprimeI (P : Pari) (x : Int) : Bool := decide (0 < x) && P.isprime x.toNat

/-- what may happen during a call; `cut` of `Whole.Pick` goes with the parameter of the seed and the static variables of family.c it leaves behind -/
structure Pick extends Whole.Pick where
  left : Option Int × Option Nat × Option Nat
  /-- the random or typed parameter of the family -/
  z : Int
  /-- the `n`-th `genrand(range)` of `anomalous_prime` -/
  bs : Nat → Int
  /-- the `n`-th `genrand(p)` of `anomalous_c` -/
  cs : Nat → Nat → Nat
  /-- the coefficients that `cm_construct_curve_subgroup` finds -/
  cm : Nat × Nat
  fuel : Nat
  /-- the address of the next curve object -/
  address : Nat

/-- the curve with the parameter of its seed, the static variables `b` and `b_curve` of family.c:112-113, and the address of the curve -/
structure St where
  cur : Cur := {}
  z : Option Int := none
  sb : Option Nat := none
  scb : Option Nat := none
  ptr : Nat := 0

/-- the closures stored for a family, family.c:15-67 -/
def fam : Cli.Family → Family.Fam
  | .bn => .BN
  | .bls12 => .BLS12
  | .bls24 => .BLS24
  | .kss16 => .KSS16
  | .kss18 => .KSS18
  | .kss36 => .KSS36
  | .kss40 => .KSS40

/-- what is computed in the prime field at hand -/
def withPrime (x : St) (k : (q : Nat) → q.Prime → Option (St × Int)) : Option (St × Int) :=
  match x.cur.field with
  | some ⟨.prime q, hq⟩ => k q hq
  | _ => none

/-- the field is set -/
def setPrime (x : St) (q : Nat) : Option (St × Int) :=
  if h : q.Prime then some ({ x with cur := { x.cur with field := some (Fp q h) } }, 1) else none

/-- the coefficients are set -/
def setAB (x : St) (q : Nat) (ab : Nat × Nat) : Option (St × Int) :=
  some ({ x with cur := { x.cur with a := some (.intmod ab.1 q), b := some (.intmod ab.2 q) } }, 1)

/-- the row of the table of discriminants; the fifth is not filled in -/
def row (i : Nat) : Option Cm.Disc := (Cm.discTable[i]?).bind id

/-- the loops of `anomalous_gen_field` and `anomalous_prime`, anomalous.c:65-72, 98-102: the symbol of the first row decides about primes for row `i` -/
noncomputable def anomalousDraw (P : Pari) (p : Pick) (r r0 : Cm.Disc) : Option Nat :=
  ((List.range p.fuel).find? fun n => P.isprimeI (Cm.anomalousP r.d (p.bs n)) &&
    decide (jacobiSym r0.alpha (Cm.anomalousP r.d (p.bs n)).toNat ≠ 0)).map fun n => (Cm.anomalousP r.d (p.bs n)).toNat

/-- `anomalous_gen_field`, anomalous.c:91-106 -/
noncomputable def anomalousField (P : Pari) (p : Pick) (x : St) : Option (St × Int) :=
  (row Cm.discIndex).bind fun r => (row 0).bind fun r0 =>
    match anomalousDraw P p r r0 with
    | none => some (x, Engine.INT_MIN)
    | some q => setPrime x q

open Classical in
/-- the division and the products of `anomalous_gen_equation`, anomalous.c:115-120 -/
noncomputable def anomalousAB (q : Nat) (hq : q.Prime) (j : Int) (c : Nat) : Option (Nat × Nat) :=
  haveI : Fact q.Prime := ⟨hq⟩
  if ((1728 - j : Int) : ZMod q) = 0 then none
  else some ((Cm.anomalousCoeffs ((j : Int) : ZMod q) (c : ZMod q)).1.val, (Cm.anomalousCoeffs ((j : Int) : ZMod q) (c : ZMod q)).2.val)

/-- `anomalous_c` and `anomalous_gen_equation`, anomalous.c:77-92, 108-123; a null pointer for `c` is dereferenced -/
noncomputable def anomalousEquation (p : Pick) (x : St) (q : Nat) (hq : q.Prime) : Option (St × Int) :=
  (row Cm.discIndex).bind fun r =>
    if Cm.anomalousNull r.alpha q then none
    else
      match (List.range p.fuel).find? fun n => decide (jacobiSym (p.cs q n) q = -jacobiSym r.alpha q) with
      | none => some (x, Engine.INT_MIN)
      | some n => (anomalousAB q hq r.j (p.cs q n)).bind (setAB x q)

open Classical in
/-- the coefficients for a root of the class polynomial, supersingular.c:29-36 -/
noncomputable def superAB (q : Nat) (hq : q.Prime) (j : Nat) : Option (Nat × Nat) :=
  haveI : Fact q.Prime := ⟨hq⟩
  if (4 * (1728 - (j : ZMod q)) : ZMod q) = 0 then none
  else some ((Cm.superCoeffs (j : ZMod q)).1.val, (Cm.superCoeffs (j : ZMod q)).2.val)

/-- `supersingular_gen_equation`, supersingular.c:7-39; the first root is read even if there is none -/
noncomputable def superEquation (P : Pari) (p : Pick) (x : St) (q : Nat) (hq : q.Prime) : Option (St × Int) :=
  match Cm.superEquation P.nextprime q p.fuel with
  | none => some (x, Engine.INT_MIN)
  | some .back => some (x, -2)
  | some (.curve a b) => setAB x q ((a % (q : Int)).toNat, (b % (q : Int)).toNat)
  | some (.root n) =>
    match P.roots n q with
    | [] => none
    | j :: _ => (superAB q hq j).bind (setAB x q)

/-- `family_gen_field`, family.c:93-110 -/
def familyField (P : Pari) (f : Family.Fam) (x : St) (z : Int) : Option (St × Int) :=
  match Family.genField P.isprimeI f z with
  | none => some (x, -1)
  | some q => setPrime x q.toNat

/-- the static variables and the second coefficient after `family_gen_equation_iter`, family.c:115-141 -/
def nextB (x : St) : Nat :=
  match x.sb with
  | none => 1
  | some b => if x.scb = some x.ptr then b + 1 else 1

/-- `family_gen_equation_iter` -/
def familyIter (x : St) (q : Nat) : Option (St × Int) :=
  setAB { x with sb := some (nextB x), scb := some x.ptr } q (0, nextB x % q)

/-- `family_gen_order`, family.c:155-172 -/
def familyOrder (P : Pari) (f : Family.Fam) (x : St) (z : Int) (E : Crv) : St × Int :=
  match Family.genOrder f z (P.card E) with
  | none => (x, -2)
  | some n => ({ x with cur := { x.cur with order := some n.toNat } }, 1)

/-- a call of a generator: anomalous.c:91-128, supersingular.c:7-46, family.c:75-172; the other ones are those of `Whole` -/
noncomputable def call (P : Pari) (c : Config) (p : Pick) (arg : Option Arg) (x : St) : Gen → Option (St × Int)
  | .familySeedRandom | .familySeedInput =>
    (Bits.fromI p.z).map fun s => ({ x with cur := { x.cur with seed := some s }, z := some p.z }, 1)
  | .familyField => x.z.bind (familyField P (fam c.family) x)
  | .familyEquationIter => withPrime x fun q _ => familyIter x q
  | .familyEquationCm => withPrime x fun q _ => setAB x q (p.cm.1 % q, p.cm.2 % q)
  | .familyOrder => x.z.bind fun z => x.cur.crv.map (familyOrder P (fam c.family) x z)
  | .anomalousField => arg.bind fun _ => anomalousField P p x
  | .anomalousEquation => arg.bind fun _ => withPrime x (anomalousEquation p x)
  | .anomalousOrder => withPrime x fun q _ => x.cur.crv.map fun _ => ({ x with cur := { x.cur with order := some q } }, 1)
  | .supersingularEquation => withPrime x (superEquation P p x)
  | .supersingularOrder =>
    withPrime x fun q _ => x.cur.crv.map fun _ => ({ x with cur := { x.cur with order := some (Cm.superOrder q) } }, 1)
  | g => (Whole.call P.toPari c.bits p.toPick arg x.cur g).map fun r => ({ x with cur := r.1 }, r.2)

/-- the world of a run -/
structure W where
  st : St
  tape : Nat → Pick
  pos : Nat
  ub : Bool

def W.pick (w : W) : Pick := w.tape w.pos
def W.next (w : W) : W := { w with pos := w.pos + 1 }

/-- undefined behaviour ends the model of the run -/
def done (w : W) : Option (St × Int) → W × Engine.GenRes
  | some (x, d) => ({ w.next with st := x }, .ret d)
  | none => ({ w.next with ub := true }, .ret Engine.INT_MIN)

/-- the curve and the rest left behind by a generator that was cut off -/
def leftBehind (w : W) (x : Cur) : St := { cur := x, z := w.pick.left.1, sb := w.pick.left.2.1, scb := w.pick.left.2.2, ptr := w.st.ptr }

/-- the generator of a stage, called under the timer, exhaustive.c:366-375 -/
noncomputable def gen (P : Pari) (c : Config) (S : Setup) (s : Nat) (w : W) : W × Engine.GenRes :=
  match w.pick.cut with
  | some x => ({ w.next with st := leftBehind w x }, .timeout)
  | none =>
    match w.pick.fail s with
    | some d => (w.next, .ret d)
    | none => done w (((stageOf S.gens s).bind id).bind (call P c w.pick ((stageOf S.genArgs s).bind id) w.st))

open Classical in
/-- the checks but for the hex check: `curve_check_nonzero`, curve.c:46-52; the others do not belong to these methods -/
noncomputable def verdict (x : St) : Check → Option Int
  | .curveNonzero => x.cur.crv.map fun E => if E.eqn.Δ = 0 then -3 else 1
  | _ => none

/-- a check; the hex check accepts or refuses at will -/
noncomputable def check (w : W) : Check → W × Int
  | .hexParam => (w.next, w.pick.verdict.getD 1)
  | k =>
    match verdict w.st k with
    | some d => (w, d)
    | none => ({ w with ub := true }, Engine.INT_MIN)

/-- the tables that `main` chooses; the functions for the order of `--order` are not used -/
def tables (c : Config) : Setup :=
  match Cli.run id (fun _ => false) c with
  | .search s => s
  | .invalid s _ _ => s

/-- the engine's tables for a configuration -/
noncomputable def setup (P : Pari) (c : Config) : Engine.Setup W where
  gen := gen P c (tables c)
  checks s := ((stageOf (tables c).checks s).getD []).map fun k w => check w k
  unroll s := some fun w => { w with st := { w.st with cur := unroll s w.st.cur } }

/-- the state after `curve_new`; the static variables stay -/
def fresh (w : W) : W := { w with st := { cur := {}, z := none, sb := w.st.sb, scb := w.st.scb, ptr := w.pick.address } }

/-- one curve: `curve_new` and `exhaustive_gen`, exhaustive.c:471-473 -/
noncomputable def one (P : Pari) (c : Config) (fuel : Nat) (w : W) : Option Output.Curve × W :=
  match Engine.gen (setup P c) 0 9 fuel (fresh w) with
  | some (r, st) => (if r = 0 then none else outCurve st.w.st.cur, st.w)
  | none => (none, w)

/-- `exhaustive_generate`, with the tables of `cm_do` or `exhaustive_do` -/
noncomputable def produce (P : Pari) (c : Config) (fuel : Nat) (w : W) : List (Ecgen.Json.Tok Output.Curve) × Int :=
  Ecgen.Json.generate (one P c fuel) (toSize c.count) w

/-- the bytes printed -/
noncomputable def bytes (malloc : Nat → List Parson.Byte) (P : Pari) (c : Config) (fuel : Nat) (w : W) : List Parson.Byte :=
  Parson.outputText (Parson.curveText malloc c.hexDigits) (produce P c fuel w).1

/-! ## What PARI and the user may do -/

/-- what the generators of a stage return when they fail: field.c:39-95, family.c:143-153, curve.c:29, metadata.c:22, 37 -/
def failures : Nat → List Int
  | 1 => [0, Engine.INT_MIN]
  | 3 => [-3]
  | 4 => [-3]
  | 8 => [-7]
  | _ => []

/-- a call behaves: fields are as asked for, random numbers are in their range; the rest as in `Whole` -/
structure Pick.Ok (c : Config) (p : Pick) : Prop where
  cut : ∀ x, p.cut = some x → (c.metadata = false → x.info = []) ∧ (c.method ≠ METHOD_FAMILY → x.seed = none)
  fail : ∀ s d, p.fail s = some d → d ∈ failures s
  randomField : c.method = METHOD_SUPERSINGULAR → FieldAsked c p.randomField.1
  typedField : c.method = METHOD_SUPERSINGULAR → FieldAsked { c with random := 0 } p.typedField.1
  bs : c.method = METHOD_ANOMALOUS → ∃ lo hi, Cm.Bounds 163 c.bits lo hi ∧ ∀ n, lo ≤ p.bs n ∧ p.bs n ≤ hi
  which : ∀ n i, 0 < n → p.which n i < n
  mul : ∀ o i j, 2 ≤ o → 1 ≤ p.mul o i j ∧ p.mul o i j ≤ o - 1
  info : (∀ x ∈ p.info, x.1 ∈ Parson.metaNames) ∧ (p.info.map (·.1)).Nodup
  verdict : ∀ d, p.verdict = some d → d = -6

/-- the primes that may come up in a run -/
def Drawn (P : Pari) (c : Config) (T : Nat → Pick) (q : Nat) : Prop :=
  (c.method = METHOD_ANOMALOUS → ∃ i n, (q : Int) = Cm.anomalousP 163 ((T i).bs n)) ∧
  (c.method = METHOD_SUPERSINGULAR → ∃ i, (T i).randomField.1 = .prime q ∨ (T i).typedField.1 = .prime q) ∧
  (c.method = METHOD_FAMILY → ∃ i, Family.genField P.isprimeI (fam c.family) (T i).z = some (q : Int))

/-- the numbers of points that may come up -/
def Sized (P : Pari) (c : Config) (T : Nat → Pick) (q n : Nat) : Prop :=
  (c.method = METHOD_ANOMALOUS → n = q) ∧ (c.method = METHOD_SUPERSINGULAR → n = q + 1) ∧
  (c.method = METHOD_FAMILY → ∃ i, Family.genField P.isprimeI (fam c.family) (T i).z = some (q : Int) ∧
    ∃ r : Nat, Family.rz (fam c.family) (Family.nz (fam c.family) (T i).z) = r ∧ r ∣ n)

/-- the curve object with the coefficients `a`, `b` -/
abbrev obj (q : Nat) (hq : q.Prime) (a b : Nat) : Crv := ⟨Fp q hq, .intmod a q, .intmod b q⟩

/-- the calls of a run behave, and `ellff_get_gens` is right for the curves that may come up -/
structure TapeOk (P : Pari) (c : Config) (T : Nat → Pick) : Prop where
  picks : ∀ i, (T i).Ok c
  gens : ∀ i q hq a b, Drawn P c T q → (obj q hq a b).eqn.Δ ≠ 0 → Sized P c T q (Nat.card (obj q hq a b).Pt) →
    Group.GensSpec (obj q hq a b).Pt ((T i).gens (obj q hq a b))

/-- a theorem on complex multiplication (Gross, Stark), for the primes that may come up: the curve `y² = x³ - 34790720 x + 78984748304`, whose
endomorphisms are the integers of `ℚ(√-163)`, has `p + 2` points modulo a prime with `4p = 1 + 163 v²` -/
def Gross (P : Pari) (c : Config) (T : Nat → Pick) : Prop :=
  ∀ (q : Nat) (hq : q.Prime), Drawn P c T q →
    haveI : Fact q.Prime := ⟨hq⟩
    Count.card (-34790720 : ZMod q) 78984748304 = q + 2

/-- a theorem of Deuring, for the primes and discriminants that may come up: a curve is supersingular if its invariant is a root of the class
polynomial of a discriminant in whose quadratic field the prime is inert -/
def Deuring (P : Pari) (c : Config) (T : Nat → Pick) : Prop :=
  ∀ (i q n : Nat) (hq : q.Prime), Drawn P c T q → Cm.superEquation P.nextprime q (T i).fuel = some (.root n) →
    haveI : Fact q.Prime := ⟨hq⟩
    ∀ j ∈ P.roots n q, ∀ a b : ZMod q, Cm.HasJ a b (j : ZMod q) → Count.card a b = q + 1

end Ecgen.Special
