import Verif.Whole.Model
import Verif.Seeded.Spec
import Verif.Brainpool.Props
import Verif.Nums.Model

/-!
# A whole run of `--brainpool`, `--brainpool-rfc` and `--nums` (C77, C78)

The model of a run of `Whole`, with the generators and checks of brainpool.c, brainpool_rfc.c and nums.c. The derivations from seeds are those of
`Brainpool` and `Nums`.

Simplifications: as in `Whole`. Loops run for at most `Pick.fuel` rounds; one that takes longer counts as a failure that ends the search. A prime
that is none (a mistake of PARI) is not followed further. The address of a curve object is any number.
-/

namespace Ecgen.Seeded

open Whole Output Cli

/-- the PARI functions: those of `Whole`, `nextprime`, the arithmetic modulo a prime, `znorder`, and `ellordinate`: the second coordinates for a
first one -/
structure Pari extends Whole.Pari where
  nextprime : Int → Int
  fp : Nat → FpOps
  zn : Nat → Nat → Nat
  ordinate : (E : Crv) → Nat → List (Carrier E.field)

/-- `isprime` of a `t_INT` -/
def Pari.isprimeI (P : Pari) (x : Int) : Bool := decide (0 < x) && P.isprime x.toNat

/-- what may happen during a call; `cut` of `Whole.Pick` goes with the flag `update_seed` and the static variables of nums.c it leaves behind -/
structure Pick extends Whole.Pick where
  left : Bool × Option Nat × Option Nat
  /-- `random_bits(1)` -/
  bit : Bool
  /-- what fresh memory holds -/
  junk : Bits.Byte
  fuel : Nat
  /-- the address of the next curve object -/
  address : Nat

/-- the curve with the flag `update_seed` of its seed, the static variables `b` and `curve_b` of nums.c:30-31, and the address of the curve -/
structure St where
  cur : Cur := {}
  upd : Bool := false
  sb : Option Nat := none
  scb : Option Nat := none
  ptr : Nat := 0

/-- `ellordinate` in a loop that counts the first coordinate up from `x0`; after a full round nothing new can come -/
noncomputable def firstX (P : Pari) (E : Crv) (x0 : Nat) : Option Nat :=
  ((List.range (fieldSize E.field.1)).map (x0 + ·)).find? fun x => !(P.ordinate E x).isEmpty

open Classical in
/-- a pair of coordinates as a point; PARI does not check whether it is one, and neither is infinity -/
noncomputable def mkPoint (E : Crv) (x : Nat) (y : Carrier E.field) : E.Pt :=
  if h : E.eqn.Nonsingular (elem E.field x) y then .some _ _ h else 0

/-- the only generator, with its order and cofactor, brainpool.c:240-249 and nums.c:96-105 -/
noncomputable def single (P : Pari) (x : St) (E : Crv) (n : Nat) (G : E.Pt) : St :=
  { x with cur := { x.cur with gens := some ⟨E, [⟨⟨G, P.ord E G, n / P.ord E G⟩, []⟩]⟩ } }

/-- the field and the seed after the field stage of Brainpool -/
def brainpoolField (x : St) : Option (Option (Int × Brainpool.St)) → Option (St × Int)
  | none => none
  | some none => some (x, Engine.INT_MIN)
  | some (some (q, s)) =>
    if h : q.toNat.Prime then some ({ x with cur := { x.cur with seed := some s.seed, field := some (Fp q.toNat h) }, upd := s.upd }, 1) else none

/-- the coefficients and the seed after the equation stage of Brainpool -/
def brainpoolEquation (q : Nat) (x : St) : Option (Option ((Int × Int) × Brainpool.St)) → Option (St × Int)
  | none => none
  | some none => some (x, Engine.INT_MIN)
  | some (some ((a, b), s)) =>
    some ({ x with cur := { x.cur with seed := some s.seed, a := some (.intmod a.toNat q), b := some (.intmod b.toNat q) }, upd := s.upd }, 1)

/-- `brainpool_gen_gens`, brainpool.c:212-254 -/
noncomputable def brainpoolGens (P : Pari) (bits : Nat) (p : Pick) (x : St) (E : Crv) (n : Nat) (s : Bits.Bits) : Option (St × Int) :=
  (Brainpool.updateSeed p.junk s).bind fun s =>
  (Brainpool.hashI p.junk s (Brainpool.wOf bits) (Brainpool.vOf bits)).bind fun k =>
    let x := { x with cur := { x.cur with seed := some s } }
    match firstX P E 0 with
    | none => some (x, Engine.INT_MIN)
    | some i =>
      match P.ordinate E i with
      | [y] => some (single P x E n (k.toNat • mkPoint E i y), 1)
      | [y, y'] => some (single P x E n (k.toNat • mkPoint E i (if p.bit then y else y')), 1)
      | _ => some (x, Engine.INT_MIN)

/-- `nums_gen_b`, nums.c:33-63 -/
def numsB (q : Nat) (x : St) : St :=
  let start : St := { x with sb := some 1, scb := some x.ptr, cur := { x.cur with b := some (.intmod (1 % q) q) } }
  match x.sb with
  | none => start
  | some b =>
    if x.scb = some x.ptr then
      let bn := if b = 1 then b + 2 else b + 1
      { x with sb := some bn, cur := { x.cur with b := some (.intmod (bn % q) q) } }
    else start

/-- `nums_gen_order`, nums.c:65-79 -/
def numsOrder (P : Pari) (p : Pick) (x : St) (E : Crv) (q : Nat) : St × Int :=
  let order := p.sea E
  let frobenius : Int := ((q : Int) + 1) - order
  let twist : Int := order + frobenius * 2
  if order = 0 ∨ !P.isprime order ∨ !P.isprimeI twist then (x, -2)
  else ({ x with cur := { x.cur with order := some order } }, 1)

/-- `nums_gen_gens`, nums.c:81-109; the second ordinate is read even if there is only one -/
noncomputable def numsGens (P : Pari) (x : St) (E : Crv) (n : Nat) : Option (St × Int) :=
  match firstX P E 1 with
  | none => some (x, Engine.INT_MIN)
  | some i =>
    match P.ordinate E i with
    | y :: y' :: _ => some (single P x E n (mkPoint E i (if num E.field y < num E.field y' then y else y')), 1)
    | _ => none

/-- the prime of the field -/
def primeOf (x : St) : Option Nat :=
  match x.cur.field with
  | some ⟨.prime q, _⟩ => some q
  | _ => none

/-- a call of a generator: brainpool.c:66-254, brainpool_rfc.c:19-98, nums.c:11-109; the other ones are those of `Whole` -/
noncomputable def call (P : Pari) (bits : Nat) (p : Pick) (arg : Option Arg) (x : St) : Gen → Option (St × Int)
  | .brainpoolSeedArgument | .brainpoolSeedRandom | .brainpoolSeedInput | .brainpoolRfcSeedArgument | .brainpoolRfcSeedRandom
  | .brainpoolRfcSeedInput => some ({ x with cur := { x.cur with seed := some p.seed }, upd := false }, 1)
  | .brainpoolField => x.cur.seed.bind fun s =>
    brainpoolField x (Brainpool.genField p.junk P.nextprime P.isprimeI bits p.fuel ⟨s, x.upd⟩)
  | .brainpoolEquation => x.cur.seed.bind fun s => (primeOf x).bind fun q =>
    brainpoolEquation q x (Brainpool.genEquation p.junk q (P.fp q) bits p.fuel ⟨s, x.upd⟩)
  | .brainpoolRfcEquation => x.cur.seed.bind fun s => (primeOf x).bind fun q =>
    brainpoolEquation q x (Brainpool.genEquationRfc p.junk q (P.fp q) bits p.fuel ⟨s, x.upd⟩)
  | .brainpoolGens => x.cur.seed.bind fun s => x.cur.crv.bind fun E => x.cur.order.bind fun n => brainpoolGens P bits p x E n s
  | .numsField =>
    match Nums.genField P.isprimeI bits p.fuel with
    | none => some (x, Engine.INT_MIN)
    | some q =>
      if h : q.toNat.Prime then some ({ x with cur := { x.cur with field := some (Fp q.toNat h) } }, 1) else none
  | .numsA => (primeOf x).map fun q => ({ x with cur := { x.cur with a := some (.intmod ((-3 : Int) % ((q : Nat) : Int)).toNat q) } }, 1)
  | .numsB => (primeOf x).map fun q => (numsB q x, 1)
  | .numsOrder => (primeOf x).bind fun q => x.cur.crv.map fun E => numsOrder P p x E q
  | .numsGens => x.cur.crv.bind fun E => x.cur.order.bind fun n => numsGens P x E n
  | g => (Whole.call P.toPari bits p.toPick arg x.cur g).map fun r => ({ x with cur := r.1 }, r.2)

/-- the world of a run -/
structure W where
  st : St
  tape : Nat → Pick
  pos : Nat
  ub : Bool

def W.pick (w : W) : Pick := w.tape w.pos
def W.next (w : W) : W := { w with pos := w.pos + 1 }

/-- undefined behaviour ends the model of the run -/
def done (w : W) : Option (St × Int) → W × Engine.GenRes
  | some (x, d) => ({ w.next with st := x }, .ret d)
  | none => ({ w.next with ub := true }, .ret Engine.INT_MIN)

/-- the curve and the rest left behind by a generator that was cut off -/
def leftBehind (w : W) (x : Cur) : St := { cur := x, upd := w.pick.left.1, sb := w.pick.left.2.1, scb := w.pick.left.2.2, ptr := w.st.ptr }

/-- the generator of a stage, called under the timer, exhaustive.c:366-375 -/
noncomputable def gen (P : Pari) (bits : Nat) (S : Setup) (s : Nat) (w : W) : W × Engine.GenRes :=
  match w.pick.cut with
  | some x => ({ w.next with st := leftBehind w x }, .timeout)
  | none =>
    match w.pick.fail s with
    | some d => (w.next, .ret d)
    | none => done w (((stageOf S.gens s).bind id).bind (call P bits w.pick ((stageOf S.genArgs s).bind id) w.st))

open Classical in
/-- the checks but for the hex check: curve.c:46-52, brainpool.c:256-274, gens.c:97-105; `none` is undefined behaviour -/
noncomputable def verdict (P : Pari) (x : St) : Check → Option Int
  | .curveNonzero => x.cur.crv.map fun E => if E.eqn.Δ = 0 then -3 else 1
  | .brainpoolOrder =>
    match primeOf x, x.cur.order with
    | some q, some n => some (if Order.checkOrder q n then 1 else -4)
    | _, _ => none
  | .gensAnomalous =>
    match primeOf x, x.cur.gens with
    | some q, some ⟨_, l⟩ => some (if Order.checkAnomalous false q (l.map fun s => s.gen.order) then 1 else -5)
    | _, _ => none
  | .brainpoolGens =>
    match primeOf x, x.cur.gens with
    | some q, some ⟨_, s :: _⟩ => some (if Order.checkGens P.zn q s.gen.order then 1 else -5)
    | _, _ => none
  | .hexParam => none

/-- a check; the hex check accepts or refuses at will -/
noncomputable def check (P : Pari) (w : W) : Check → W × Int
  | .hexParam => (w.next, w.pick.verdict.getD 1)
  | k =>
    match verdict P w.st k with
    | some d => (w, d)
    | none => ({ w with ub := true }, Engine.INT_MIN)

/-- the engine's tables for a configuration -/
noncomputable def setup (P : Pari) (c : Config) : Engine.Setup W where
  gen := gen P c.bits (exhaustiveSetup c)
  checks s := ((stageOf (exhaustiveSetup c).checks s).getD []).map fun k w => check P w k
  unroll s := some fun w => { w with st := { w.st with cur := unroll s w.st.cur } }

/-- one curve: `curve_new` and `exhaustive_gen`, exhaustive.c:471-473; the static variables stay -/
noncomputable def one (P : Pari) (c : Config) (fuel : Nat) (w : W) : Option Output.Curve × W :=
  match Engine.gen (setup P c) 0 9 fuel { w with st := { cur := {}, upd := false, sb := w.st.sb, scb := w.st.scb, ptr := w.pick.address } } with
  | some (r, st) => (if r = 0 then none else outCurve st.w.st.cur, st.w)
  | none => (none, w)

/-- `exhaustive_generate` -/
noncomputable def produce (P : Pari) (c : Config) (fuel : Nat) (w : W) : List (Ecgen.Json.Tok Output.Curve) × Int :=
  Ecgen.Json.generate (one P c fuel) (toSize c.count) w

/-- the bytes printed -/
noncomputable def bytes (malloc : Nat → List Parson.Byte) (P : Pari) (c : Config) (fuel : Nat) (w : W) : List Parson.Byte :=
  Parson.outputText (Parson.curveText malloc c.hexDigits) (produce P c fuel w).1

/-! ## What PARI and the user may do -/

/-- PARI computes what it says; `nextprime` may stop at a composite number -/
structure Pari.Ok (P : Pari) : Prop extends P.toPari.Ok where
  nextprime : NextPrimeWeak P.nextprime
  fp : ∀ p : Nat, p.Prime → FpSpec p (P.fp p)
  zn : Order.ZnSpec P.zn
  ordinate : ∀ (E : Crv) (x : Nat), E.eqn.Δ ≠ 0 → (P.ordinate E x).Nodup ∧ ∀ y, y ∈ P.ordinate E x ↔ E.eqn.Nonsingular (elem E.field x) y

/-- what the generators of a stage return when they fail: brainpool.c:86-89, curve.c:29, metadata.c:22, 37 -/
def failures : Nat → List Int
  | 0 => [0, Engine.INT_MIN]
  | 4 => [-3]
  | 8 => [-7]
  | _ => []

/-- a call behaves: seeds have 160 bits; `ellsea` is right; the rest as in `Whole` -/
structure Pick.Ok (c : Config) (p : Pick) : Prop where
  cut : ∀ x, p.cut = some x → (c.metadata = false → x.info = []) ∧ (c.seedAlgo = .nums → x.seed = none)
  fail : ∀ s d, p.fail s = some d → d ∈ failures s
  seed : ∃ z, Brainpool.Seed160 p.seed z
  sea : ∀ E : Crv, E.eqn.Δ ≠ 0 → Order.SeaSpec (p.sea E) (Nat.card E.Pt)
  which : ∀ n i, 0 < n → p.which n i < n
  mul : ∀ o i j, 2 ≤ o → 1 ≤ p.mul o i j ∧ p.mul o i j ≤ o - 1
  info : (∀ x ∈ p.info, x.1 ∈ Parson.metaNames) ∧ (p.info.map (·.1)).Nodup
  verdict : ∀ d, p.verdict = some d → d = -6

end Ecgen.Seeded
