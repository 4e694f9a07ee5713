import Verif.Whole.Model
import Verif.Twisted.Spec

/-!
# A whole run of `--twist` (C86)

The default method with `curve_gen_any_twist` for its curve stage (exhaustive.c:223). All other stages are those of `Whole`, but for the cardinality
that `twist_rand_to` stores in the new curve object: `ellff_get_card` finds it there and counts no more.

Simplifications, besides those of `Whole`: `ellff_get_gens`, which looks at the stored cardinality as well, gives what the run prescribes for the
curve (`Pick.gens`); a stored order that is negative (the order of a curve over a larger field was left over) counts as undefined if an order generator
reads it, which `order_gen_prime` does not, and as 0 if the next twist does; a generator that is cut off leaves the stored cardinality alone, which is
not read again before the next curve object.
-/

namespace Ecgen.Twisted

open Whole Output Cli

/-- the world of a run: that of `Whole`, the answers of `elltwist(E, NULL)` with `ellinit`, and the cardinality stored in a curve object -/
structure W where
  base : Whole.W
  tw : Nat → Crv → Crv
  cache : Option (Crv × Int)

/-- `ellff_get_card`: the stored cardinality, if there is one, or the number of points -/
noncomputable def cached (P : Pari) (cache : Option (Crv × Int)) : Pari :=
  open Classical in
  { P with card := fun E => match cache with
      | some (E', n) => if E = E' then n.toNat else P.card E
      | none => P.card E }

/-- `twist_rand`, twists.c:10-37: the curve, its coefficients, no seed, no generators -/
def replaced (x : Cur) (E : Crv) (order : Option Nat) : Cur :=
  { x with seed := none, crv := some E, a := some E.a, b := some E.b, order := order, gens := none }

/-- `curve_gen_any_twist`, curve.c:36-44: the curve afterwards, the cardinality stored in its object, and the return value. `ellinit` gives an empty
vector for a singular curve, curve.c:28-30. The order that the last candidate left behind is taken for the order of the curve that is twisted,
twists.c:17-21 and 25-29. -/
noncomputable def curveStage (tw : Crv → Crv) (x : Cur) (cache : Option (Crv × Int)) : Option ((Cur × Option (Crv × Int)) × Int) :=
  open Classical in
  match x.field, x.a, x.b with
  | some f, some a, some b =>
    if (Crv.mk f a b).eqn.Δ = 0 then some ((x, cache), -3)
    else
      let E := tw ⟨f, a, b⟩
      match x.order with
      | none => some ((replaced x E none, none), 1)
      | some n =>
        let m : Int := 2 * fieldSize f.1 + 2 - n
        some ((replaced x E (some m.toNat), some (E, m)), 1)
  | _, _, _ => none

/-- the curve stage from the tables -/
noncomputable def curveAct (S : Setup) (tw : Crv → Crv) (x : Cur) (cache : Option (Crv × Int)) : Option ((Cur × Option (Crv × Int)) × Int) :=
  if (stageOf S.gens 4).bind id = some .curveAnyTwist then curveStage tw x cache else none

/-- undefined behaviour ends the model of the run -/
def done (w : W) : Option ((Cur × Option (Crv × Int)) × Int) → W × Engine.GenRes
  | some ((x, k), d) => ({ w with base := { w.base.next with cur := x }, cache := k }, .ret d)
  | none => ({ w with base := { w.base.next with ub := true } }, .ret Engine.INT_MIN)

/-- a negative cardinality that would be read -/
def unreadable (S : Setup) : Option (Crv × Int) → Bool
  | some (_, m) => decide (m < 0) && decide ((stageOf S.gens 5).bind id ≠ some .orderPrime)
  | none => false

/-- the generator of a stage, called under the timer, exhaustive.c:366-375; the order stage asks for the cardinality -/
noncomputable def gen (P : Pari) (bits : Nat) (S : Setup) (s : Nat) (w : W) : W × Engine.GenRes :=
  if s = 4 then
    match w.base.pick.cut with
    | some x => ({ w with base := { w.base.next with cur := x } }, .timeout)
    | none =>
      match w.base.pick.fail 4 with
      | some d => ({ w with base := w.base.next }, .ret d)
      | none => done w (curveAct S (w.tw w.base.pos) w.base.cur w.cache)
  else
    if s = 5 ∧ w.base.pick.cut = none ∧ w.base.pick.fail 5 = none ∧ unreadable S w.cache then done w none else
    let r := Whole.gen (if s = 5 then cached P w.cache else P) bits S s w.base
    ({ w with base := r.1 }, r.2)

/-- the checks -/
noncomputable def check (k : Check) (w : W) : W × Int :=
  let r := Whole.check w.base k
  ({ w with base := r.1 }, r.2)

/-- `curve_unroll` frees the curve object, and what is stored in it -/
def unroll (s : Nat) (w : W) : W :=
  { w with base := { w.base with cur := Whole.unroll s w.base.cur }, cache := if s = 4 then none else w.cache }

/-- the engine's tables for a configuration -/
noncomputable def setup (P : Pari) (c : Config) : Engine.Setup W where
  gen := gen P c.bits (exhaustiveSetup c)
  checks s := ((stageOf (exhaustiveSetup c).checks s).getD []).map check
  unroll s := some (unroll s)

/-- a new curve, exhaustive.c:471 -/
def fresh (w : W) : W := { w with base := { w.base with cur := {} }, cache := none }

/-- one curve, as in `Whole` -/
noncomputable def one (P : Pari) (c : Config) (fuel : Nat) (w : W) : Option Output.Curve × W :=
  match Engine.gen (setup P c) 0 9 fuel (fresh w) with
  | some (r, st) => (if r = 0 then none else outCurve st.w.base.cur, st.w)
  | none => (none, w)

/-- `exhaustive_generate` -/
noncomputable def produce (P : Pari) (c : Config) (fuel : Nat) (w : W) : List (Ecgen.Json.Tok Output.Curve) × Int :=
  Ecgen.Json.generate (one P c fuel) (toSize c.count) w

/-- the bytes printed -/
noncomputable def bytes (malloc : Nat → List Parson.Byte) (P : Pari) (c : Config) (fuel : Nat) (w : W) : List Parson.Byte :=
  Parson.outputText (Parson.curveText malloc c.hexDigits) (produce P c fuel w).1

/-! ## What PARI and the user may do -/

/-- the configuration without `--twist` -/
def plain (c : Config) : Config := { c with method := 0 }

/-- a curve that may come up before it is twisted: its field and its coefficients were drawn or typed -/
def Drawn (T : Nat → Pick) (E : Crv) : Prop :=
  ComesField T E.field ∧ (∃ i, E.a = (T i).elt E.field) ∧ ∃ i, E.b = (T i).elt E.field

/-- what `elltwist` promises of a curve that is not singular -/
def TwistSpec (E E' : Crv) : Prop :=
  ∃ a b, E' = ⟨E.field, a, b⟩ ∧ Spec.Elem (out E.field.1) a ∧ Spec.Elem (out E.field.1) b ∧
    IsTwist E.field (elem E.field (Spec.eltV E.a)) (elem E.field (Spec.eltV E.b)) (elem E.field (Spec.eltV a)) (elem E.field (Spec.eltV b))

/-- the calls of a run behave as without `--twist`, and `elltwist`, `ellsea` and `ellff_get_gens` are right for the curves that may come up -/
structure TapeOk (c : Config) (T : Nat → Pick) (tw : Nat → Crv → Crv) : Prop where
  picks : ∀ i, (T i).Ok (plain c)
  twist : ∀ j E, Drawn T E → E.eqn.Δ ≠ 0 → TwistSpec E (tw j E)
  sea : ∀ i j E, Drawn T E → E.eqn.Δ ≠ 0 → Order.SeaSpec ((T i).sea (tw j E)) (Nat.card (tw j E).Pt)
  gens : ∀ i j E, Drawn T E → E.eqn.Δ ≠ 0 → Group.GensSpec (tw j E).Pt ((T i).gens (tw j E))

end Ecgen.Twisted
