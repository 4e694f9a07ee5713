import Verif.Engine.Model
import Verif.Order.Model

/-!
# Model of `/repo/src/exhaustive/nums.c`

The NUMS search as a setup of the staged engine. PARI is a parameter:

* `isprime`;
* `sea p b`: the result of `ellsea(E, 1)` for `y² = x³ - 3x + b` over `F_p` (contract `SeaSpec`);
* `ordG p b`: the order of the base point chosen by `nums_gen_gens` (the two loops over `x` that choose the point are not
  modelled, only that the point has some order, `ellorder`);
* `zn`: `znorder`.

Pointers are natural numbers; `NULL` is represented by `none`. The generators of the stages SEED, POINTS and METADATA are
`gen_skip`. The cleanup functions do not touch anything modelled here. No timeout fires.
-/

namespace Ecgen.Nums

open Ecgen.Engine

/-- `nums_gen_field`, nums.c:11-22: `c` is the current subtrahend; `none` when the budget is exhausted -/
def fieldLoop (isprime : Int → Bool) (bits : Nat) : Nat → Nat → Option Int
  | 0, _ => none
  | fuel + 1, c =>
    let p : Int := 2 ^ bits - (c : Int)
    if isprime p then some p else fieldLoop isprime bits fuel (c + 4)

/-- `nums_gen_field` -/
def genField (isprime : Int → Bool) (bits fuel : Nat) : Option Int := fieldLoop isprime bits fuel 1

/-- the curve object and the two static variables of nums.c:30-31 -/
structure W where
  /-- static `b`; `none` is `NULL` -/
  sb : Option Nat
  /-- static `curve_b` -/
  scb : Option Nat
  /-- address of the curve under construction -/
  ptr : Nat
  field : Nat
  /-- `lift(curve->a)` -/
  a : Nat
  /-- `lift(curve->b)` -/
  b : Nat
  order : Nat
  /-- order of the only generator -/
  gorder : Nat
  deriving DecidableEq, Repr

/-- the PARI functions -/
structure Pari where
  isprime : Nat → Bool
  sea : Nat → Nat → Nat
  ordG : Nat → Nat → Nat
  zn : Nat → Nat → Nat

/-- nums.c:24-27 -/
def genA (w : W) : W := { w with a := ((-3 : Int) % (w.field : Int)).toNat }

/-- `nums_gen_b`, nums.c:32-63 -/
def genB (w : W) : W :=
  match w.sb with
  | none => { w with sb := some 1, b := 1 % w.field, scb := some w.ptr }
  | some b =>
    if w.scb = some w.ptr then
      let bn := if b = 1 then b + 2 else b + 1
      { w with sb := some bn, b := bn % w.field }
    else { w with sb := some 1, b := 1 % w.field, scb := some w.ptr }

/-- whether the short Weierstrass curve with coefficients `a`, `b` over `F_p` has discriminant 0 -/
def singular (p a b : Nat) : Bool := ((-16 : Int) * (4 * (a : Int) ^ 3 + 27 * (b : Int) ^ 2)) % (p : Int) == 0

/-- `curve_gen_any` (curve.c:8-35) followed by `curve_check_nonzero` (curve.c:47-53): both test the discriminant and
return -3 -/
def genCurve (w : W) : W × GenRes := if singular w.field w.a w.b then (w, .ret (-3)) else (w, .ret 1)

/-- `nums_gen_order`, nums.c:65-79 -/
def genOrder (P : Pari) (w : W) : W × GenRes :=
  let order := P.sea w.field w.b
  let frobenius : Int := ((w.field : Int) + 1) - order
  let twist : Int := order + frobenius * 2
  if order = 0 ∨ !P.isprime order ∨ !P.isprime twist.toNat then (w, .ret (-2))
  else ({ w with order := order }, .ret 1)

/-- `nums_gen_gens`, nums.c:81-109 -/
def genGens (P : Pari) (w : W) : W := { w with gorder := P.ordG w.field w.b }

/-- `gens_check_anomalous`, gens.c:97-105 -/
def checkAnomalous (w : W) : W × Int := (w, if Order.checkAnomalous false w.field [w.gorder] then 1 else -5)

/-- `brainpool_check_gens`, brainpool.c:256-266 -/
def checkGens (P : Pari) (w : W) : W × Int := (w, if Order.checkGens P.zn w.field w.gorder then 1 else -5)

/-- exhaustive.c:128-136, 282-288; `p` is the value computed by `nums_gen_field` (the same at each call) -/
def setup (P : Pari) (p : Nat) : Setup W where
  gen s w :=
    match s with
    | 1 => ({ w with field := p }, .ret 1)
    | 2 => (genA w, .ret 1)
    | 3 => (genB w, .ret 1)
    | 4 => genCurve w
    | 5 => genOrder P w
    | 6 => (genGens P w, .ret 1)
    | _ => (w, .ret 1)
  checks s := if s = 6 then [checkAnomalous, checkGens P] else []
  unroll _ := none

/-- the world at the start of a curve: a fresh curve object at address `ptr`, with the static variables left over -/
def fresh (sb scb : Option Nat) (ptr : Nat) : W :=
  { sb := sb, scb := scb, ptr := ptr, field := 0, a := 0, b := 0, order := 0, gorder := 0 }

end Ecgen.Nums
