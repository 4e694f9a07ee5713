import Verif.Engine.Model

/-!
# Model of the curve and order stages of the search, with what they leave behind

`curve_gen_any`, `curve_gen_any_twist`, `curve_unroll` (`/repo/src/gen/curve.c`), `twist_rand` (`/repo/src/math/twists.c`) and
the order generators (`/repo/src/gen/order.c`), run by the search engine of `exhaustive.c`.

A value of `κ` is a field with the coefficients of a curve over it. `size` is the field size and `count` PARI's point count.
The other callbacks are arbitrary, but write neither `curve->order` nor the order cached in the curve object, as is the case for
every generator and check of the program. Simplifications: a stage that is cut off by the timer leaves the curve as
it was; `curve->order`, which after a step back points into released PARI stack memory, keeps its value.
-/

namespace Ecgen.Twist
open Ecgen.Engine

variable {κ τ : Type}

/-- the part of the world the two stages work on: the curve, `curve->order` (`none` is `NULL`), the order cached inside the
curve object (slot 1, `obj_insert_shallow`), and everything else -/
structure World (κ τ : Type) where
  cur : κ
  order : Option Int
  cached : Option Int
  env : τ

/-- the remaining callbacks and the options of a run -/
structure Cfg (κ τ : Type) where
  size : κ → Int
  count : κ → Int
  /-- `ellinit` accepts the coefficients -/
  valid : κ → Bool
  /-- `elltwist(E, NULL)` -/
  tw : κ → τ → κ × τ
  /-- generators of SEED, FIELD, A, B -/
  early : Nat → κ → τ → κ × τ × GenRes
  /-- generators of GENERATORS, POINTS, METADATA -/
  late : Nat → World κ τ → τ × GenRes
  /-- the validators of each stage -/
  checks : Nat → List (World κ τ → τ × Int)
  /-- the twist method was selected -/
  twist : Bool
  /-- the order generator asks for the (cached) cardinality, as `order_gen_any`, `order_gen_cofactor` and `order_gen_smooth` do;
  `order_gen_sea` and `order_gen_prime` count with `ellsea` -/
  useCache : Bool
  /-- the order filter -/
  accept : Int → Bool
  /-- the timer cuts the curve or order stage off -/
  cut : Nat → τ → Option τ

/-- `curve_gen_any`, curve.c:8-37, and `curve_gen_any_twist`, curve.c:39-47 with `twist_rand_to`, twists.c:9-31: a new curve
object has no cached order; the twist takes over `2q + 2 - curve->order` if `curve->order` is set, as its order and as cached
order -/
def genCurve (C : Cfg κ τ) (w : World κ τ) : World κ τ × GenRes :=
  if C.valid w.cur then
    if C.twist then
      let t := C.tw w.cur w.env
      let o := w.order.map fun n => C.size w.cur * 2 + 2 - n
      ({ cur := t.1, order := o.or w.order, cached := o, env := t.2 }, .ret 1)
    else ({ w with cached := none }, .ret 1)
  else (w, .ret (-3))

/-- the order generators, order.c:23-103 -/
def genOrder (C : Cfg κ τ) (w : World κ τ) : World κ τ × GenRes :=
  let n := if C.useCache then w.cached.getD (C.count w.cur) else C.count w.cur
  if C.accept n then ({ w with order := some n, cached := some n }, .ret 1)
  else ({ w with cached := if C.useCache then some n else w.cached }, .ret (-4))

/-- the generator of each stage -/
def gen (C : Cfg κ τ) (s : Nat) (w : World κ τ) : World κ τ × GenRes :=
  if s < 4 then
    let r := C.early s w.cur w.env
    ({ w with cur := r.1, env := r.2.1 }, r.2.2)
  else if 5 < s then
    let r := C.late s w
    ({ w with env := r.1 }, r.2)
  else
    match C.cut s w.env with
    | some e => ({ w with env := e }, .timeout)
    | none => if s = 4 then genCurve C w else genOrder C w

/-- the run: the search engine with these callbacks; `curve_unroll` (curve.c:57-63) drops the curve object with its cached
order, the other cleanups do not touch these values -/
def setup (C : Cfg κ τ) : Setup (World κ τ) where
  gen := gen C
  checks s := (C.checks s).map fun c w => let r := c w; ({ w with env := r.1 }, r.2)
  unroll s := if s = 4 then some fun w => { w with cached := none } else if s < 8 then some id else none

end Ecgen.Twist
