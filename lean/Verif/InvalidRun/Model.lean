import Verif.InvalidRun.Spec
import Verif.Whole.Model
import Verif.Invalid.Model

/-!
# A whole run of the invalid curve method with one thread (C91, C92)

`invalid_do`, `invalid_original_curve` and `invalid_curves_single` (`/repo/src/invalid/invalid.c`, 71-233, 332-396): the tables of
`Cli.originalSetup` and `Cli.invalidSetup`, run by the engine of `exhaustive_gen_retry` on the curves of `Whole`, the selection of the primes
(`Invalid.invalidPrimes`) and the text printed.

Simplifications: as in `Whole`. A generator that is cut off by the timer has written an arbitrary value to the member it computes and nothing
else; the points, which are written again in the next try, are left alone. A copy of a curve is the same value. `--threads` other than 1 is not
modelled here (C43).
-/

namespace Ecgen.InvalidRun

open Output Cli Whole

/-- the generators of these runs that have a return value for failures, other than those of `Whole.call`: field.c:23-95, equation.c:14-32,
67-85, curve.c:27-29. `a_gen_random`, `b_gen_random`, `order_gen_any`, `gens_gen_any` and `points_gen_trial` have none. -/
def canFail : Gen → Bool
  | .fieldRandom | .fieldInput | .aInput | .bInput | .curveAny => true
  | _ => false

/-- what is left of the curve `x` by the generator of a stage that is cut off; `y` has the value written -/
def leftover (s : Nat) (x y : Cur) : Cur :=
  match s with
  | 1 => { x with field := y.field }
  | 2 => { x with a := y.a }
  | 3 => { x with b := y.b }
  | 4 => { x with crv := y.crv }
  | 5 => { x with order := y.order }
  | 6 => { x with gens := y.gens }
  | _ => x

/-- a call of a generator. `points_gen_trial`, point.c:95-137, with the primes as argument: an array with the number of generators as length is
declared, which is undefined if there are none. -/
noncomputable def call (P : Pari) (bits : Nat) (p : Pick) (primes : List Nat) (x : Cur) : Gen → Option (Cur × Int)
  | .pointsTrial =>
    open Classical in
    match x.gens with
    | some ⟨E, l⟩ =>
      if x.crv = some E ∧ l.length ≠ 0 then some ({ x with gens := some ⟨E, Group.pointsTrial primes (l.map Group.Sub.gen)⟩ }, 1) else none
    | none => none
  | g => Whole.call P bits p none x g

/-- the generator of a stage, called under the timer, exhaustive.c:366-375 -/
noncomputable def gen (P : Pari) (bits : Nat) (S : Setup) (primes : List Nat) (s : Nat) (w : W) : W × Engine.GenRes :=
  match w.pick.cut with
  | some x => ({ w.next with cur := leftover s w.cur x }, .timeout)
  | none =>
    match (stageOf S.gens s).bind id with
    | none => ({ w.next with ub := true }, .ret Engine.INT_MIN)
    | some g =>
      match if canFail g then w.pick.fail s else none with
      | some d => (w.next, .ret d)
      | none => done w (call P bits w.pick primes w.cur g)

/-- the engine's tables; `primes` are those of `points_gen_trial` -/
noncomputable def setup (P : Pari) (bits : Nat) (S : Setup) (primes : List Nat) : Engine.Setup W where
  gen := gen P bits S primes
  checks s := ((stageOf S.checks s).getD []).map fun k w => check w k
  unroll s := some fun w => { w with cur := unroll s w.cur }

/-- the search goes on, has done something undefined, or is finished -/
inductive Res (α : Type) where
  | running
  | undefined
  | done (x : α)

/-- a call of `exhaustive_gen_retry`, within `fuel` rounds: its result and the world -/
noncomputable def phase (P : Pari) (bits : Nat) (S : Setup) (primes : List Nat) (start stop : Nat) (retry : Int) (fuel : Nat) (w : W) : Res (Int × W) :=
  match Engine.genRetry (setup P bits S primes) start stop retry fuel w with
  | none => .running
  | some (r, st) => if st.w.ub then .undefined else .done (r, st.w)

/-- `dvdis`: the prime is a `pari_ulong` that becomes a `long` -/
def divides (q o : Nat) : Bool := o % (Invalid.toS q).natAbs = 0

/-- the variables of `invalid_curves_single`: the world with the curve `invalid`, which of the entries of `curves` are set, `ncurves`, and the
tokens printed -/
structure St where
  w : W
  got : Nat → Bool
  count : Nat
  out : List (Ecgen.Json.Tok Output.Curve)

/-- a curve for the prime number `i` is still needed, and the prime divides the order -/
def wanted (primes : List Nat) (got : Nat → Bool) (o i : Nat) : Bool := !got i && divides (primes.getD i 0) o

/-- the primes to find points for, invalid.c:172-178; there are `total` of them, invalid.c:146-155 -/
def wantedPrimes (primes : List Nat) (got : Nat → Bool) (o : Nat) : List Nat :=
  ((List.range primes.length).filter (wanted primes got o)).map fun i => primes.getD i 0

/-- invalid.c:190-207: store and print the curve, for `i` downwards -/
def save (primes : List Nat) (o : Nat) (v : Output.Curve) : Nat → St → St
  | 0, st => st
  | i + 1, st =>
    save primes o v i <|
      if wanted primes st.got o i then
        { st with
          got := fun j => if j = i then true else st.got j
          count := st.count + 1
          out := st.out ++ .obj v :: (if st.count ≠ primes.length - 1 then [.comma] else []) }
      else st

/-- `curve_unroll` -/
def dropped (w : W) : W := { w with cur := unroll 4 w.cur }

/-- one round of the loop, invalid.c:138-232 -/
noncomputable def round (P : Pari) (c : Config) (primes : List Nat) (f : Fld) (a : Elt) (fuel : Nat) (st : St) : Res St :=
  match phase P c.bits (invalidSetup c) [] 3 6 0 fuel st.w with
  | .running => .running
  | .undefined => .undefined
  | .done (_, w) =>
    match w.cur.order with
    | none => .undefined
    | some o =>
      if (wantedPrimes primes st.got o).length > 0 then
        match phase P c.bits (invalidSetup c) [] 6 7 1 fuel w with
        | .running => .running
        | .undefined => .undefined
        | .done (r, w) =>
          if r = 0 then .done { st with w := dropped w }
          else
            match phase P c.bits (invalidSetup c) (wantedPrimes primes st.got o) 7 9 0 fuel w with
            | .running => .running
            | .undefined => .undefined
            | .done (_, w) =>
              match w.cur.order, outCurve w.cur with
              | some o, some v => .done (save primes o v primes.length { st with w := { w with cur := { field := some f, a := some a } } })
              | _, _ => .undefined
      else .done { st with w := dropped w }

/-- the loop, invalid.c:136-233, within `k` rounds -/
noncomputable def search (P : Pari) (c : Config) (primes : List Nat) (f : Fld) (a : Elt) (fuel : Nat) : Nat → St → Res St
  | 0, st => if st.count < primes.length then .running else .done st
  | k + 1, st =>
    if st.count < primes.length then
      match round P c primes f a fuel st with
      | .running => .running
      | .undefined => .undefined
      | .done st => search P c primes f a fuel k st
    else .done st

/-- `invalid_do` with one thread, invalid.c:343-396: the tokens printed and the exit status -/
noncomputable def produce (P : Pari) (np : Nat → Nat) (c : Config) (fuel : Nat) (w : W) : Res (List (Ecgen.Json.Tok Output.Curve) × Int) :=
  match phase P c.bits (originalSetup c) [] 1 7 0 fuel { w with cur := {} } with
  | .running => .running
  | .undefined => .undefined
  | .done (r, w) =>
    if r = 0 then .done ([], 1)
    else
      match outCurve w.cur, w.cur.order, w.cur.field, w.cur.a with
      | some v, some o, some f, some a =>
        match Invalid.invalidPrimes np o c.invalidPrimes fuel with
        | none => .running
        | some primes =>
          if primes.length = 0 then .done ([.open, .obj v, .comma], 1)
          else
            match search P c primes f a fuel fuel ⟨{ w with cur := { field := some f, a := some a } }, fun _ => false, 0, [.open, .obj v, .comma]⟩ with
            | .running => .running
            | .undefined => .undefined
            | .done st => .done (st.out ++ [.close], 0)
      | _, _, _, _ => .undefined

/-- the bytes of the tokens -/
noncomputable def bytes (malloc : Nat → List Parson.Byte) (c : Config) (ts : List (Ecgen.Json.Tok Output.Curve)) : List Parson.Byte :=
  Parson.outputText (Parson.curveText malloc c.hexDigits) ts

end Ecgen.InvalidRun
