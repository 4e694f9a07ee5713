import Verif.InvalidRun.Model
import Verif.Invalid.Curves

/-!
# A whole run of the invalid curve method with several threads (C95, C96)

`invalid_thread` (`/repo/src/invalid/invalid_thread.c`, 21-95) and `invalid_curves_threaded` (`/repo/src/invalid/invalid.c`, 238-319): the transition
system of `Invalid.Step`, in which the curves that workers find are not arbitrary but come from the searches of `InvalidRun.phase`, as in a run with one
thread.

Simplifications, besides those of `Invalid.Curves` and `InvalidRun.Model`:
* A worker has its own world. All the answers of PARI to all the threads lie on one tape; every search of a worker starts at any position of
  it. So the answers to different searches are independent: in a given run they can be laid one behind the other.
* A search of a worker (stages B to ORDER, and then GENERATORS) is one step, and so is the computation of its points: nothing of it is shared.
* What is unrolled at the end of a round (invalid_thread.c:85-87) is unrolled at the beginning of the next one.
* The primes are below `2^63`: `dvdis` takes them for `long`.
* `random_init`, the timer of the thread and the start of PARI in it are left out (C94, C72).
-/

namespace Ecgen.InvalidRun

open Output Cli Whole

/-- a field or a coefficient -/
abbrev Member := Fld ⊕ Elt

/-- a curve of a worker: the members that matter to the other threads, and the world of the worker, which has the curve in it -/
abbrev TCurve := Invalid.Curve Member W

/-- the shared data and the positions of the threads, and the world of each worker -/
structure TSt where
  g : Invalid.G Member W
  ws : Nat → W

/-- the curve in a world, as the other threads see it; the members must be set -/
def taken (w : W) : Option TCurve :=
  match w.cur.field, w.cur.a, w.cur.order with
  | some f, some a, some o => some ⟨.inl f, .inr a, o, w⟩
  | _, _, _ => none

/-- the end of a round, invalid_thread.c:85-87 -/
def unrolled (w : W) : W := { w with cur := unroll 4 (unroll 6 (unroll 7 w.cur)) }

/-- invalid_thread.c:38-50: a curve whose order is divisible by a prime and that has generators, or nothing -/
noncomputable def hunt (P : Pari) (c : Config) (primes : List Nat) (fuel : Nat) (w : W) : Res (Option TCurve × W) :=
  match phase P c.bits (invalidSetup c) [] 3 6 0 fuel w with
  | .running => .running
  | .undefined => .undefined
  | .done (_, w) =>
    match w.cur.order with
    | none => .undefined
    | some o =>
      if primes.countP (divides · o) > 0 then
        match phase P c.bits (invalidSetup c) [] 6 7 1 fuel w with
        | .running => .running
        | .undefined => .undefined
        | .done (r, w) =>
          if r = 0 then .done (none, w)
          else
            match taken w with
            | some d => .done (some d, w)
            | none => .undefined
      else .done (none, w)

/-- invalid_thread.c:65-68: points for the primes that were claimed -/
noncomputable def trial (P : Pari) (c : Config) (l : List Nat) (fuel : Nat) (w : W) : Res (TCurve × W) :=
  match phase P c.bits (invalidSetup c) l 7 9 0 fuel w with
  | .running => .running
  | .undefined => .undefined
  | .done (_, w) =>
    match taken w with
    | some d => .done (d, w)
    | none => .undefined

/-- a step in which no worker leaves a search or the computation of points: the steps with the mutex and those of the main thread -/
def Quiet (g g' : Invalid.G Member W) : Prop :=
  ∀ t, (g.workers t = .search → g'.workers t = .search) ∧ ∀ d l, g.workers t = .points d l → g'.workers t = .points d l

open Invalid (upd) in
/-- one step of one of the threads -/
inductive TStep (P : Pari) (c : Config) (primes : List Nat) (orig : TCurve) : TSt → TSt → Prop
  | shared (s : TSt) (g' : Invalid.G Member W) : Invalid.Step (fun i => primes.getD i 0) primes.length c.threads orig s.g g' → Quiet s.g g' →
      TStep P c primes orig s ⟨g', s.ws⟩
  | nothing (s : TSt) (t pos fuel : Nat) (w : W) : t < c.threads → s.g.workers t = .search →
      hunt P c primes fuel { unrolled (s.ws t) with pos := pos } = .done (none, w) →
      TStep P c primes orig s ⟨{ s.g with workers := upd s.g.workers t .wantCheck }, upd s.ws t w⟩
  | found (s : TSt) (t pos fuel : Nat) (d : TCurve) (w : W) : t < c.threads → s.g.workers t = .search →
      hunt P c primes fuel { unrolled (s.ws t) with pos := pos } = .done (some d, w) →
      TStep P c primes orig s ⟨{ s.g with workers := upd s.g.workers t (.wantClaim d) }, upd s.ws t w⟩
  | points (s : TSt) (t pos fuel : Nat) (d d' : TCurve) (l : List Nat) (w : W) : t < c.threads → s.g.workers t = .points d l →
      trial P c l fuel { s.ws t with pos := pos } = .done (d', w) →
      TStep P c primes orig s ⟨{ s.g with workers := upd s.g.workers t (.wantStore d' l) }, upd s.ws t w⟩

/-- the next step does something undefined: in a search, in the computation of points, or when a curve that is stored is printed -/
def Undefined (P : Pari) (c : Config) (primes : List Nat) (s : TSt) : Prop :=
  (∃ t pos fuel, t < c.threads ∧ s.g.workers t = .search ∧ hunt P c primes fuel { unrolled (s.ws t) with pos := pos } = .undefined) ∨
  (∃ t pos fuel d l, t < c.threads ∧ s.g.workers t = .points d l ∧ trial P c l fuel { s.ws t with pos := pos } = .undefined) ∨
  ∃ i d, s.g.curves i = some d ∧ outCurve d.rest.cur = none

/-- the start: every worker has a new curve with the field and the first coefficient of the curve to invalidate, invalid_thread.c:32-34, which
is the one in the world `w` -/
def begin (w : W) (orig : TCurve) (f : Fld) (a : Elt) : TSt :=
  ⟨Invalid.initial orig, fun _ => { w with cur := { field := some f, a := some a } }⟩

/-- the states of a run with threads -/
inductive TReach (P : Pari) (c : Config) (primes : List Nat) (orig : TCurve) (s0 : TSt) : TSt → Prop
  | refl : TReach P c primes orig s0 s0
  | step {s s' : TSt} : TReach P c primes orig s0 s → TStep P c primes orig s s' → TReach P c primes orig s0 s'

/-- what is printed for an entry -/
noncomputable def shown (e : Invalid.Entry Member W) : Output.Curve :=
  (e.2.bind fun d => outCurve d.rest.cur).getD ⟨none, .prime 0, .int 0, .int 0, 0, [], []⟩

/-- the tokens, with the curves as they are printed -/
noncomputable def shownTok : Ecgen.Json.Tok (Invalid.Entry Member W) → Ecgen.Json.Tok Output.Curve
  | .obj e => .obj (shown e)
  | .open => .open
  | .close => .close
  | .comma => .comma

/-- `invalid_do` with several threads, invalid.c:343-396: a state `s` of the main thread and the workers that can be reached. The curve to
invalidate, the world it was found in, and the primes come with it. -/
inductive ThreadedRun (P : Pari) (np : Nat → Nat) (c : Config) (w : W) : (w0 : W) → List Nat → TSt → Prop
  | run (fuel : Nat) (r : Int) (w0 : W) (v : Output.Curve) (d : TCurve) (f : Fld) (a : Elt) (primes : List Nat) (s : TSt) :
      phase P c.bits (originalSetup c) [] 1 7 0 fuel { w with cur := {} } = .done (r, w0) → r ≠ 0 →
      outCurve w0.cur = some v → taken w0 = some d → w0.cur.field = some f → w0.cur.a = some a →
      Invalid.invalidPrimes np d.order c.invalidPrimes fuel = some primes → primes.length ≠ 0 →
      TReach P c primes d (begin w0 d f a) s → ThreadedRun P np c w w0 primes s

end Ecgen.InvalidRun
