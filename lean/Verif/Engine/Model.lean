/-!
# Model of the staged curve search (`/repo/src/exhaustive/exhaustive.c`, lines 343-448)

The world `σ` stands for everything the C callbacks may read or write: the curve under
construction, the random generator, standard input, static variables and the clock.  Callbacks are
deterministic functions of the world; since `σ` and the callbacks are arbitrary this covers every
behaviour.

Simplifications:
* the PARI stack (`avma`, `stack_tops`) is not modelled;
* `int` is unbounded; that nothing overflows in a 32-bit `int` is shown in `Verif.Engine.Ints`;
* cleanup callbacks return `-1`, as all of them do (`unroll_skip`, `seed_unroll`, `curve_unroll`,
  `gens_unroll`, `points_unroll`), so the cleanup loop moves down one stage per call;
* the log of the verbose stream is not modelled. `log` is a ghost component recording which stages
  were executed and which were cleaned up.
-/

namespace Ecgen.Engine

/-- `INT_MIN` of a 32-bit `int` (the fatal return value of a callback). -/
def INT_MIN : Int := -2147483648

/-- Outcome of `timeout_start(..) {..} else { diff = generators[state](..) }`
(exhaustive.c:366-375): the generator returned a value or was cut off by the timer. -/
inductive GenRes where
  | ret (d : Int)
  | timeout
  deriving DecidableEq, Repr

/-- `exhaustive_t` (src/misc/types.h): the callbacks for each stage.
`checks s` is the list `validators[s]->checks` (empty if there is no validator),
`unroll s = none` means a `NULL` entry. -/
structure Setup (σ : Type) where
  gen : Nat → σ → σ × GenRes
  checks : Nat → List (σ → σ × Int)
  unroll : Nat → Option (σ → σ)

/-- Ghost events. `gen s r`: the generator of stage `s` was called with outcome `r`.
`check s i r`: validator number `i` of stage `s` returned `r`. `cleanup s`: the cleanup of stage
`s` ran. -/
inductive Ev where
  | gen (s : Nat) (r : GenRes)
  | check (s i : Nat) (r : Int)
  | cleanup (s : Nat)
  deriving DecidableEq, Repr

/-- Local variables of `exhaustive_gen_retry`: `state`, `gen_tries`, the world, and the ghost log
(newest event first). -/
structure St (σ : Type) where
  state : Nat
  tries : Nat → Nat
  w : σ
  log : List Ev

variable {σ : Type}

/-- The validator loop, exhaustive.c:376-388: the first result `≤ 0` replaces `diff`.
`s` and `i` (stage and validator number) are only used for the ghost log. -/
def runChecks (s : Nat) : Nat → List (σ → σ × Int) → σ → Int → List Ev → σ × Int × List Ev
  | _, [], w, d, log => (w, d, log)
  | i, c :: cs, w, d, log =>
    let r := c w
    if r.2 ≤ 0 then (r.1, r.2, Ev.check s i r.2 :: log)
    else runChecks s (i + 1) cs r.1 d (Ev.check s i r.2 :: log)

/-- One execution of a stage with its validators, exhaustive.c:364-388. -/
def execStage (S : Setup σ) (start s : Nat) (w : σ) (log : List Ev) : σ × Int × List Ev :=
  match S.gen s w with
  | (w1, .timeout) => (w1, (start : Int) - (s : Int), Ev.gen s .timeout :: log)
  | (w1, .ret d) =>
    if 0 < d then runChecks s 0 (S.checks s) w1 d (Ev.gen s (.ret d) :: log)
    else (w1, d, Ev.gen s (.ret d) :: log)

/-- The cleanup loop, exhaustive.c:412-419: from stage `i` down to, and excluding, `new`. -/
def unrollLoop (S : Setup σ) (new : Nat) : Nat → σ → List Ev → σ × List Ev
  | 0, w, log => (w, log)
  | i + 1, w, log =>
    if i + 1 > new then
      match S.unroll (i + 1) with
      | some f => unrollLoop S new i (f w) (Ev.cleanup (i + 1) :: log)
      | none => unrollLoop S new i w log
    else (w, log)

/-- `gen_tries[s] = n` -/
def setTries (t : Nat → Nat) (s n : Nat) : Nat → Nat := fun i => if i = s then n else t i

/-- One iteration of the `while (state < end_offset)` loop, exhaustive.c:357-438.
`Sum.inr` is a `return 0`. -/
def step (S : Setup σ) (start : Nat) (retry : Int) (st : St σ) : St σ ⊕ St σ :=
  let r := execStage S start st.state st.w st.log
  let diff := r.2.1
  let newState : Int := max ((st.state : Int) + diff) (start : Int)
  if diff ≤ 0 then
    if diff = INT_MIN ∨ (st.state : Int) + diff < 0 then
      .inr { st with w := r.1, log := r.2.2 }
    else
      let tries := if retry ≠ 0 then setTries st.tries st.state (st.tries st.state + 1) else st.tries
      if retry ≠ 0 ∧ (tries st.state : Int) ≥ retry then
        .inr { st with tries := tries, w := r.1, log := r.2.2 }
      else
        let u := unrollLoop S newState.toNat st.state r.1 r.2.2
        .inl { state := newState.toNat, tries := tries, w := u.1, log := u.2 }
  else
    .inl { state := newState.toNat, tries := setTries st.tries st.state 0, w := r.1, log := r.2.2 }

/-- The loop with an iteration budget; `none` means the budget was exhausted.
The result is the C return value with the final local state. -/
def loop (S : Setup σ) (start stop : Nat) (retry : Int) : Nat → St σ → Option (Int × St σ)
  | 0, st => if st.state < stop then none else some (1, st)
  | fuel + 1, st =>
    if st.state < stop then
      match step S start retry st with
      | .inl st' => loop S start stop retry fuel st'
      | .inr st' => some (0, st')
    else some (1, st)

/-- Initial local variables, exhaustive.c:353-356. -/
def init (start : Nat) (w : σ) : St σ :=
  { state := start, tries := fun _ => 0, w := w, log := [] }

/-- `exhaustive_gen_retry`, exhaustive.c:343-443, with an iteration budget. -/
def genRetry (S : Setup σ) (start stop : Nat) (retry : Int) (fuel : Nat) (w : σ) :
    Option (Int × St σ) :=
  if start = stop then some (2, init start w)
  else if start > stop then some (0, init start w)
  else loop S start stop retry fuel (init start w)

/-- `exhaustive_gen`, exhaustive.c:445-448. -/
def gen (S : Setup σ) (start stop : Nat) (fuel : Nat) (w : σ) : Option (Int × St σ) :=
  genRetry S start stop 0 fuel w

end Ecgen.Engine
