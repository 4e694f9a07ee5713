/-!
# Model of the timer of a stage

`timeout_start` and `timeout_stop` (`/repo/src/util/timeout.h`, 48-74), the handler of the signal (`/repo/src/util/timeout.c`, 13-20) and the loop of the
search that uses them (`/repo/src/exhaustive/exhaustive.c`, 353-438), one thread. The program is cut into its steps; time passes between any two of
them, and the signal arrives at the moment the timer is set to, whatever step the program is at.

Simplifications: `timer_create` and `timer_settime` succeed (times from 2^63 seconds on, which the system refuses, are left out); the signal is delivered
at once; what the generators, checks and cleanup functions do is left open, they only take time.
-/

namespace Ecgen.Timer

/-- where the program is -/
inductive Pc where
  /-- not in a search -/
  | outside
  /-- at the beginning of an iteration of the loop of the search, exhaustive.c:358-365 -/
  | top
  /-- after `timer_create`, timeout.h:54 -/
  | created
  /-- after `timer_settime`, timeout.h:58 -/
  | armed
  /-- after `timeout_in = true`, timeout.h:59 -/
  | flagged
  /-- after `sigsetjmp`: in the generator, exhaustive.c:373 -/
  | gen
  /-- before `timeout_stop`, exhaustive.c:375 -/
  | stop
  /-- after `timeout_in = false`, timeout.h:71 -/
  | cleared
  /-- the rest of the iteration: checks, cleanup functions, exhaustive.c:376-437 -/
  | rest
  /-- after a jump to a place that is not this iteration of this call: undefined -/
  | lost
  deriving DecidableEq, Repr

/-- how the generator of an iteration ended, exhaustive.c:366-374 -/
inductive End where
  | finished | timedOut
  deriving DecidableEq, Repr

/-- the state of a thread -/
structure S where
  now : Nat
  pc : Pc
  /-- number of the call of `exhaustive_gen_retry` and of the iteration of its loop -/
  call : Nat
  round : Nat
  /-- `timeout_in` -/
  inside : Bool
  /-- `timeout_ptr`: the iteration that called `sigsetjmp` -/
  buf : Option (Nat × Nat)
  /-- the moment the timer goes off, if it is set -/
  deadline : Option Nat
  /-- timers that were created and not deleted -/
  timers : Nat
  /-- when the present iteration and its generator began -/
  began : Nat
  genBegan : Nat
  /-- how the last generator ended -/
  last : End
  deriving DecidableEq, Repr

/-- the program starts; timeout.c:8-9 -/
def init : S := ⟨0, .outside, 0, 0, false, none, none, 0, 0, 0, .finished⟩

/-- a step of the program; `n` is `cfg->timeout` in the unit of the clock -/
inductive Prog (n : Nat) : S → S → Prop
  /-- `exhaustive_gen_retry` is called -/
  | enter {s} : s.pc = .outside → Prog n s { s with pc := .top, call := s.call + 1, round := 0, began := s.now }
  /-- timeout.h:49-54 -/
  | create {s} : s.pc = .top → n ≠ 0 → Prog n s { s with pc := .created, timers := s.timers + 1 }
  /-- no timer: `sigsetjmp` is not called either (timeout.h:61) -/
  | skip {s} : s.pc = .top → n = 0 → Prog n s { s with pc := .gen, genBegan := s.now }
  | set {s} : s.pc = .created → Prog n s { s with pc := .armed, deadline := some (s.now + n) }
  | flag {s} : s.pc = .armed → Prog n s { s with pc := .flagged, inside := true }
  /-- `sigsetjmp` returns 0 and the generator is called -/
  | jump {s} : s.pc = .flagged → Prog n s { s with pc := .gen, buf := some (s.call, s.round), genBegan := s.now }
  /-- the generator returns -/
  | done {s} : s.pc = .gen → Prog n s { s with pc := .stop, last := .finished }
  /-- `timeout_stop`: `timeout_in = false` … -/
  | clear {s} : s.pc = .stop → s.inside = true → Prog n s { s with pc := .cleared, inside := false }
  | pass {s} : s.pc = .stop → s.inside = false → Prog n s { s with pc := .rest }
  /-- … and `timer_delete` -/
  | delete {s} : s.pc = .cleared → Prog n s { s with pc := .rest, deadline := none, timers := s.timers - 1 }
  /-- the next iteration -/
  | next {s} : s.pc = .rest → Prog n s { s with pc := .top, round := s.round + 1, began := s.now }
  /-- the search returns -/
  | leave {s} : s.pc = .rest → Prog n s { s with pc := .outside }

/-- the handler, timeout.c:13-20: `siglongjmp` continues behind the `sigsetjmp` that filled `timeout_ptr`, in the first branch of
exhaustive.c:366 -/
def handle (s : S) : S :=
  if s.inside then
    if s.buf = some (s.call, s.round) then { s with pc := .stop, last := .timedOut } else { s with pc := .lost }
  else s

/-- what happens next: a step of the program, the signal, or a unit of time. Time does not pass while a timer is due. -/
inductive Step (n : Nat) : S → S → Prop
  | prog {s s'} : Prog n s s' → Step n s s'
  | signal {s d} : s.pc ≠ .lost → s.deadline = some d → d ≤ s.now → Step n s (handle { s with deadline := none })
  | tick {s} : (∀ d, s.deadline = some d → s.now < d) → Step n s { s with now := s.now + 1 }

/-- the executions in which the timer never goes off before `sigsetjmp` was called, that is, in which less than `n` units pass from `timer_settime` to
`sigsetjmp` -/
inductive Prompt (n : Nat) : S → Prop
  | init : Prompt n Timer.init
  | step {s s'} : Prompt n s → Step n s s' → ¬ ((s.pc = .armed ∨ s.pc = .flagged) ∧ ∃ d, s.deadline = some d ∧ d ≤ s.now) → Prompt n s'

/-- all executions -/
inductive Runs (n : Nat) : S → Prop
  | init : Runs n Timer.init
  | step {s s'} : Runs n s → Step n s s' → Runs n s'

end Ecgen.Timer
