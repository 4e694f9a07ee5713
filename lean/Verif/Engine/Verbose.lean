import Verif.Engine.Lemmas

/-!
# What a search writes to the log with `--verbose` (C98)

`/repo/src/exhaustive/exhaustive.c`, lines 343-443, the calls of `verbose_log` and `fprintf(verbose, ..)`, with `cfg->verbose` set. Without it nothing is
written (`/repo/src/io/output.h`, lines 75-76). Writing does not fail. What callbacks write themselves is not part of it (none does).
-/

namespace Ecgen.Engine

variable {σ : Type}

/-- the timer cut off the generator: `timeout`, exhaustive.c:365-370 -/
def timedOut (S : Setup σ) (s : Nat) (w : σ) : Bool :=
  match (S.gen s w).2 with
  | .timeout => true
  | .ret _ => false

/-- exhaustive.c:403-405 -/
def limitText (retry : Int) (state : Nat) : List Char := ("Reached retry limit: " ++ toString retry ++ ", state = " ++ toString state ++ "\n").toList

/-- what one iteration writes, exhaustive.c:393-436 -/
def stepText (S : Setup σ) (start : Nat) (retry : Int) (st : St σ) : List Char :=
  let diff := (execStage S start st.state st.w st.log).2.1
  if diff ≤ 0 then
    if diff = INT_MIN ∨ (st.state : Int) + diff < 0 then []
    else if retry ≠ 0 ∧ ((st.tries st.state + 1 : Nat) : Int) ≥ retry then limitText retry st.state
    else if timedOut S st.state st.w then ['#']
    else if diff < 0 then ['-']
    else ['.']
  else ['+']

/-- what the loop writes within the budget of `loop`, and the end of the line after it, exhaustive.c:440 -/
def loopText (S : Setup σ) (start stop : Nat) (retry : Int) : Nat → St σ → List Char
  | 0, st => if st.state < stop then [] else ['\n']
  | fuel + 1, st =>
    if st.state < stop then
      stepText S start retry st ++
        match step S start retry st with
        | .inl st' => loopText S start stop retry fuel st'
        | .inr _ => []
    else ['\n']

/-- what `exhaustive_gen_retry` writes, exhaustive.c:343-443 -/
def genText (S : Setup σ) (start stop : Nat) (retry : Int) (fuel : Nat) (w : σ) : List Char :=
  if start = stop then []
  else if start > stop then []
  else loopText S start stop retry fuel (init start w)

namespace Spec

/-- a refusal with the verdict `d`, by the generator of stage `s` or by one of its checks -/
def Refusal (n : Nat → Nat) (s : Nat) (d : Int) (evs : List Ev) : Prop :=
  evs = [.gen s (.ret d)] ∨ ∃ g cs, evs = .gen s (.ret g) :: cs ∧ 0 < g ∧ Refused s (n s) d 0 cs

/-- the text that tells what happened: a sign for every attempt at a stage, of which `+` says that it was accepted, `#` that the timer cut it off, `-` that
it was refused and an earlier stage asked for, `.` that it was refused and is to be repeated -/
inductive Tells (n : Nat → Nat) : List Ev → List Char → Prop
  | nil : Tells n [] []
  | plus {L t s d evs} : Tells n L t → Accepted n s d evs → Tells n (L ++ evs) (t ++ ['+'])
  | hash {L t s} : Tells n L t → Tells n (L ++ [.gen s .timeout]) (t ++ ['#'])
  | minus {L t s d evs} : Tells n L t → Refusal n s d evs → d < 0 → Tells n (L ++ evs) (t ++ ['-'])
  | dot {L t s evs} : Tells n L t → Refusal n s 0 evs → Tells n (L ++ evs) (t ++ ['.'])
  | cleanup {L t s} : Tells n L t → Tells n (L ++ [.cleanup s]) t

end Spec

end Ecgen.Engine
