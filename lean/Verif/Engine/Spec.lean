import Verif.Engine.Model

/-!
# Specification of the staged search

Stated on chronological event lists only (no reference to the loop of the model).
-/

namespace Ecgen.Engine.Spec

open Ecgen.Engine (Ev GenRes)

/-- The stage an event belongs to. -/
def stageOf : Ev → Nat
  | .gen s _ => s
  | .check s _ _ => s
  | .cleanup s => s

/-- `evs` records validators `i, i+1, ..., n-1` of stage `s`, all of which accepted. -/
def AllPass (s n : Nat) : Nat → List Ev → Prop
  | i, [] => i = n
  | i, .check s' j r :: es => i < n ∧ s' = s ∧ j = i ∧ 0 < r ∧ AllPass s n (i + 1) es
  | _, _ :: _ => False

/-- `evs` records validators `i, ...` of stage `s` of which only the last one recorded refused,
with verdict `d`. -/
def Refused (s n : Nat) (d : Int) : Nat → List Ev → Prop
  | i, [.check s' j r] => i < n ∧ s' = s ∧ j = i ∧ r ≤ 0 ∧ r = d
  | i, .check s' j r :: es => i < n ∧ s' = s ∧ j = i ∧ 0 < r ∧ Refused s n d (i + 1) es
  | _, _ => False

/-- A successful attempt at stage `s`: the generator asked to advance by `d > 0` and each of the
`n` validators accepted. -/
def Accepted (n : Nat → Nat) (s : Nat) (d : Int) (evs : List Ev) : Prop :=
  ∃ cs, evs = .gen s (.ret d) :: cs ∧ 0 < d ∧ AllPass s (n s) 0 cs

/-- A failed attempt at stage `s` with verdict `d ≤ 0`: a timeout (which asks to return to the
start), a refusal by the generator or a refusal by a validator. -/
def Failed (n : Nat → Nat) (start s : Nat) (d : Int) (evs : List Ev) : Prop :=
  d ≤ 0 ∧
  ((evs = [.gen s .timeout] ∧ d = (start : Int) - s) ∨
   (evs = [.gen s (.ret d)]) ∨
   (∃ g cs, evs = .gen s (.ret g) :: cs ∧ 0 < g ∧ Refused s (n s) d 0 cs))

/-- The cleanups of the stages `hi, hi-1, ..., lo+1` that have one, in that order. -/
def cleanups (has : Nat → Bool) (lo : Nat) : Nat → List Ev
  | 0 => []
  | i + 1 =>
    if lo < i + 1 then (if has (i + 1) then [Ev.cleanup (i + 1)] else []) ++ cleanups has lo i
    else []

/-- The legal histories of a search: from the start stage to the current stage. -/
inductive History (n : Nat → Nat) (has : Nat → Bool) (start : Nat) : List Ev → Nat → Prop
  | nil : History n has start [] start
  | advance {L s d evs} : History n has start L s → Accepted n s d evs →
      History n has start (L ++ evs) (s + d.toNat)
  | goBack {L s d evs} : History n has start L s → Failed n start s d evs → 0 ≤ (s : Int) + d →
      History n has start
        (L ++ (evs ++ cleanups has (max ((s : Int) + d).toNat start) s))
        (max ((s : Int) + d).toNat start)

/-- In the chronological history `L`, stage `s` was accepted with step `d` and afterwards only
later stages were touched. -/
def FreshIn (n : Nat → Nat) (L : List Ev) (s : Nat) (d : Int) : Prop :=
  ∃ pre evs post, L = pre ++ (evs ++ post) ∧ Accepted n s d evs ∧ ∀ e ∈ post, s < stageOf e

/-- The value of stage `s` is up to date in history `L`: `s` itself, or an earlier stage whose
accepted step jumped over `s`, was accepted and afterwards only later stages were touched. -/
def Current (n : Nat → Nat) (L : List Ev) (s : Nat) : Prop :=
  ∃ s0 d, s0 ≤ s ∧ s < s0 + d.toNat ∧ FreshIn n L s0 d

/-- Number of failed attempts at stage `s` at the end of a history since its last accepted one,
where the attempts are given as (stage, verdict) pairs, newest first. -/
def failStreak (s : Nat) : List (Nat × Int) → Nat
  | [] => 0
  | (s', d) :: l =>
    if s' = s then (if 0 < d then 0 else failStreak s l + 1) else failStreak s l

/-- `L` is the chronological event list of the attempts `A` (newest attempt first). -/
inductive Attempts (n : Nat → Nat) (start : Nat) : List Ev → List (Nat × Int) → Prop
  | nil : Attempts n start [] []
  | ok {L A s d evs} : Attempts n start L A → Accepted n s d evs →
      Attempts n start (L ++ evs) ((s, d) :: A)
  | fail {L A s d evs} : Attempts n start L A → Failed n start s d evs →
      Attempts n start (L ++ evs) ((s, d) :: A)
  | cleanup {L A s} : Attempts n start L A → Attempts n start (L ++ [.cleanup s]) A

end Ecgen.Engine.Spec

/-! ### World-level specification, used for the invariant rule -/

namespace Ecgen.Engine.Spec

open Ecgen.Engine (Setup GenRes)

variable {σ : Type}

/-- All validators accept, taking the world from `w` to `w'`. -/
inductive Passes : List (σ → σ × Int) → σ → σ → Prop
  | nil (w : σ) : Passes [] w w
  | cons {c cs w w'} : 0 < (c w).2 → Passes cs (c w).1 w' → Passes (c :: cs) w w'

/-- Some validator refuses with verdict `d`, leaving the world at `w'`. -/
inductive Rejects : List (σ → σ × Int) → σ → Int → σ → Prop
  | here {c cs w} : (c w).2 ≤ 0 → Rejects (c :: cs) w (c w).2 (c w).1
  | later {c cs w d w'} : 0 < (c w).2 → Rejects cs (c w).1 d w' → Rejects (c :: cs) w d w'

/-- Stage `s` run in world `w` succeeds with step `d` and leaves world `w'`. -/
def Succeeds (S : Setup σ) (s : Nat) (w : σ) (d : Int) (w' : σ) : Prop :=
  ∃ w1, S.gen s w = (w1, .ret d) ∧ 0 < d ∧ Passes (S.checks s) w1 w'

/-- Stage `s` run in world `w` fails with verdict `d` and leaves world `w'`. -/
def Fails (S : Setup σ) (start s : Nat) (w : σ) (d : Int) (w' : σ) : Prop :=
  (S.gen s w = (w', .timeout) ∧ d = (start : Int) - s) ∨
  (S.gen s w = (w', .ret d) ∧ d ≤ 0) ∨
  (∃ w1 g, S.gen s w = (w1, .ret g) ∧ 0 < g ∧ Rejects (S.checks s) w1 d w')

/-- The world after cleaning up stages `hi, ..., lo+1`. -/
def cleaned (S : Setup σ) (lo : Nat) : Nat → σ → σ
  | 0, w => w
  | i + 1, w => if lo < i + 1 then cleaned S lo i ((S.unroll (i + 1)).getD id w) else w

end Ecgen.Engine.Spec
