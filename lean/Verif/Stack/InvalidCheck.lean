import Verif.Stack.Invalid
import Verif.Stack.Frame

/-!
# The searches of the invalid curve method pass the check
-/

namespace Ecgen.Stack
open Ecgen.Engine (INT_MIN)

/-- what is known of the original curve at the beginning of stage `s` -/
def knownO (s : Nat) : AState where
  v := [since 1 s false, since 2 s false, since 3 s false, if s ≤ 4 then .null else since 4 s false, if s ≤ 4 then .null else .opt 0 true,
      if s ≤ 5 then .any else since 5 s false, .null, .null, .null, if s ≤ 6 then .null else since 6 s true, .null, .null, .any] ++
    List.replicate 12 .any
  stat := .any

/-- a value that was there when the round began, seen at the beginning of stage `s`: it is older than `btop` (16) and the positions noted in the round -/
def older (s : Nat) : AVal := .live (65536 + (2 ^ s - 8)) false

/-- what is known of the curve in a round; `timer`: the timer may have left generators and points behind that are gone -/
def knownI (timer : Bool) (s : Nat) : AState where
  v := [older s, older s, since 3 s false, if s ≤ 4 then .null else since 4 s false, if s ≤ 4 then .null else .opt 0 true,
      if s ≤ 5 then .any else since 5 s false, .null, .null, .null,
      if s ≤ 6 then (if timer then .any else .null) else since 6 s true,
      if s ≤ 7 then (if timer then .any else .null) else .opt 0 true, .null, .any] ++ List.replicate 12 .any
  stat := .any

/-- what is known at the top of the loop -/
def topA (timer : Bool) : AState where
  v := [.live 0 false, .live 0 false, .any, .null, .null, .any, .null, .null, .null, if timer then .any else .null, if timer then .any else .null,
      .null, .any] ++ List.replicate 12 .any
  stat := .any

/-- what is known of a new curve -/
def newA : AState where
  v := [.live 0 false, .live 0 false, .null, .null, .null, .null, .null, .null, .null, .null, .null, .null, .null] ++ List.replicate 12 .null
  stat := .any

/-- what is known of a complete curve -/
def wholeA : AState where
  v := [.live 0 false, .live 0 false, .live 0 false, .live 0 false, .opt 0 true, .live 0 false, .null, .null, .null, .live 0 true, .opt 0 true, .null,
      .any] ++ List.replicate 12 .any
  stat := .any

/-- a copy has no clones -/
def copyA : AState where
  v := [.live 0 false, .live 0 false, .live 0 false, .live 0 false, .opt 0 false, .live 0 false, .null, .null, .null, .live 0 false, .opt 0 false, .null,
      .any] ++ List.replicate 12 .any
  stat := .any

/-- at the end of a round of a thread whose curve was used -/
def doneA : AState where
  v := [.live 0 false, .live 0 false, .live 0 false, .null, .null, .live 0 false, .null, .null, .null, .null, .null, .null, .any] ++
    List.replicate 12 .any
  stat := .any

/-- a function that is not under the timer leads from what is known to what is to be known, and does not return early -/
def leads (rel : Bool) (p : Stmt) (a b : AState) : Bool :=
  match chk rel ⟨true, fun _ _ => false, fun _ => true⟩ p a with
  | some l => l.all (·.le b)
  | none => false

/-- the search for the original curve -/
def planO (rel : Bool) : Plan := ⟨knownO, 1, true, fun _ => true, false, true, rel⟩
/-- the three searches of a round. The first and the third never fail. -/
def plan1 (timer rel : Bool) : Plan := ⟨knownI timer, 3, false, fun _ => false, !timer, true, rel⟩
def plan2 (rel : Bool) : Plan := ⟨knownI true, 6, true, fun a => leads rel Prog.discard a (topA true), false, true, rel⟩
def plan3 (timer rel : Bool) : Plan := ⟨knownI timer, 7, false, fun _ => false, !timer, true, rel⟩
/-- the second one of a thread -/
def plan2T (rel : Bool) : Plan :=
  ⟨knownI false, 6, true, fun a => leads rel (seqs [Prog.unrolls, Prog.restore 16]) a (topA false), true, true, rel⟩

/-- all of these generators pass at a stage -/
def pass (P : Plan) (s : Nat) (gs : List Cli.Gen) (l : List Cli.Check) : Bool :=
  gs.all fun g => stageOk P s (Prog.gen g) (seqs (l.map Prog.check))

theorem original_1 (rel : Bool) : pass (planO rel) 1 [.fieldRandom, .fieldInput] [] = true := by cases rel <;> decide +kernel
theorem original_2 (rel : Bool) : pass (planO rel) 2 [.aRandom, .aInput] [] = true := by cases rel <;> decide +kernel
theorem original_3 (rel : Bool) : pass (planO rel) 3 [.bRandom, .bInput] [] = true := by cases rel <;> decide +kernel
theorem original_4 (rel : Bool) : pass (planO rel) 4 [.curveAny] [.curveNonzero] = true := by cases rel <;> decide +kernel
theorem original_5 (rel : Bool) : pass (planO rel) 5 [.orderAny] [] = true := by cases rel <;> decide +kernel
theorem original_6 (rel : Bool) : pass (planO rel) 6 [.gensAny] [] = true := by cases rel <;> decide +kernel

theorem first_3 (timer rel : Bool) : pass (plan1 timer rel) 3 [.bRandom] [] = true := by cases timer <;> cases rel <;> decide +kernel
theorem first_4 (timer rel : Bool) : pass (plan1 timer rel) 4 [.curveAny] [.curveNonzero] = true := by cases timer <;> cases rel <;> decide +kernel
theorem first_5 (timer rel : Bool) : pass (plan1 timer rel) 5 [.orderAny] [] = true := by cases timer <;> cases rel <;> decide +kernel
theorem second_6 (rel : Bool) : pass (plan2 rel) 6 [.gensAny, .gensOne] [] = true := by cases rel <;> decide +kernel
theorem secondT_6 (rel : Bool) : pass (plan2T rel) 6 [.gensAny, .gensOne] [] = true := by cases rel <;> decide +kernel
theorem third_7 (timer rel : Bool) : pass (plan3 timer rel) 7 [.pointsTrial] [] = true := by cases timer <;> cases rel <;> decide +kernel
theorem third_8 (timer rel : Bool) : pass (plan3 timer rel) 8 [.skip] [] = true := by cases timer <;> cases rel <;> decide +kernel

theorem leads_save (timer rel : Bool) : leads rel (Prog.save 16) (topA timer) (knownI timer 3) = true := by
  cases timer <;> cases rel <;> decide +kernel
theorem leads_divides_6 (timer rel : Bool) : leads rel Prog.divides (knownI timer 6) (knownI timer 6) = true := by
  cases timer <;> cases rel <;> decide +kernel
theorem leads_divides_7 (timer rel : Bool) : leads rel Prog.divides (knownI timer 7) (knownI timer 7) = true := by
  cases timer <;> cases rel <;> decide +kernel
theorem leads_unused (rel : Bool) : leads rel (.seq Prog.divides Prog.discard) (knownI true 6) (topA true) = true := by cases rel <;> decide +kernel
theorem leads_unusedT (rel : Bool) : leads rel (seqs [Prog.divides, Prog.unrolls, Prog.restore 16]) (knownI false 6) (topA false) = true := by
  cases rel <;> decide +kernel
theorem leads_lateT (rel : Bool) : leads rel (seqs [Prog.divides, Prog.unrolls, Prog.restore 16]) (knownI false 7) (topA false) = true := by
  cases rel <;> decide +kernel
theorem leads_done (rel : Bool) : leads rel Prog.unrolls wholeA doneA = true := by cases rel <;> decide +kernel
theorem leads_copy (rel : Bool) : leads rel Prog.curveCopy wholeA copyA = true := by cases rel <;> decide +kernel
theorem leads_copyOut (rel : Bool) : leads rel (.seq Prog.curveCopy (Prog.output true)) wholeA copyA = true := by cases rel <;> decide +kernel
theorem leads_print (rel : Bool) : leads rel (.seq (Prog.output true) Prog.primes) wholeA wholeA = true := by cases rel <;> decide +kernel
theorem leads_output (rel : Bool) : leads rel (.seq Prog.divides (Prog.output true)) wholeA wholeA = true := by cases rel <;> decide +kernel
theorem leads_two (rel : Bool) : leads rel Prog.twoCopies wholeA ⟨List.replicate 13 .any ++ [.live 0 false, .live 0 false], .any⟩ = true := by
  cases rel <;> decide +kernel
theorem leads_two_new (rel : Bool) : leads rel (seqs [Prog.call (.loc 0) [], Prog.call (.loc 1) []]) ⟨List.replicate 25 .any, .any⟩
    ⟨List.replicate 13 .any ++ [.live 0 false, .live 0 false], .any⟩ = true := by
  cases rel <;> decide +kernel
theorem leads_free (rel : Bool) : leads rel Prog.curveFree wholeA ⟨[], .any⟩ = true := by cases rel <;> decide +kernel
theorem leads_free_new (rel : Bool) : leads rel Prog.curveFree newA ⟨[], .any⟩ = true := by cases rel <;> decide +kernel
theorem leads_free_done (rel : Bool) : leads rel Prog.curveFree doneA ⟨[], .any⟩ = true := by cases rel <;> decide +kernel

theorem whole_of_knownO : (knownO 7).le wholeA = true := by decide +kernel
theorem whole_of_knownI (timer : Bool) : (knownI timer 9).le wholeA = true := by cases timer <;> decide +kernel
theorem whole_of_copy : copyA.le wholeA = true := by decide +kernel
theorem top_of_new (timer : Bool) : newA.le (topA timer) = true := by cases timer <;> decide +kernel
theorem top_of_done : doneA.le (topA false) = true := by decide +kernel

end Ecgen.Stack
