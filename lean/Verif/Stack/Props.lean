import Verif.Stack.Link

/-!
# C71: no search looks at memory it has given back

Proved for all the tapes (all numbers drawn, all outcomes of the tests, all lengths of loops), all numbers of curves and both behaviours of
`obj_insert_shallow`, except for some methods and options; for each of these there is an execution that does.
-/

namespace Ecgen.Stack
open Ecgen.Engine Ecgen.Cli

/-! ### Specification -/

/-- the memory when the first search begins: no static number is a released clone, and the table of discriminants (anomalous.c:17-38, empty for the other
methods) is on the stack -/
structure Start (m : Mem) : Prop where
  stat : m.stat ≠ .freed
  disc : ∃ l, m.slot .disc = some l ∧ ∀ i ∈ l, ∃ n, i = .stk n ∧ n ∈ m.stack

/-- nothing undefined is done from the first curve on: in no search, whether it is still running, fails or ends; not when the curve is printed and
released -/
def Safe (rel : Bool) (F : Fns) (meta' : Bool) (w : W) : Prop :=
  ∀ w', Rounds rel F meta' w w' → ∀ st, Reaches rel F 0 9 0 (init 0 (begin' rel w')) st →
    st.w.mem.isSome = true ∧
    (∀ st', st.state < 9 → step rel F 0 0 st = .inr st' → st'.w.mem.isSome = true) ∧
    (9 ≤ st.state → (finish rel meta' st.w).mem.isSome = true)

/-- nor when the curve of a search that failed is released (exhaustive.c:472-473) -/
def SafeFailure (rel : Bool) (F : Fns) (w : W) : Prop :=
  ∀ st st', Reaches rel F 0 9 0 (init 0 (begin' rel w)) st → st.state < 9 → step rel F 0 0 st = .inr st' →
    (call rel Prog.curveFree st'.w).1.mem.isSome = true

/-- the timer never goes off -/
def Calm (t : Nat → Cell) : Prop := ∀ k, (t k).cut = false

/-- the first number tried in brainpool.c:115-120 always ends the loop -/
def FirstTry (t : Nat → Cell) : Prop := ∀ k, (t k).again = false

/-- the executions for which the claim is proved -/
structure Excepted (c : Config) (rel : Bool) (t : Nat → Cell) : Prop where
  /-- smooth orders: only if `obj_insert_shallow` does not release the clone it replaces -/
  smooth : c.smooth = true → rel = false
  /-- twists: no timer, and nothing that can refuse the curve once its order is stored -/
  twist : c.method = METHOD_TWIST → Calm t ∧ c.unique = false ∧ c.cofactor = false ∧ c.hexCheck = none
  /-- NUMS: no timer -/
  nums : c.seedAlgo = .nums → Calm t
  /-- families, except for two: no timer -/
  family : c.method = METHOD_FAMILY → c.family ≠ .kss16 → c.family ≠ .kss40 → Calm t
  /-- Brainpool -/
  brainpool : c.seedAlgo = .brainpool ∨ c.seedAlgo = .brainpoolRfc → FirstTry t

/-! ### Lemmas -/

/-- what is known between two curves -/
def between : AState := ⟨List.replicate 12 .any ++ [.live 0 false] ++ List.replicate 12 .any, .ok⟩

theorem Start.rep {m : Mem} (h : Start m) : Rep between m := by
  refine ⟨fun x => ?_, h.stat⟩
  obtain ⟨l, hl, hi⟩ := h.disc
  cases x with
  | disc =>
    refine ⟨l, hl, fun n hn => ?_, fun n hn => ?_⟩
    · obtain ⟨k, e, hk⟩ := hi _ hn
      cases e
      exact ⟨hk, fun j hj => by simp at hj⟩
    · obtain ⟨k, e, _⟩ := hi _ hn
      cases e
  | loc n =>
    have : between.get (.loc n) = .any := by
      show (List.replicate 12 AVal.any ++ [AVal.live 0 false] ++ List.replicate 12 AVal.any).getD (13 + n) .any = .any
      rw [List.getD_eq_getElem?_getD, List.getElem?_append_right (by simp)]
      rw [List.getElem?_replicate]
      split <;> rfl
    rw [this]
    trivial
  | _ => trivial

/-- a new curve -/
def beginOk (C : Class) : Bool :=
  match chk C.rel ⟨true, fun _ _ => false, fun _ => true⟩ Prog.curveNew between with
  | some l => l.all fun b => b.le (known C 0)
  | none => false

/-- printing and releasing a curve -/
def finishOk (C : Class) : Bool :=
  match chk C.rel ⟨true, fun _ _ => false, fun _ => true⟩ (.seq (Prog.output C.data) Prog.curveFree) (known C 9) with
  | some l => l.all fun b => b.le between
  | none => false

theorem begin_checked (C : Class) : beginOk C = true := by
  obtain ⟨k, d, c, g, r⟩ := C
  show beginOk ⟨k, d, false, false, r⟩ = true
  cases k <;> cases d <;> cases r <;> decide +kernel

theorem finish_checked (C : Class) : finishOk C = true := by
  obtain ⟨k, d, c, g, r⟩ := C
  show finishOk ⟨k, d, false, false, r⟩ = true
  cases k <;> cases d <;> cases r <;> decide +kernel

theorem begin_sound (C : Class) {t : Nat → Cell} {w : W} (h : Holds t between w) : Holds t (known C 0) (begin' C.rel w) := by
  have hb := begin_checked C
  unfold beginOk at hb
  split at hb
  · rename_i l hl
    rcases call_sound (t := t) (by simp) hl h with ⟨_, b, hb1, hb2⟩ | ⟨b, hb1, _⟩
    · exact hb2.le (List.all_eq_true.mp hb b hb1)
    · simp at hb1
  · cases hb

theorem finish_sound (C : Class) {t : Nat → Cell} {w : W} (h : Holds t (known C 9) w) : Holds t between (finish C.rel C.data w) := by
  have hb := finish_checked C
  unfold finishOk at hb
  split at hb
  · rename_i l hl
    rcases call_sound (t := t) (by simp) hl h with ⟨_, b, hb1, hb2⟩ | ⟨b, hb1, _⟩
    · exact hb2.le (List.all_eq_true.mp hb b hb1)
    · simp at hb1
  · cases hb

theorem known_end (C : Class) {n : Nat} {t : Nat → Cell} {w : W} (hn : n = 9) (h : Holds t (known C n) w) : Holds t (known C 9) w := hn ▸ h

/-- a certified search from a start on -/
theorem safe_of_certified {C : Class} {F : Fns} (hF : Certified C F) {t : Nat → Cell} (ht : TapeOk C t) {w : W} (h : Holds t between w) :
    Safe C.rel F C.data w := by
  have rounds : ∀ w', Rounds C.rel F C.data w w' → Holds t between w' := by
    intro w' hr
    induction hr with
    | first => exact h
    | next _ hre hend ih =>
      have h2 := search_reaches hF ht 0 _ _ (Nat.zero_le _) (begin_sound C ih) hre
      exact finish_sound C (known_end C (by omega) h2.2)
  intro w' hr st hre
  have h2 := search_reaches hF ht 0 _ _ (Nat.zero_le _) (begin_sound C (rounds w' hr)) hre
  refine ⟨h2.2.some, fun st' hlt hst => (search_step hF ht 0 st hlt h2.2).2 st' hst, fun hend => ?_⟩
  exact (finish_sound C (known_end C (by omega) h2.2)).some

theorem tape_ok {c : Config} {rel : Bool} {t : Nat → Cell} (hm : c.method ≠ METHOD_TWIST → kindOf c ≠ .twist) (h : Excepted c rel t) :
    TapeOk (classOf c rel) t := by
  refine ⟨fun hg => ?_, fun hc => ?_⟩
  · refine h.brainpool ?_
    have : isBrainpool c = true := by simpa [classOf] using hg
    simpa only [isBrainpool, Bool.or_eq_true, beq_iff_eq] using this
  · simp only [classOf, Bool.or_eq_true, beq_iff_eq, iterates, Bool.and_eq_true, bne_iff_ne] at hc
    rcases hc with hc | hc | ⟨⟨h1, h2⟩, h3⟩
    · exact (h.twist (Classical.byContradiction fun hn => hm hn hc)).1
    · exact h.nums hc
    · exact h.family h1 h2 h3

theorem twist_method (c : Config) (h : c.method ≠ METHOD_TWIST) : kindOf c ≠ .twist := by
  unfold kindOf
  split
  · simp
  split
  · simp
  split
  · simp
  · simp
  · simp
  · simp
  · split
    · simp
    · simp

/-! ### The theorem -/

/-- Missing: the executions not in `Excepted`, and the release of the curve after a search that failed; the claim is false for them. -/
theorem no_stale_memory_partial (order : Str → Str) (prime : Str → Bool) (n : Int) (os : List Opt) (c : Config)
    (hacc : commandLine n os = some c) (s : Cli.Setup) (hrun : run order prime c = .search s) (rel : Bool) (t : Nat → Cell)
    (he : Excepted c rel t) (m : Mem) (hm : Start m) (k : Nat) : Safe rel (fns s) c.metadata ⟨some m, t, k⟩ :=
  safe_of_certified (C := classOf c rel)
    (run_certified order prime n os c hacc rel ⟨he.smooth, fun h => (he.twist h).2⟩ s hrun)
    (tape_ok (twist_method c) he) ⟨rfl, m, rfl, hm.rep⟩

/-! ### The claim is false for the rest -/

/-- the searches as they are run in the witnesses -/
def fresh : Mem := ⟨[], [], 0, fun x => if x = .disc then some [] else none, fun _ => 0, .null⟩

theorem fresh_start : Start fresh := ⟨by decide, [], rfl, by simp⟩

/-- a tape with 1 everywhere (loops run once, tests fail) but for some places -/
def tape (l : List (Nat × Cell)) (k : Nat) : Cell := ((l.find? (·.1 == k)).map (·.2)).getD ⟨1, false, false⟩

/-- the setup of a command line -/
def setupOf (os : List Opt) : Option (Cli.Setup × Bool) :=
  match commandLine 3 os with
  | some c =>
    match run id (fun _ => true) c with
    | .search s => some (s, c.metadata)
    | _ => none
  | none => none

/-- the first search -/
def first (rel : Bool) (os : List Opt) (l : List (Nat × Cell)) (fuel : Nat) : Option (Int × St W) :=
  match setupOf os with
  | some (s, _) => loop rel (fns s) 0 9 0 fuel (init 0 (begin' rel ⟨some fresh, tape l, 0⟩))
  | none => none

theorem loop_reaches {rel : Bool} {F : Fns} {fuel : Nat} {st0 st st' : St W} {r : Int} (h0 : Reaches rel F 0 9 0 st0 st)
    (h : loop rel F 0 9 0 fuel st = some (r, st')) :
    (r = 1 ∧ Reaches rel F 0 9 0 st0 st' ∧ 9 ≤ st'.state) ∨
    (r = 0 ∧ ∃ st1, Reaches rel F 0 9 0 st0 st1 ∧ st1.state < 9 ∧ step rel F 0 0 st1 = .inr st') := by
  induction fuel generalizing st with
  | zero =>
    simp only [loop] at h
    split at h
    · cases h
    · cases h; exact Or.inl ⟨rfl, h0, by omega⟩
  | succ fuel ih =>
    simp only [loop] at h
    split at h
    · rename_i hlt
      cases hs : step rel F 0 0 st with
      | inl st1 => rw [hs] at h; exact ih (h0.next hlt hs) h
      | inr st1 => rw [hs] at h; cases h; exact Or.inr ⟨rfl, st, h0, hlt, hs⟩
    · cases h; exact Or.inl ⟨rfl, h0, by omega⟩

/-- a first search that does something undefined -/
theorem unsafe_of_first {rel : Bool} {os : List Opt} {l : List (Nat × Cell)} {fuel : Nat}
    (h : (first rel os l fuel).map (fun r => r.2.w.mem.isNone) = some true) :
    ∃ s d, setupOf os = some (s, d) ∧ ¬ Safe rel (fns s) d ⟨some fresh, tape l, 0⟩ := by
  unfold first at h
  split at h
  · rename_i s d hs
    refine ⟨s, d, hs, fun hsafe => ?_⟩
    cases hl : loop rel (fns s) 0 9 0 fuel (init 0 (begin' rel ⟨some fresh, tape l, 0⟩)) with
    | none => rw [hl] at h; cases h
    | some p =>
      obtain ⟨r, st'⟩ := p
      rw [hl] at h
      have hn : st'.w.mem.isNone = true := by simpa using h
      have hsome : st'.w.mem.isSome = true := by
        rcases loop_reaches .refl hl with ⟨_, h1, _⟩ | ⟨_, st1, h1, h2, h3⟩
        · exact (hsafe _ .first st' h1).1
        · exact (hsafe _ .first st1 h1).2.1 st' h2 h3
      cases hm : st'.w.mem <;> simp [hm] at hn hsome
  · cases h

def zero : Cell := ⟨0, false, false⟩
def cut : Cell := ⟨0, true, false⟩

/-- Twists: the stage of the generators refuses the curve (it is not cyclic); the search goes back to the field and gives back all numbers, but
`curve->order` is still set when the next curve is replaced by its twist, and the order is read (twists.c:24-29). -/
theorem twist_refused_false (rel : Bool) :
    ∃ s d, setupOf [.fp, .random none, .twist, .unique, .arg "16".toList] = some (s, d) ∧
      ¬ Safe rel (fns s) d ⟨some fresh, tape [(13, zero), (65, zero), (68, zero)], 0⟩ := by
  cases rel <;> exact unsafe_of_first (fuel := 30) (by decide +kernel)

/-- Twists: the same after the timer goes off in the stage of the generators -/
theorem twist_timer_false (rel : Bool) :
    ∃ s d, setupOf [.fp, .random none, .twist, .arg "16".toList] = some (s, d) ∧
      ¬ Safe rel (fns s) d ⟨some fresh, tape [(13, zero), (61, cut), (64, zero)], 0⟩ := by
  cases rel <;> exact unsafe_of_first (fuel := 30) (by decide +kernel)

/-- NUMS: the timer goes off between `gunclone(b)` and `b = gclone(bn)` (nums.c:47-48), and the next `b` is computed from the released number -/
theorem nums_timer_false (rel : Bool) :
    ∃ s d, setupOf [.fp, .nums, .arg "16".toList] = some (s, d) ∧
      ¬ Safe rel (fns s) d ⟨some fresh, tape [(51, zero), (55, zero), (59, cut)], 0⟩ := by
  cases rel <;> exact unsafe_of_first (fuel := 30) (by decide +kernel)

/-- Brainpool: if the first prime is not 3 modulo 4, `avma = bbtop` gives back `p` right before `addii(p, gen_1)` (brainpool.c:115-120) -/
theorem brainpool_field_false (rel : Bool) :
    ∃ s d, setupOf [.fp, .brainpool (some (List.replicate 40 'b')), .arg "16".toList] = some (s, d) ∧
      ¬ Safe rel (fns s) d ⟨some fresh, tape [(18, zero), (34, ⟨1, false, true⟩)], 0⟩ := by
  cases rel <;> exact unsafe_of_first (fuel := 30) (by decide +kernel)

/-- smooth orders: the number put into the cache is the one that is there (order.c:88), which is released if `obj_insert_shallow` releases what it
replaces -/
theorem smooth_release_false :
    ∃ s d, setupOf [.fp, .random none, .smooth "5".toList, .arg "16".toList] = some (s, d) ∧
      ¬ Safe true (fns s) d ⟨some fresh, tape [(13, zero)], 0⟩ :=
  unsafe_of_first (fuel := 30) (by decide +kernel)

/-- A search that fails: the field is random, the coefficients are typed; the order is refused, and at the next question the input is at its end.
`curve_free` looks at the old coefficients, which were given back. -/
theorem failure_false (rel : Bool) :
    ∃ s d, setupOf [.fp, .random (some "field".toList), .prime, .arg "16".toList] = some (s, d) ∧
      ¬ SafeFailure rel (fns s) ⟨some fresh, tape [(13, zero), (29, zero), (43, zero), (71, zero), (74, zero), (94, zero)], 0⟩ := by
  have key : ∀ rel, (first rel [.fp, .random (some "field".toList), .prime, .arg "16".toList]
      [(13, zero), (29, zero), (43, zero), (71, zero), (74, zero), (94, zero)] 30).map
        (fun r => (r.1, (call rel Prog.curveFree r.2.w).1.mem.isNone)) = some (0, true) := by
    intro rel
    cases rel <;> decide +kernel
  specialize key rel
  unfold first at key
  split at key
  · rename_i s d hs
    refine ⟨s, d, hs, fun hsafe => ?_⟩
    cases hl : loop rel (fns s) 0 9 0 30 (init 0 (begin' rel ⟨some fresh,
        tape [(13, zero), (29, zero), (43, zero), (71, zero), (74, zero), (94, zero)], 0⟩)) with
    | none => rw [hl] at key; cases key
    | some p =>
      obtain ⟨r, st'⟩ := p
      rw [hl] at key
      simp only [Option.map_some, Option.some.injEq, Prod.mk.injEq] at key
      rcases loop_reaches .refl hl with ⟨h1, _⟩ | ⟨_, st1, h1, h2, h3⟩
      · rw [key.1] at h1; cases h1
      · have := hsafe st1 st' h1 h2 h3
        have hn := key.2
        cases hm : (call rel Prog.curveFree st'.w).1.mem <;> simp [hm] at hn this
  · cases key

/-! ### The theorem is about something -/

/-- the command line and the tape of the witness: a random curve of prime order -/
def metLine : List Opt := [.fp, .random none, .prime, .arg "16".toList]
def metTape : List (Nat × Cell) := [(13, zero), (49, zero), (52, zero)]

/-- a search that is refused once and then ends, and whose curve is printed and released -/
theorem search_met (rel : Bool) :
    ∃ c s, commandLine 3 metLine = some c ∧ run id (fun _ => true) c = .search s ∧ Excepted c rel (tape metTape) ∧ Start fresh ∧
      ∃ st, Reaches rel (fns s) 0 9 0 (init 0 (begin' rel ⟨some fresh, tape metTape, 0⟩)) st ∧ 9 ≤ st.state ∧
        60 < st.w.pos ∧ (finish rel c.metadata st.w).mem.isSome = true := by
  have h : (commandLine 3 metLine).any (fun c => !c.smooth && c.method == 0 && c.seedAlgo == .none && !c.metadata &&
      match run id (fun _ => true) c with
      | .search s => (loop rel (fns s) 0 9 0 30 (init 0 (begin' rel ⟨some fresh, tape metTape, 0⟩))).any fun r =>
          r.1 == 1 && decide (60 < r.2.w.pos) && (finish rel false r.2.w).mem.isSome
      | _ => false) = true := by
    cases rel <;> decide +kernel
  cases hc : commandLine 3 metLine with
  | none => rw [hc] at h; cases h
  | some c =>
    rw [hc] at h
    simp only [Option.any_some, Bool.and_eq_true, Bool.not_eq_true', beq_iff_eq] at h
    obtain ⟨⟨⟨⟨h1, h2⟩, h3⟩, h4⟩, h5⟩ := h
    split at h5
    · rename_i s hs
      refine ⟨c, s, rfl, hs, ?_, fresh_start, ?_⟩
      · refine ⟨fun h => ?_, fun h => ?_, fun h => ?_, fun h => ?_, fun h => ?_⟩
        · rw [h1] at h; cases h
        · rw [h2] at h; cases h
        · rw [h3] at h; cases h
        · rw [h2] at h; cases h
        · rw [h3] at h; rcases h with h | h <;> cases h
      · cases hl : loop rel (fns s) 0 9 0 30 (init 0 (begin' rel ⟨some fresh, tape metTape, 0⟩)) with
        | none => rw [hl] at h5; cases h5
        | some p =>
          obtain ⟨r, st⟩ := p
          rw [hl] at h5
          simp only [Option.any_some, Bool.and_eq_true, beq_iff_eq, decide_eq_true_eq] at h5
          rcases loop_reaches .refl hl with ⟨_, h6, h7⟩ | ⟨h6, _⟩
          · exact ⟨st, h6, h7, h5.1.2, by rw [h4]; exact h5.2⟩
          · rw [h5.1.1] at h6; cases h6
    · cases h5

end Ecgen.Stack
