import Verif.Timer.Model

/-!
# C72: the timer limits each generator, and touches nothing else

Proved for all executions in which the timer does not go off before `sigsetjmp` was called; false without this condition.
-/

namespace Ecgen.Timer

/-! ### Specification -/

/-- the signal arrives -/
def Signal (s s' : S) : Prop := s.pc ≠ .lost ∧ (∃ d, s.deadline = some d ∧ d ≤ s.now) ∧ s' = handle { s with deadline := none }

/-- the state but for the timer -/
def Untouched (s s' : S) : Prop := s' = { s with deadline := none }

/-! ### Invariant -/

/-- a timer is set: to which moment -/
def Armed (n : Nat) (s : S) : Prop := ∃ d, s.deadline = some d ∧ s.began + n ≤ d ∧ s.now ≤ d

structure Inv (n : Nat) (s : S) : Prop where
  lost : s.pc ≠ .lost
  time : s.began ≤ s.now
  idle : s.pc = .outside ∨ s.pc = .top ∨ s.pc = .rest → s.inside = false ∧ s.deadline = none ∧ s.timers = 0
  created : s.pc = .created → n ≠ 0 ∧ s.inside = false ∧ s.deadline = none ∧ s.timers = 1
  armed : s.pc = .armed → n ≠ 0 ∧ s.inside = false ∧ s.timers = 1 ∧ ∃ d, s.deadline = some d ∧ s.began + n ≤ d ∧ d ≤ s.now + n ∧ s.now ≤ d
  flagged : s.pc = .flagged → n ≠ 0 ∧ s.inside = true ∧ s.timers = 1 ∧ ∃ d, s.deadline = some d ∧ s.began + n ≤ d ∧ d ≤ s.now + n ∧ s.now ≤ d
  gen : s.pc = .gen → s.genBegan ≤ s.now ∧ (n = 0 ∧ s.inside = false ∧ s.deadline = none ∧ s.timers = 0 ∨
    n ≠ 0 ∧ s.inside = true ∧ s.timers = 1 ∧ s.buf = some (s.call, s.round) ∧
      ∃ d, s.deadline = some d ∧ s.began + n ≤ d ∧ d ≤ s.genBegan + n ∧ s.now ≤ d)
  stop : s.pc = .stop → n = 0 ∧ s.inside = false ∧ s.deadline = none ∧ s.timers = 0 ∧ s.last = .finished ∨
    n ≠ 0 ∧ s.inside = true ∧ s.timers = 1 ∧ s.buf = some (s.call, s.round) ∧ (s.last = .timedOut → s.began + n ≤ s.now) ∧
      ∀ d, s.deadline = some d → s.began + n ≤ d ∧ s.now ≤ d
  cleared : s.pc = .cleared → n ≠ 0 ∧ s.inside = false ∧ s.timers = 1
  none : n = 0 → s.last = .finished

theorem inv_prog {n : Nat} {s s' : S} (h : Prog n s s') (i : Inv n s) : Inv n s' := by
  obtain ⟨h1, h2, h3, h4, h5, h6, h7, h8, h9, h10⟩ := i
  cases h with
  | enter e => constructor <;> simp_all
  | create e hn => constructor <;> simp_all
  | skip e hn => constructor <;> simp_all
  | set e => constructor <;> simp_all
  | flag e => constructor <;> simp_all
  | jump e =>
    obtain ⟨hn, hi, ht, d, hd, hb, hdn, hnd⟩ := h6 e
    constructor <;> simp_all
  | done e =>
    rcases h7 e with ⟨_, ⟨hn, hi, hd, ht⟩ | ⟨hn, hi, ht, hb, d, hd, h11, h12, h13⟩⟩
    · constructor <;> simp_all
    · constructor <;> simp_all
  | clear e hi =>
    rcases h8 e with ⟨hn, hi', _⟩ | ⟨hn, hi', ht, _⟩
    · simp_all
    · constructor <;> simp_all
  | pass e hi =>
    rcases h8 e with ⟨hn, hi', hd, ht, _⟩ | ⟨hn, hi', ht, _⟩
    · constructor <;> simp_all
    · simp_all
  | delete e =>
    obtain ⟨hn, hi, ht⟩ := h9 e
    constructor <;> simp_all
  | next e => constructor <;> simp_all
  | leave e => constructor <;> simp_all

theorem inv_signal {n : Nat} {s : S} {d : Nat} (i : Inv n s) (hd : s.deadline = some d) (hle : d ≤ s.now)
    (hp : ¬ ((s.pc = .armed ∨ s.pc = .flagged) ∧ ∃ d, s.deadline = some d ∧ d ≤ s.now)) : Inv n (handle { s with deadline := none }) := by
  obtain ⟨h1, h2, h3, h4, h5, h6, h7, h8, h9, h10⟩ := i
  have hpc : s.pc ≠ .armed ∧ s.pc ≠ .flagged :=
    ⟨fun h => hp ⟨Or.inl h, d, hd, hle⟩, fun h => hp ⟨Or.inr h, d, hd, hle⟩⟩
  cases hc : s.pc with
  | outside => simp_all
  | top => simp_all
  | created => simp_all
  | armed => exact absurd hc hpc.1
  | flagged => exact absurd hc hpc.2
  | gen =>
    rcases h7 hc with ⟨_, ⟨hn, hi, hd', ht⟩ | ⟨hn, hi, ht, hb, d', hd', h11, h12, h13⟩⟩
    · simp_all
    · have : d' = d := by simp_all
      subst this
      unfold handle
      simp only [hi, hb, if_true]
      constructor <;> simp_all
      omega
  | stop =>
    rcases h8 hc with ⟨hn, hi, hd', _⟩ | ⟨hn, hi, ht, hb, _, hdd⟩
    · simp_all
    · have := hdd d hd
      unfold handle
      simp only [hi, hb, if_true]
      constructor <;> simp_all
      omega
  | cleared =>
    obtain ⟨hn, hi, ht⟩ := h9 hc
    unfold handle
    simp only [hi]
    constructor <;> simp_all
  | rest => simp_all
  | lost => exact absurd hc h1

theorem inv_tick {n : Nat} {s : S} (i : Inv n s) (h : ∀ d, s.deadline = some d → s.now < d) : Inv n { s with now := s.now + 1 } := by
  obtain ⟨h1, h2, h3, h4, h5, h6, h7, h8, h9, h10⟩ := i
  refine ⟨h1, Nat.le_succ_of_le h2, h3, h4, fun e => ?_, fun e => ?_, fun e => ?_, fun e => ?_, h9, h10⟩
  · obtain ⟨hn, hi, ht, d, hd, hb, hdn, hnd⟩ := h5 e
    have := h d hd
    exact ⟨hn, hi, ht, d, hd, hb, by simp only; omega, this⟩
  · obtain ⟨hn, hi, ht, d, hd, hb, hdn, hnd⟩ := h6 e
    have := h d hd
    exact ⟨hn, hi, ht, d, hd, hb, by simp only; omega, this⟩
  · rcases h7 e with ⟨hg, h0 | ⟨hn, hi, ht, hb, d, hd, h11, h12, h13⟩⟩
    · exact ⟨Nat.le_succ_of_le hg, Or.inl h0⟩
    · exact ⟨Nat.le_succ_of_le hg, Or.inr ⟨hn, hi, ht, hb, d, hd, h11, h12, h d hd⟩⟩
  · rcases h8 e with h0 | ⟨hn, hi, ht, hb, hl, hdd⟩
    · exact Or.inl h0
    · exact Or.inr ⟨hn, hi, ht, hb, fun h' => Nat.le_succ_of_le (hl h'), fun d hd => ⟨(hdd d hd).1, h d hd⟩⟩

theorem inv_prompt {n : Nat} {s : S} (h : Prompt n s) : Inv n s := by
  induction h with
  | init => constructor <;> simp [init]
  | step _ hs hp ih =>
    cases hs with
    | prog h => exact inv_prog h ih
    | signal _ hd hle => exact inv_signal ih hd hle hp
    | tick h => exact inv_tick ih h

/-! ### The theorems -/

/-- No jump goes anywhere but to the present iteration of the present search. Missing: executions in which the timer goes off before `sigsetjmp` was
called. -/
theorem no_stale_jump_partial (n : Nat) (s : S) (h : Prompt n s) : s.pc ≠ .lost := (inv_prompt h).lost

/-- No generator runs for longer than the time given. Missing: as above. -/
theorem generator_limited_partial (n : Nat) (hn : n ≠ 0) (s : S) (h : Prompt n s) (hg : s.pc = .gen) : s.now ≤ s.genBegan + n := by
  rcases (inv_prompt h).gen hg with ⟨_, ⟨h0, _⟩ | ⟨_, _, _, _, d, _, _, h1, h2⟩⟩
  · exact absurd h0 hn
  · omega

/-- A generator is cut off only if its iteration has taken the time given. Missing: as above. -/
theorem not_cut_early_partial (n : Nat) (s : S) (h : Prompt n s) (hs : s.pc = .stop) (hl : s.last = .timedOut) : s.began + n ≤ s.now := by
  rcases (inv_prompt h).stop hs with ⟨_, _, _, _, h0⟩ | ⟨_, _, _, _, h0, _⟩
  · rw [h0] at hl; cases hl
  · exact h0 hl

/-- The signal ends the generator it was meant for, in the same iteration, or does nothing: it interrupts no check, no cleanup function and nothing
outside the search. Missing: as above. -/
theorem signal_effect_partial (n : Nat) (s s' : S) (h : Prompt n s) (hp : s.pc ≠ .armed ∧ s.pc ≠ .flagged) (hs : Signal s s') :
    (s.pc = .gen ∨ s.pc = .stop) ∧ s'.pc = .stop ∧ s'.last = .timedOut ∧ s'.call = s.call ∧ s'.round = s.round ∨
    s.pc = .cleared ∧ Untouched s s' := by
  obtain ⟨_, ⟨d, hd, hle⟩, rfl⟩ := hs
  have i := inv_prompt h
  cases hc : s.pc with
  | outside => have := i.idle (by simp [hc]); simp_all
  | top => have := i.idle (by simp [hc]); simp_all
  | created => have := i.created hc; simp_all
  | armed => exact absurd hc hp.1
  | flagged => exact absurd hc hp.2
  | gen =>
    rcases i.gen hc with ⟨_, ⟨_, _, h0, _⟩ | ⟨hn, hi, ht, hb, _⟩⟩
    · simp_all
    · exact Or.inl (by simp [handle, hi, hb])
  | stop =>
    rcases i.stop hc with ⟨_, _, h0, _⟩ | ⟨hn, hi, ht, hb, _⟩
    · simp_all
    · exact Or.inl (by simp [handle, hi, hb])
  | cleared =>
    have := i.cleared hc
    exact Or.inr ⟨rfl, by simp [Untouched, handle, this.2.1, hc]⟩
  | rest => have := i.idle (by simp [hc]); simp_all
  | lost => exact absurd hc i.lost

/-- Without a time limit nothing is cut off. -/
theorem no_limit_no_cut (s : S) (h : Prompt 0 s) : s.last = .finished ∧ s.deadline = none := by
  have i := inv_prompt h
  refine ⟨i.none rfl, ?_⟩
  cases hc : s.pc with
  | outside => exact (i.idle (by simp [hc])).2.1
  | top => exact (i.idle (by simp [hc])).2.1
  | created => exact absurd rfl (i.created hc).1
  | armed => exact absurd rfl (i.armed hc).1
  | flagged => exact absurd rfl (i.flagged hc).1
  | gen =>
    rcases i.gen hc with ⟨_, ⟨_, _, h0, _⟩ | ⟨h0, _⟩⟩
    · exact h0
    · exact absurd rfl h0
  | stop =>
    rcases i.stop hc with ⟨_, _, h0, _⟩ | ⟨h0, _⟩
    · exact h0
    · exact absurd rfl h0
  | cleared => exact absurd rfl (i.cleared hc).1
  | rest => exact (i.idle (by simp [hc])).2.1
  | lost => exact absurd hc i.lost

/-- There is never more than one timer, and none outside the macros and the generator. -/
theorem timers_deleted (n : Nat) (s : S) (h : Prompt n s) :
    s.timers ≤ 1 ∧ (s.pc = .outside ∨ s.pc = .top ∨ s.pc = .rest → s.timers = 0 ∧ s.deadline = none) := by
  have i := inv_prompt h
  refine ⟨?_, fun h => ⟨(i.idle h).2.2, (i.idle h).2.1⟩⟩
  cases hc : s.pc with
  | outside => have := i.idle (by simp [hc]); omega
  | top => have := i.idle (by simp [hc]); omega
  | created => have := i.created hc; omega
  | armed => have := i.armed hc; omega
  | flagged => have := i.flagged hc; omega
  | gen => rcases i.gen hc with ⟨_, h | h⟩ <;> omega
  | stop => rcases i.stop hc with h | h <;> omega
  | cleared => have := i.cleared hc; omega
  | rest => have := i.idle (by simp [hc]); omega
  | lost => exact absurd hc i.lost

/-- Time goes on in every state: the limits do not come from the model standing still. -/
theorem time_passes (n : Nat) (s : S) (h : Runs n s) (hl : s.pc ≠ .lost) : ∃ s', Runs n s' ∧ (s'.pc = .lost ∨ s'.now = s.now + 1) := by
  by_cases hd : ∀ d, s.deadline = some d → s.now < d
  · exact ⟨_, h.step (.tick hd), Or.inr rfl⟩
  · have : ∃ d, s.deadline = some d ∧ d ≤ s.now := by
      apply Classical.byContradiction
      intro hn
      exact hd fun d h1 => by
        apply Classical.byContradiction
        intro h2
        exact hn ⟨d, h1, by omega⟩
    obtain ⟨d, h1, h2⟩ := this
    have hs := h.step (.signal hl h1 h2)
    have hnone : ∀ x, (handle { s with deadline := none }).deadline = some x → (handle { s with deadline := none }).now < x := by
      intro x hx
      unfold handle at hx
      split at hx
      · split at hx <;> cases hx
      · cases hx
    have hnow : (handle { s with deadline := none }).now = s.now := by
      unfold handle
      split
      · split <;> rfl
      · rfl
    exact ⟨_, hs.step (.tick hnone), Or.inr (by simp only [hnow])⟩

/-! ### The claim is false in general -/

/-- waiting -/
theorem wait {n : Nat} {s : S} (h : Runs n s) (k : Nat) (hd : ∀ d, s.deadline = some d → s.now + k ≤ d) : Runs n { s with now := s.now + k } := by
  induction k with
  | zero => exact h
  | succ k ih =>
    have h1 := ih fun d h' => by have := hd d h'; omega
    exact h1.step (.tick (s := { s with now := s.now + k }) fun d h' => by have := hd d h'; simp only; omega)

theorem wait_prompt {n : Nat} {s : S} (h : Prompt n s) (k : Nat) (hd : ∀ d, s.deadline = some d → s.now + k ≤ d)
    (hp : s.pc ≠ .armed ∧ s.pc ≠ .flagged) : Prompt n { s with now := s.now + k } := by
  induction k with
  | zero => exact h
  | succ k ih =>
    have h1 := ih fun d h' => by have := hd d h'; omega
    refine h1.step (.tick (s := { s with now := s.now + k }) fun d h' => by have := hd d h'; simp only; omega) ?_
    rintro ⟨h2 | h2, _⟩
    · exact hp.1 h2
    · exact hp.2 h2

/-- the timer has just been set in the first iteration of the first search -/
theorem runs_armed (n : Nat) (hn : n ≠ 0) : Runs n ⟨0, .armed, 1, 0, false, none, some n, 1, 0, 0, .finished⟩ := by
  have h := ((Runs.init (n := n)).step (.prog (.enter rfl))).step (.prog (.create rfl hn))
  have h2 := h.step (.prog (.set rfl))
  simpa [init] using h2

/-- If the process is held up for the time given between `timeout_in = true` and the first `sigsetjmp`, the handler jumps to a place that was never
set. -/
theorem stale_jump_false (n : Nat) (hn : n ≠ 0) : ∃ s, Runs n s ∧ s.pc = .lost := by
  have h := wait ((runs_armed n hn).step (.prog (.flag rfl))) n (by simp)
  exact ⟨_, h.step (.signal (by simp) rfl (by simp)), by simp [handle]⟩

/-- the first search has ended -/
theorem runs_rest (n : Nat) (hn : n ≠ 0) : Runs n ⟨0, .rest, 1, 0, false, some (1, 0), none, 0, 0, 0, .finished⟩ := by
  have h := ((runs_armed n hn).step (.prog (.flag rfl))).step (.prog (.jump rfl))
  have h2 := ((h.step (.prog (.done rfl))).step (.prog (.clear rfl rfl))).step (.prog (.delete rfl))
  simpa using h2

/-- The same in a second search: the handler jumps into the first one, which has returned. -/
theorem returned_jump_false (n : Nat) (hn : n ≠ 0) : ∃ s, Runs n s ∧ s.pc = .lost ∧ s.call = 2 ∧ s.buf = some (1, 0) := by
  have h := (((runs_rest n hn).step (.prog (.leave rfl))).step (.prog (.enter rfl))).step (.prog (.create rfl hn))
  have h2 := (h.step (.prog (.set rfl))).step (.prog (.flag rfl))
  have h3 := wait h2 n (by simp)
  exact ⟨_, h3.step (.signal (by simp) rfl (by simp)), by simp [handle]⟩

/-- If it is held up before `timeout_in = true`, the signal is lost and the generator runs without a limit. -/
theorem generator_unlimited_false (n : Nat) (hn : n ≠ 0) (k : Nat) : ∃ s, Runs n s ∧ s.pc = .gen ∧ s.genBegan + k ≤ s.now := by
  have h := wait (runs_armed n hn) n (by simp)
  have h2 := h.step (.signal (by simp) rfl (by simp))
  have h3 := (h2.step (.prog (.flag (by simp [handle])))).step (.prog (.jump rfl))
  have h4 := wait h3 k (by simp [handle])
  exact ⟨_, h4, rfl, by simp⟩

/-! ### The theorems are about something -/

/-- the generator of an iteration runs -/
theorem prompt_gen (n : Nat) (hn : n ≠ 0) : Prompt n ⟨0, .gen, 1, 0, true, some (1, 0), some n, 1, 0, 0, .finished⟩ := by
  have h := ((Prompt.init (n := n)).step (.prog (.enter rfl)) (by simp [init])).step (.prog (.create rfl hn)) (by simp)
  have h2 := ((h.step (.prog (.set rfl)) (by simp)).step (.prog (.flag rfl)) (by simp [init]; omega)).step (.prog (.jump rfl)) (by simp [init]; omega)
  simpa [init] using h2

/-- a generator that takes all the time is cut off then, and the search goes on with another iteration -/
theorem cut_met (n : Nat) (hn : n ≠ 0) :
    (∃ s s', Prompt n s ∧ Signal s s' ∧ s.pc = .gen ∧ s.now = n ∧ s'.pc = .stop ∧ s'.last = .timedOut ∧ Prompt n s') ∧
    ∃ s, Prompt n s ∧ s.round = 1 ∧ s.pc = .top ∧ s.last = .timedOut ∧ s.timers = 0 := by
  have h := wait_prompt (prompt_gen n hn) n (by simp) (by simp)
  have hs : Step n { (⟨0, .gen, 1, 0, true, some (1, 0), some n, 1, 0, 0, .finished⟩ : S) with now := 0 + n }
      ⟨0 + n, .stop, 1, 0, true, some (1, 0), none, 1, 0, 0, .timedOut⟩ := by
    have := Step.signal (n := n) (s := { (⟨0, .gen, 1, 0, true, some (1, 0), some n, 1, 0, 0, .finished⟩ : S) with now := 0 + n }) (d := n)
      (by simp) rfl (by simp)
    simpa [handle] using this
  have h2 := h.step hs (by simp)
  refine ⟨⟨_, _, h, ⟨by simp, ⟨n, rfl, by simp⟩, ?_⟩, rfl, by simp, rfl, rfl, h2⟩, ?_⟩
  · simp [handle]
  · have h3 := (h2.step (.prog (.clear rfl rfl)) (by simp)).step (.prog (.delete rfl)) (by simp)
    exact ⟨_, h3.step (.prog (.next rfl)) (by simp), rfl, rfl, rfl, rfl⟩

end Ecgen.Timer
