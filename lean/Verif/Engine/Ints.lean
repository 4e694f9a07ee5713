import Verif.Engine.Reach

/-!
# The search with the `int` of the machine

`Verif.Engine.Model` computes with unbounded numbers. Here the loop is computed with a 32-bit `int`, in which an overflow is undefined
(`none`), and it is shown that none happens: the counters stop at the limit, which is an `int` itself, and are not counted without one.
The generators return at most 2^31 - 10 (the real ones return 1, 0, a negative number above -10 or `INT_MIN`).
-/

namespace Ecgen.Engine

variable {σ : Type}

/-- a value of the type `int` -/
def Fits (x : Int) : Prop := -2147483648 ≤ x ∧ x ≤ 2147483647

instance (x : Int) : Decidable (Fits x) := inferInstanceAs (Decidable (_ ∧ _))

/-- the result of an operation on `int`, undefined if it overflows -/
def chk (x : Int) : Option Int := if Fits x then some x else none

/-- One execution of a stage, exhaustive.c:364-388, where `start_offset - state` is computed as an `int` (line 368). -/
def execStageInt (S : Setup σ) (start s : Nat) (w : σ) (log : List Ev) : Option (σ × Int × List Ev) :=
  match S.gen s w with
  | (w1, .timeout) => (chk ((start : Int) - (s : Int))).map fun d => (w1, d, Ev.gen s .timeout :: log)
  | (w1, .ret d) =>
    some (if 0 < d then runChecks s 0 (S.checks s) w1 d (Ev.gen s (.ret d) :: log) else (w1, d, Ev.gen s (.ret d) :: log))

/-- The cleanup loop, exhaustive.c:412-419: `stack_tops[i - 1]` is read, and `i` is lowered as an `int`. `none` is an overflow or an index
outside of the array. -/
def unrollLoopInt (S : Setup σ) (new : Nat) : Nat → σ → List Ev → Option (σ × List Ev)
  | 0, w, log => some (w, log)
  | i + 1, w, log =>
    if i + 1 > new then
      match S.unroll (i + 1) with
      | some f => (chk (((i + 1 : Nat) : Int) - 1)).bind fun j =>
          if 0 ≤ j ∧ i + 1 < 9 then unrollLoopInt S new i (f w) (Ev.cleanup (i + 1) :: log) else none
      | none => (chk (((i + 1 : Nat) : Int) - 1)).bind fun _ => unrollLoopInt S new i w log
    else some (w, log)

/-- One iteration, exhaustive.c:357-438, with every operation on `int` checked: `state + diff` (390, 394, in this order: the test for `INT_MIN` is
before the second sum, but not before the first), `++gen_tries[state]` (400); the arrays have nine places. -/
def stepInt (S : Setup σ) (start : Nat) (retry : Int) (st : St σ) : Option (St σ ⊕ St σ) :=
  if 9 ≤ st.state then none else
  (execStageInt S start st.state st.w st.log).bind fun r =>
  let diff := r.2.1
  (chk ((st.state : Int) + diff)).bind fun sum =>
  let newState : Int := if sum < start then start else sum
  if diff ≤ 0 then
    if diff = INT_MIN ∨ sum < 0 then some (.inr { st with w := r.1, log := r.2.2 })
    else
      let go (tries : Nat → Nat) : Option (St σ ⊕ St σ) :=
        (unrollLoopInt S newState.toNat st.state r.1 r.2.2).map fun u => .inl { state := newState.toNat, tries := tries, w := u.1, log := u.2 }
      if retry ≠ 0 then
        (chk ((st.tries st.state : Int) + 1)).bind fun tried =>
          let tries := setTries st.tries st.state tried.toNat
          if tried ≥ retry then some (.inr { st with tries := tries, w := r.1, log := r.2.2 }) else go tries
      else go st.tries
  else some (.inl { state := newState.toNat, tries := setTries st.tries st.state 0, w := r.1, log := r.2.2 })

/-- what callbacks return: an `int` not close to its maximum -/
def Moderate (S : Setup σ) : Prop :=
  (∀ s w w' d, S.gen s w = (w', .ret d) → -2147483648 ≤ d ∧ d ≤ 2147483638) ∧
  ∀ s, ∀ c ∈ S.checks s, ∀ w, -2147483648 ≤ (c w).2 ∧ (c w).2 ≤ 2147483638

/-- the counters stay below the limit -/
def Counted (retry : Int) (st : St σ) : Prop := ∀ i, st.tries i = 0 ∨ (st.tries i : Int) < retry

theorem chk_of {x : Int} (h : Fits x) : chk x = some x := if_pos h

theorem runChecks_moderate (s : Nat) : ∀ (i : Nat) (cs : List (σ → σ × Int)) (w : σ) (d : Int) (log : List Ev),
    (∀ c ∈ cs, ∀ w, -2147483648 ≤ (c w).2 ∧ (c w).2 ≤ 2147483638) → -2147483648 ≤ d ∧ d ≤ 2147483638 →
    -2147483648 ≤ (runChecks s i cs w d log).2.1 ∧ (runChecks s i cs w d log).2.1 ≤ 2147483638
  | _, [], _, _, _, _, hd => hd
  | i, c :: cs, w, d, log, hc, hd => by
    unfold runChecks
    simp only
    split
    · exact hc c (by simp) w
    · exact runChecks_moderate s (i + 1) cs _ d _ (fun c' h => hc c' (by simp [h])) hd

theorem execStageInt_eq {S : Setup σ} (hS : Moderate S) {start s : Nat} (hs : start ≤ s) (h9 : s < 9) (w : σ) (log : List Ev) :
    execStageInt S start s w log = some (execStage S start s w log) ∧
    -2147483648 ≤ (execStage S start s w log).2.1 ∧ (execStage S start s w log).2.1 ≤ 2147483638 := by
  unfold execStageInt execStage
  rcases hg : S.gen s w with ⟨w1, _ | _⟩
  · rename_i d
    have hd := hS.1 _ _ _ _ hg
    refine ⟨rfl, ?_⟩
    simp only
    split
    · exact runChecks_moderate _ _ _ _ _ _ (hS.2 s) hd
    · exact hd
  · simp only
    rw [chk_of ⟨by omega, by omega⟩]
    exact ⟨rfl, by omega, by omega⟩

theorem unrollLoopInt_eq (S : Setup σ) (new : Nat) : ∀ (i : Nat) (w : σ) (log : List Ev), i < 9 →
    unrollLoopInt S new i w log = some (unrollLoop S new i w log)
  | 0, _, _, _ => rfl
  | i + 1, w, log, h => by
    unfold unrollLoopInt unrollLoop
    split
    · rw [chk_of ⟨by omega, by omega⟩]
      cases S.unroll (i + 1) with
      | none => exact unrollLoopInt_eq S new i _ _ (by omega)
      | some f =>
        simp only [Option.bind_some]
        rw [if_pos ⟨by omega, h⟩]
        exact unrollLoopInt_eq S new i _ _ (by omega)
    · rfl

theorem stepInt_eq {S : Setup σ} (hS : Moderate S) {start : Nat} {retry : Int} (hr : Fits retry) {st : St σ} (hs : start ≤ st.state)
    (h9 : st.state < 9) (hc : Counted retry st) : stepInt S start retry st = some (step S start retry st) := by
  obtain ⟨e, hlo, hhi⟩ := execStageInt_eq hS hs h9 st.w st.log
  unfold stepInt step
  rw [if_neg (by omega), e]
  simp only [Option.bind_some]
  generalize execStage S start st.state st.w st.log = r at *
  rw [chk_of ⟨by omega, by omega⟩]
  simp only [Option.bind_some]
  have en : (if (st.state : Int) + r.2.1 < start then (start : Int) else st.state + r.2.1) = max ((st.state : Int) + r.2.1) start := by
    split <;> omega
  rw [en]
  by_cases hd : r.2.1 ≤ 0
  · rw [if_pos hd, if_pos hd]
    by_cases hf : r.2.1 = INT_MIN ∨ (st.state : Int) + r.2.1 < 0
    · rw [if_pos hf, if_pos hf]
    · rw [if_neg hf, if_neg hf]
      rw [unrollLoopInt_eq S _ _ _ _ h9]
      by_cases h0 : retry = 0
      · simp [h0]
      · rw [if_pos h0]
        have ht := hc st.state
        have hr2 := hr.2
        rw [chk_of (x := (st.tries st.state : Int) + 1) ⟨by omega, by omega⟩]
        simp only [Option.bind_some, Option.map_some, ne_eq, h0, not_false_eq_true, if_true, true_and]
        have e1 : ((st.tries st.state : Int) + 1).toNat = st.tries st.state + 1 := by omega
        have e2 : ((setTries st.tries st.state (st.tries st.state + 1) st.state : Nat) : Int) = (st.tries st.state : Int) + 1 := by
          simp [setTries]
        rw [e1, e2]
        split <;> rfl
  · rw [if_neg hd, if_neg hd]

theorem step_counted {S : Setup σ} {start : Nat} {retry : Int} {st st' : St σ} (hc : Counted retry st) (h : step S start retry st = .inl st') :
    Counted retry st' := by
  unfold step at h
  simp only at h
  generalize execStage S start st.state st.w st.log = r at *
  by_cases hd : r.2.1 ≤ 0
  · rw [if_pos hd] at h
    by_cases hf : r.2.1 = INT_MIN ∨ (st.state : Int) + r.2.1 < 0
    · rw [if_pos hf] at h
      cases h
    · rw [if_neg hf] at h
      by_cases h0 : retry = 0
      · simp only [h0, ne_eq, not_true_eq_false, false_and, if_false] at h
        cases h
        exact fun i => h0 ▸ hc i
      · simp only [h0, ne_eq, not_false_eq_true, true_and, if_true] at h
        split at h
        · cases h
        · rename_i hlt
          cases h
          intro i
          by_cases hi : i = st.state
          · subst hi
            exact Or.inr (by simpa using hlt)
          · simpa [setTries, hi] using hc i
  · rw [if_neg hd] at h
    cases h
    intro i
    by_cases hi : i = st.state
    · exact Or.inl (by simp [setTries, hi])
    · simpa [setTries, hi] using hc i

/-- the loop with the `int` of the machine: `some none` is a budget that is exhausted, `none` is an overflow -/
def loopInt (S : Setup σ) (start stop : Nat) (retry : Int) : Nat → St σ → Option (Option (Int × St σ))
  | 0, st => some (if st.state < stop then none else some (1, st))
  | fuel + 1, st =>
    if st.state < stop then
      match stepInt S start retry st with
      | none => none
      | some (.inl st') => loopInt S start stop retry fuel st'
      | some (.inr st') => some (some (0, st'))
    else some (some (1, st))

/-- `exhaustive_gen_retry` with the `int` of the machine -/
def genRetryInt (S : Setup σ) (start stop : Nat) (retry : Int) (fuel : Nat) (w : σ) : Option (Option (Int × St σ)) :=
  if start = stop then some (some (2, init start w))
  else if start > stop then some (some (0, init start w))
  else loopInt S start stop retry fuel (init start w)

theorem loopInt_eq {S : Setup σ} (hS : Moderate S) {start stop : Nat} (h9 : stop ≤ 9) {retry : Int} (hr : Fits retry) :
    ∀ (fuel : Nat) (st : St σ), start ≤ st.state → Counted retry st →
      loopInt S start stop retry fuel st = some (loop S start stop retry fuel st)
  | 0, _, _, _ => rfl
  | fuel + 1, st, hs, hc => by
    unfold loopInt loop
    by_cases hlt : st.state < stop
    · rw [if_pos hlt, if_pos hlt, stepInt_eq hS hr hs (by omega) hc]
      cases hst : step S start retry st with
      | inr st' => rfl
      | inl st' =>
        have hge := ((step_inv S start stop retry (fun _ _ => True) (fun _ => True) (fun _ _ _ _ _ _ _ _ => trivial)
          (fun _ _ _ _ _ _ _ _ _ => trivial) (fun _ _ _ _ _ _ _ _ => trivial) st hs hlt trivial).1 st' hst).1
        exact loopInt_eq hS h9 hr fuel st' hge (step_counted hc hst)
    · rw [if_neg hlt, if_neg hlt]

/-- C02: a search computed with the `int` of the machine does what the one with unbounded numbers does, for every limit that is an `int` and
however many failures there are: nothing overflows, the counters of the retries included, and no array is left. -/
theorem search_no_overflow {S : Setup σ} (hS : Moderate S) {start stop : Nat} (h9 : stop ≤ 9) {retry : Int} (hr : Fits retry) (fuel : Nat) (w : σ) :
    genRetryInt S start stop retry fuel w = some (genRetry S start stop retry fuel w) := by
  unfold genRetryInt genRetry
  split
  · rfl
  · split
    · rfl
    · exact loopInt_eq hS h9 hr fuel _ (Nat.le_refl _) (fun _ => Or.inl rfl)

/-- two stages, the second of which always fails, with a validator and cleanups -/
def failing : Setup Nat :=
  ⟨fun s n => (n + 1, .ret (if s = 1 then -1 else 1)), fun s => if s = 0 then [fun n => (n, 1)] else [], fun _ => some id⟩

/-- The conditions are met, and the counter does reach the limit: five failures of the second stage. -/
theorem search_no_overflow_met : Moderate failing ∧ Fits 5 ∧
    (genRetryInt failing 0 2 5 20 0).map (fun r => r.map fun x => (x.1, x.2.tries 1, x.2.w)) = some (some (0, 5, 10)) := by
  refine ⟨⟨fun s w w' d h => ?_, fun s c hc w => ?_⟩, ⟨by decide, by decide⟩, by decide +kernel⟩
  · simp only [failing, Prod.mk.injEq, GenRes.ret.injEq] at h
    have := h.2
    split at this <;> omega
  · simp only [failing] at hc
    split at hc
    · simp only [List.mem_singleton] at hc
      subst hc
      exact ⟨by simp only; omega, by simp only; omega⟩
    · simp at hc

/-- a generator that asks to skip 2^31 - 1 stages -/
def huge : Setup Nat := ⟨fun _ n => (n, .ret 2147483647), fun _ => [], fun _ => none⟩

/-- The condition on the callbacks is needed: a return value close to the maximum overflows at the second stage. -/
theorem search_overflow_huge : (stepInt huge 0 0 ⟨1, fun _ => 0, 0, []⟩).isNone = true := by decide +kernel

end Ecgen.Engine
