import Verif.Engine.Run

/-!
# Properties C01, C02, C03: the staged curve search
-/

namespace Ecgen.Engine

open Spec

variable {σ : Type}

/-- **C01.** When the search reports success, every requested stage is up to date: it (or an earlier
stage that jumped over it) was accepted by its generator and by every one of its validators, and
after that moment only later stages were touched, so its value was neither recomputed nor cleaned
up, nor were the values of the stages it was computed from. -/
theorem search_success_current (S : Setup σ) (start stop : Nat) (retry : Int) (fuel : Nat) (w : σ)
    (st : St σ) (h : genRetry S start stop retry fuel w = some (1, st)) :
    ∀ s, start ≤ s → s < stop → Current (nChecks S) st.log.reverse s := by
  unfold genRetry at h
  split at h
  · simp at h
  · split at h
    · simp at h
    · obtain ⟨A, hI, hs⟩ := loop_success S start stop retry fuel _ st _ (inv_init S start retry w) h
      intro s h1 h2
      exact history_current hI.hist s h1 (by omega)

/-- **C01**, invariant rule. A predicate indexed by the current stage that accepted stages carry
forward and that failed stages followed by the cleanups carry back holds at the end of a
successful search. -/
theorem search_success_invariant (S : Setup σ) (start stop : Nat) (retry : Int)
    (P : Nat → σ → Prop)
    (hok : ∀ s w d w', start ≤ s → s < stop → P s w → Succeeds S s w d w' → P (s + d.toNat) w')
    (hback : ∀ s w d w', start ≤ s → s < stop → P s w → Fails S start s w d w' →
      0 ≤ (s : Int) + d →
      P (max ((s : Int) + d).toNat start) (cleaned S (max ((s : Int) + d).toNat start) s w'))
    (fuel : Nat) (w : σ) (st : St σ) (hw : P start w)
    (h : genRetry S start stop retry fuel w = some (1, st)) :
    stop ≤ st.state ∧ P st.state st.w := by
  unfold genRetry at h
  split at h
  · simp at h
  split at h
  · simp at h
  have main : ∀ (fuel : Nat) (st st' : St σ), start ≤ st.state → P st.state st.w →
      loop S start stop retry fuel st = some (1, st') → stop ≤ st'.state ∧ P st'.state st'.w := by
    intro fuel
    induction fuel with
    | zero =>
      intro st st' hge hP hl
      simp only [loop] at hl
      split at hl
      · simp at hl
      · simp at hl; subst hl; exact ⟨by omega, hP⟩
    | succ fuel ih =>
      intro st st' hge hP hl
      simp only [loop] at hl
      split at hl
      · rename_i hlt
        have hex := execStage_world S start st.state st.w st.log hge
        revert hl
        unfold step
        simp only
        by_cases hd : (execStage S start st.state st.w st.log).2.1 ≤ 0
        · rw [if_pos hd]
          by_cases hfatal : (execStage S start st.state st.w st.log).2.1 = INT_MIN ∨
              (st.state : Int) + (execStage S start st.state st.w st.log).2.1 < 0
          · rw [if_pos hfatal]; simp
          · rw [if_neg hfatal]
            by_cases hret : retry ≠ 0 ∧ ((if retry ≠ 0 then setTries st.tries st.state
                (st.tries st.state + 1) else st.tries) st.state : Int) ≥ retry
            · rw [if_pos hret]; simp
            · rw [if_neg hret]
              intro hl
              refine ih _ st' ?_ ?_ hl
              · simp only; omega
              · simp only
                rw [unrollLoop_world]
                have e : (max ((st.state : Int) + (execStage S start st.state st.w st.log).2.1)
                    (start : Int)).toNat = max ((st.state : Int) +
                      (execStage S start st.state st.w st.log).2.1).toNat start := by omega
                rw [e]
                exact hback _ _ _ _ hge hlt hP (hex.2 hd) (by omega)
        · rw [if_neg hd]
          intro hl
          refine ih _ st' ?_ ?_ hl
          · simp only; omega
          · simp only
            have e : (max ((st.state : Int) + (execStage S start st.state st.w st.log).2.1)
                (start : Int)).toNat = st.state +
                  ((execStage S start st.state st.w st.log).2.1).toNat := by omega
            rw [e]
            exact hok _ _ _ _ hge hlt hP (hex.1 (by omega))
      · simp at hl; subst hl; exact ⟨by omega, hP⟩
  exact main fuel _ st (Nat.le_refl _) hw h

/-- **C02.** With a positive retry limit `r` the search over the stages `start..stop` returns after
at most `(r+1)^(stop-start)` stage executions, whatever the callbacks do. -/
theorem search_terminates (S : Setup σ) (start stop r fuel : Nat) (hr : 0 < r)
    (hf : (r + 1) ^ (stop - start) ≤ fuel) (w : σ) :
    (genRetry S start stop (r : Int) fuel w).isSome := by
  unfold genRetry
  split
  · rfl
  · split
    · rfl
    · apply loop_terminates
      · exact Nat.le_refl _
      · intro s; exact hr
      · have := digits_lt (b := r + 1) (f := budget start r (init start w))
          (fun i => by unfold budget; split <;> omega) (stop - start)
        omega

/-- **C03**, reasons for failure. A search over a non-empty range that reports failure ends with a
failed attempt at a stage of the range which was fatal, or asked to go back before stage 0, or was
at least the `retry`-th failure of that stage since its last success. -/
theorem search_failure_reason (S : Setup σ) (start stop : Nat) (retry : Int) (fuel : Nat) (w : σ)
    (st : St σ) (hlt : start < stop) (h : genRetry S start stop retry fuel w = some (0, st)) :
    ∃ L evs s d A, st.log.reverse = L ++ evs ∧
      History (nChecks S) (hasUnroll S) start L s ∧ start ≤ s ∧ s < stop ∧
      Attempts (nChecks S) start (L ++ evs) ((s, d) :: A) ∧
      Failed (nChecks S) start s d evs ∧
      (d = -2147483648 ∨ (s : Int) + d < 0 ∨
        (retry ≠ 0 ∧ retry ≤ (failStreak s ((s, d) :: A) : Int))) := by
  unfold genRetry at h
  rw [if_neg (by omega), if_neg (by omega)] at h
  obtain ⟨L, evs, s, d, A, h1, h2, h3, h4, h5, h6⟩ :=
    loop_failure S start stop retry fuel _ st _ (inv_init S start retry w) h
  exact ⟨L, evs, s, d, A, h1, h2, history_ge h2, h3, h4, h5, h6⟩

/-- **C03**, without a retry limit (the way curves are generated in the normal mode) only a fatal
verdict or one that asks to go back before stage 0 makes the search fail. -/
theorem search_no_limit_failure (S : Setup σ) (start stop fuel : Nat) (w : σ)
    (st : St σ) (hlt : start < stop) (h : gen S start stop fuel w = some (0, st)) :
    ∃ L evs s d, st.log.reverse = L ++ evs ∧
      History (nChecks S) (hasUnroll S) start L s ∧ Failed (nChecks S) start s d evs ∧
      (d = -2147483648 ∨ (s : Int) + d < 0) := by
  obtain ⟨L, evs, s, d, A, h1, h2, _, _, _, h5, h6⟩ :=
    search_failure_reason S start stop 0 fuel w st hlt h
  refine ⟨L, evs, s, d, h1, h2, h5, ?_⟩
  rcases h6 with h6 | h6 | h6
  · exact Or.inl h6
  · exact Or.inr h6
  · exact absurd rfl h6.1

/-- **C03**, shape of the whole history of a successful search: it is legal in the sense of
`Spec.History`, that is each failed attempt is followed by exactly the cleanups of the abandoned
stages, latest first, and each accepted attempt by none. -/
theorem search_success_history (S : Setup σ) (start stop : Nat) (retry : Int) (fuel : Nat) (w : σ)
    (st : St σ) (h : genRetry S start stop retry fuel w = some (1, st)) :
    History (nChecks S) (hasUnroll S) start st.log.reverse st.state ∧ stop ≤ st.state := by
  unfold genRetry at h
  split at h
  · simp at h
  · split at h
    · simp at h
    · obtain ⟨A, hI, hs⟩ := loop_success S start stop retry fuel _ st _ (inv_init S start retry w) h
      exact ⟨hI.hist, hs⟩

/-- **C03**, the search never touches a stage outside `[start, stop)` and never cleans up the start
stage or anything before it. -/
theorem search_stays_in_range (S : Setup σ) (start stop : Nat) (retry : Int) (fuel : Nat) (w : σ)
    (res : Int) (st : St σ) (h : genRetry S start stop retry fuel w = some (res, st)) :
    ∀ e ∈ st.log, start ≤ stageOf e ∧ stageOf e < stop ∧ (∀ s, e = .cleanup s → start < s) := by
  unfold genRetry at h
  split at h
  · simp at h; obtain ⟨_, rfl⟩ := h; simp [init]
  · split at h
    · simp at h; obtain ⟨_, rfl⟩ := h; simp [init]
    · exact loop_bounds S start stop retry fuel _ st _ res (inv_init S start retry w)
        (by simp [init]) h

/-- The return value is 0, 1 or 2, and 2 exactly for an empty range. -/
theorem search_result_values (S : Setup σ) (start stop : Nat) (retry : Int) (fuel : Nat) (w : σ)
    (res : Int) (st : St σ) (h : genRetry S start stop retry fuel w = some (res, st)) :
    (res = 0 ∨ res = 1 ∨ res = 2) ∧ (res = 2 ↔ start = stop) := by
  have hl : ∀ fuel (s0 : St σ), loop S start stop retry fuel s0 = some (res, st) →
      res = 0 ∨ res = 1 := by
    intro fuel
    induction fuel with
    | zero => intro s0 h; simp only [loop] at h; split at h <;> simp at h; exact Or.inr h.1.symm
    | succ n ih =>
      intro s0 h
      simp only [loop] at h
      split at h
      · split at h
        · exact ih _ h
        · simp at h; exact Or.inl h.1.symm
      · simp at h; exact Or.inr h.1.symm
  unfold genRetry at h
  split at h
  · rename_i he
    simp at h; exact ⟨by omega, by omega⟩
  · split at h
    · simp at h; exact ⟨by omega, by omega⟩
    · have := hl _ _ h
      exact ⟨by omega, by omega⟩

/-! ## Non-vacuity: a concrete search that backtracks over two stages, cleans up and succeeds -/

/-- Stage 2 fails once with `-2`, then everything succeeds; stage 1 has a validator refusing the
first time. The world counts callback calls. -/
def demo : Setup Nat where
  gen s w := (w + 1, .ret (if s = 2 ∧ w < 6 then -2 else 1))
  checks s := if s = 1 then [fun w => (w + 1, if w < 3 then 0 else 1)] else []
  unroll s := if s = 2 then some id else none

example : (genRetry demo 0 3 0 30 0).map (fun r => (r.1, r.2.log.reverse)) =
    some (1, [.gen 0 (.ret 1), .gen 1 (.ret 1), .check 1 0 0, .gen 1 (.ret 1), .check 1 0 1,
      .gen 2 (.ret (-2)), .cleanup 2, .gen 0 (.ret 1), .gen 1 (.ret 1), .check 1 0 1,
      .gen 2 (.ret 1)]) := by decide

/-- A search that never succeeds: the retry limit 3 is reached, so the bound of C02 is about a run
that does fail, and the failure theorem applies. -/
def hopeless : Setup Nat where
  gen s w := (w + 1, .ret (if s = 1 then -1 else 1))
  checks _ := []
  unroll _ := none

example : (genRetry hopeless 0 2 3 16 0).map (fun r => (r.1, r.2.log.length)) = some (0, 6) := by
  decide
example : (gen hopeless 0 2 20 0).isNone := by decide

end Ecgen.Engine
