import Verif.Engine.Term

/-! Helper lemmas about whole runs of the search. -/

namespace Ecgen.Engine

open Spec

variable {σ : Type}

/-! ## helper: what a finished run satisfies -/

theorem loop_success (S : Setup σ) (start stop : Nat) (retry : Int) :
    ∀ (fuel : Nat) (st st' : St σ) (A : List (Nat × Int)), Inv S start retry st A →
      loop S start stop retry fuel st = some (1, st') →
      ∃ A', Inv S start retry st' A' ∧ stop ≤ st'.state := by
  intro fuel
  induction fuel with
  | zero =>
    intro st st' A h hl
    simp only [loop] at hl
    split at hl
    · simp at hl
    · simp at hl; subst hl; exact ⟨A, h, by omega⟩
  | succ fuel ih =>
    intro st st' A h hl
    simp only [loop] at hl
    split at hl
    · obtain ⟨evs, d, hd, hs⟩ := step_spec S start retry st A h
      revert hl hs
      cases step S start retry st with
      | inl st1 => intro hl hs; exact ih st1 st' _ hs hl
      | inr st1 => intro hl; simp at hl
    · simp at hl; subst hl; exact ⟨A, h, by omega⟩

theorem loop_failure (S : Setup σ) (start stop : Nat) (retry : Int) :
    ∀ (fuel : Nat) (st st' : St σ) (A : List (Nat × Int)), Inv S start retry st A →
      loop S start stop retry fuel st = some (0, st') →
      ∃ L evs s d A', st'.log.reverse = L ++ evs ∧
        History (nChecks S) (hasUnroll S) start L s ∧ s < stop ∧
        Attempts (nChecks S) start (L ++ evs) ((s, d) :: A') ∧
        Failed (nChecks S) start s d evs ∧
        (d = INT_MIN ∨ (s : Int) + d < 0 ∨
          (retry ≠ 0 ∧ retry ≤ (failStreak s ((s, d) :: A') : Int))) := by
  intro fuel
  induction fuel with
  | zero =>
    intro st st' A h hl
    simp only [loop] at hl
    split at hl <;> simp at hl
  | succ fuel ih =>
    intro st st' A h hl
    simp only [loop] at hl
    split at hl
    · rename_i hlt
      obtain ⟨evs, d, hd, hs⟩ := step_spec S start retry st A h
      revert hl hs
      cases step S start retry st with
      | inl st1 => intro hl hs; exact ih st1 st' _ hs hl
      | inr st1 =>
        intro hl hs
        simp only [Option.some.injEq, Prod.mk.injEq, true_and] at hl
        subst hl
        obtain ⟨h1, h2, h3⟩ := hs
        have hf : Failed (nChecks S) start st.state d evs := by
          rcases hd with hd | hd
          · omega
          · exact hd.2
        exact ⟨st.log.reverse, evs, st.state, d, A, h1, h.hist, hlt, Attempts.fail h.att hf, hf, h3⟩
    · simp at hl

/-- Every stage touched so far lies in `[start, stop)`; cleaned-up stages lie above `start`. -/
theorem loop_bounds (S : Setup σ) (start stop : Nat) (retry : Int) :
    ∀ (fuel : Nat) (st st' : St σ) (A : List (Nat × Int)) (res : Int), Inv S start retry st A →
      (∀ e ∈ st.log, start ≤ stageOf e ∧ stageOf e < stop ∧ (∀ s, e = .cleanup s → start < s)) →
      loop S start stop retry fuel st = some (res, st') →
      (∀ e ∈ st'.log, start ≤ stageOf e ∧ stageOf e < stop ∧ (∀ s, e = .cleanup s → start < s)) := by
  intro fuel
  induction fuel with
  | zero =>
    intro st st' A res h hb hl
    simp only [loop] at hl
    split at hl
    · simp at hl
    · simp at hl; obtain ⟨_, rfl⟩ := hl; exact hb
  | succ fuel ih =>
    intro st st' A res h hb hl
    simp only [loop] at hl
    split at hl
    · rename_i hlt
      have hge := history_ge h.hist
      obtain ⟨evs0, d, hd, hs⟩ := step_spec S start retry st A h
      have hstep : ∀ st1, (step S start retry st = .inl st1 ∨ step S start retry st = .inr st1) →
          ∀ e ∈ st1.log, start ≤ stageOf e ∧ stageOf e < stop ∧
            (∀ s, e = .cleanup s → start < s) := by
        intro st1 hst1
        obtain ⟨evs, h1, h2⟩ := execStage_spec S start st.state st.w st.log hge
        have hlog : ∀ e ∈ (execStage S start st.state st.w st.log).2.2,
            start ≤ stageOf e ∧ stageOf e < stop ∧ (∀ s, e = .cleanup s → start < s) := by
          intro e he
          rw [h1] at he
          rcases List.mem_append.1 he with he | he
          · have he' := List.mem_reverse.1 he
            have hse : stageOf e = st.state := by
              rcases h2 with h2 | h2
              · exact accepted_stage h2.2 e he'
              · exact failed_stage h2.2 e he'
            refine ⟨by omega, by omega, ?_⟩
            rintro s rfl
            exfalso
            rcases h2 with ⟨_, cs, rfl, _, hp⟩ | ⟨_, _, ⟨rfl, _⟩ | rfl | ⟨g, cs, rfl, _, hp⟩⟩
            · rcases List.mem_cons.1 he' with hc | hc
              · simp at hc
              · exact allPass_no_cleanup hp s hc
            · simp at he'
            · simp at he'
            · rcases List.mem_cons.1 he' with hc | hc
              · simp at hc
              · exact refused_no_cleanup hp s hc
          · exact hb e he
        unfold step at hst1
        simp only at hst1
        by_cases hd : (execStage S start st.state st.w st.log).2.1 ≤ 0
        · rw [if_pos hd] at hst1
          by_cases hfatal : (execStage S start st.state st.w st.log).2.1 = INT_MIN ∨
              (st.state : Int) + (execStage S start st.state st.w st.log).2.1 < 0
          · rw [if_pos hfatal] at hst1
            simp only [reduceCtorEq, false_or, Sum.inr.injEq] at hst1; subst hst1; exact hlog
          · rw [if_neg hfatal] at hst1
            by_cases hret : retry ≠ 0 ∧ ((if retry ≠ 0 then setTries st.tries st.state
                (st.tries st.state + 1) else st.tries) st.state : Int) ≥ retry
            · rw [if_pos hret] at hst1
              simp only [reduceCtorEq, false_or, Sum.inr.injEq] at hst1; subst hst1; exact hlog
            · rw [if_neg hret] at hst1
              simp only [reduceCtorEq, or_false, Sum.inl.injEq] at hst1
              subst hst1
              intro e he
              simp only [unrollLoop_log] at he
              rcases List.mem_append.1 he with he | he
              · obtain ⟨s, rfl, h3, h4, _⟩ := mem_cleanups (List.mem_reverse.1 he)
                simp only [stageOf]
                refine ⟨by omega, by omega, ?_⟩
                rintro s' ⟨⟩
                omega
              · exact hlog e he
        · rw [if_neg hd] at hst1
          simp only [reduceCtorEq, or_false, Sum.inl.injEq] at hst1
          subst hst1
          exact hlog
      revert hl hs hstep
      cases step S start retry st with
      | inl st1 => intro hl hs hstep; exact ih st1 st' _ res hs (hstep st1 (Or.inl rfl)) hl
      | inr st1 =>
        intro hl hs hstep
        simp only [Option.some.injEq, Prod.mk.injEq] at hl
        obtain ⟨_, rfl⟩ := hl
        exact hstep _ (Or.inr rfl)
    · simp at hl; obtain ⟨_, rfl⟩ := hl; exact hb

theorem runChecks_world (s : Nat) (cs : List (σ → σ × Int)) : ∀ (i : Nat) (w : σ) (d : Int)
    (log : List Ev), 0 < d →
      (0 < (runChecks s i cs w d log).2.1 → (runChecks s i cs w d log).2.1 = d ∧
        Passes cs w (runChecks s i cs w d log).1) ∧
      ((runChecks s i cs w d log).2.1 ≤ 0 →
        Rejects cs w (runChecks s i cs w d log).2.1 (runChecks s i cs w d log).1) := by
  induction cs with
  | nil => intro i w d log hd; simp only [runChecks]; exact ⟨fun _ => ⟨trivial, .nil w⟩, by omega⟩
  | cons c cs ih =>
    intro i w d log hd
    simp only [runChecks]
    split
    · rename_i h
      exact ⟨fun h' => by simp only at h'; omega, fun _ => .here h⟩
    · rename_i h
      obtain ⟨h1, h2⟩ := ih (i + 1) (c w).1 d (.check s i (c w).2 :: log) hd
      exact ⟨fun h' => ⟨(h1 h').1, .cons (by omega) (h1 h').2⟩, fun h' => .later (by omega) (h2 h')⟩

theorem execStage_world (S : Setup σ) (start s : Nat) (w : σ) (log : List Ev) (hs : start ≤ s) :
    (0 < (execStage S start s w log).2.1 →
      Succeeds S s w (execStage S start s w log).2.1 (execStage S start s w log).1) ∧
    ((execStage S start s w log).2.1 ≤ 0 →
      Fails S start s w (execStage S start s w log).2.1 (execStage S start s w log).1) := by
  unfold execStage
  split
  · rename_i w1 h
    exact ⟨fun h' => by simp only at h'; omega, fun _ => Or.inl ⟨h, rfl⟩⟩
  · rename_i w1 d h
    split
    · rename_i hd
      obtain ⟨h1, h2⟩ := runChecks_world s (S.checks s) 0 w1 d (.gen s (.ret d) :: log) hd
      refine ⟨fun h' => ?_, fun h' => ?_⟩
      · obtain ⟨h3, h4⟩ := h1 h'
        exact ⟨w1, by rw [h, h3], by omega, h4⟩
      · exact Or.inr (Or.inr ⟨w1, d, h, hd, h2 h'⟩)
    · rename_i hd
      exact ⟨fun h' => by simp only at h'; omega, fun _ => Or.inr (Or.inl ⟨h, by simpa using hd⟩)⟩

theorem unrollLoop_world (S : Setup σ) (new : Nat) : ∀ (i : Nat) (w : σ) (log : List Ev),
    (unrollLoop S new i w log).1 = cleaned S new i w := by
  intro i
  induction i with
  | zero => intros; rfl
  | succ i ih =>
    intro w log
    unfold unrollLoop cleaned
    split
    · cases h : S.unroll (i + 1) with
      | none => simp [ih]
      | some f => simp [ih]
    · rfl


end Ecgen.Engine
