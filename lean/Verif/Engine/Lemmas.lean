import Verif.Engine.Spec

namespace Ecgen.Engine

open Spec

variable {σ : Type}

/-- number of validators per stage -/
def nChecks (S : Setup σ) (s : Nat) : Nat := (S.checks s).length
/-- which stages have a cleanup -/
def hasUnroll (S : Setup σ) (s : Nat) : Bool := (S.unroll s).isSome

theorem runChecks_spec (s : Nat) (cs : List (σ → σ × Int)) : ∀ (i : Nat) (w : σ) (d : Int)
    (log : List Ev), 0 < d →
    ∃ evs, (runChecks s i cs w d log).2.2 = evs.reverse ++ log ∧
      (((runChecks s i cs w d log).2.1 = d ∧ AllPass s (i + cs.length) i evs) ∨
       ((runChecks s i cs w d log).2.1 ≤ 0 ∧
         Refused s (i + cs.length) (runChecks s i cs w d log).2.1 i evs)) := by
  induction cs with
  | nil => intro i w d log hd; exact ⟨[], by simp [runChecks, AllPass]⟩
  | cons c cs ih =>
    intro i w d log hd
    simp only [runChecks]
    split
    · rename_i h
      refine ⟨[.check s i (c w).2], by simp, Or.inr ⟨h, ?_⟩⟩
      simp [Refused, h]
    · rename_i h
      obtain ⟨evs, h1, h2⟩ := ih (i + 1) (c w).1 d (.check s i (c w).2 :: log) hd
      refine ⟨.check s i (c w).2 :: evs, by simp [h1], ?_⟩
      have e : i + 1 + cs.length = i + (cs.length + 1) := by omega
      rw [e] at h2
      rcases h2 with ⟨h2, h3⟩ | ⟨h2, h3⟩
      · left
        refine ⟨h2, ?_⟩
        simp only [AllPass, List.length_cons]
        exact ⟨by omega, trivial, trivial, by omega, h3⟩
      · right
        refine ⟨h2, ?_⟩
        cases evs with
        | nil => simp [Refused] at h3
        | cons e es =>
          simp only [Refused, List.length_cons]
          exact ⟨by omega, trivial, trivial, by omega, h3⟩

theorem execStage_spec (S : Setup σ) (start s : Nat) (w : σ) (log : List Ev) (hs : start ≤ s) :
    ∃ evs, (execStage S start s w log).2.2 = evs.reverse ++ log ∧
      ((0 < (execStage S start s w log).2.1 ∧
          Accepted (nChecks S) s (execStage S start s w log).2.1 evs) ∨
       ((execStage S start s w log).2.1 ≤ 0 ∧
          Failed (nChecks S) start s (execStage S start s w log).2.1 evs)) := by
  unfold execStage
  split
  · refine ⟨[.gen s .timeout], by simp, Or.inr ⟨by simp; omega, by simp; omega, Or.inl ⟨rfl, rfl⟩⟩⟩
  · rename_i w1 d _
    split
    · rename_i hd
      obtain ⟨evs, h1, h2⟩ := runChecks_spec s (S.checks s) 0 w1 d (.gen s (.ret d) :: log) hd
      refine ⟨.gen s (.ret d) :: evs, by simp [h1], ?_⟩
      rw [Nat.zero_add] at h2
      rcases h2 with ⟨h2, h3⟩ | ⟨h2, h3⟩
      · left
        rw [h2]
        exact ⟨hd, evs, rfl, hd, h3⟩
      · right
        exact ⟨h2, h2, Or.inr (Or.inr ⟨d, evs, rfl, hd, h3⟩)⟩
    · rename_i hd
      exact ⟨[.gen s (.ret d)], by simp, Or.inr ⟨by simpa using hd, by simpa using hd,
        Or.inr (Or.inl rfl)⟩⟩

theorem unrollLoop_log (S : Setup σ) (new : Nat) : ∀ (i : Nat) (w : σ) (log : List Ev),
    (unrollLoop S new i w log).2 = (cleanups (hasUnroll S) new i).reverse ++ log := by
  intro i
  induction i with
  | zero => intro w log; simp [unrollLoop, cleanups]
  | succ i ih =>
    intro w log
    unfold unrollLoop cleanups
    split
    · cases h : S.unroll (i + 1) with
      | none => simp [hasUnroll, h, ih]
      | some f => simp [hasUnroll, h, ih]
    · simp

theorem mem_cleanups {has : Nat → Bool} {lo : Nat} {e : Ev} : ∀ {i : Nat}, e ∈ cleanups has lo i →
    ∃ s, e = .cleanup s ∧ lo < s ∧ s ≤ i ∧ has s = true := by
  intro i
  induction i with
  | zero => simp [cleanups]
  | succ i ih =>
    intro h
    unfold cleanups at h
    split at h
    · rename_i hlo
      rcases List.mem_append.1 h with h | h
      · split at h
        · rename_i hh
          simp at h
          exact ⟨i + 1, h, hlo, Nat.le_refl _, hh⟩
        · simp at h
      · obtain ⟨s, h1, h2, h3, h4⟩ := ih h
        exact ⟨s, h1, h2, by omega, h4⟩
    · simp at h

theorem allPass_stage {s n : Nat} : ∀ {evs : List Ev} {i : Nat}, AllPass s n i evs →
    ∀ e ∈ evs, stageOf e = s := by
  intro evs
  induction evs with
  | nil => simp
  | cons e es ih =>
    intro i h
    cases e with
    | gen => simp [AllPass] at h
    | cleanup => simp [AllPass] at h
    | check s' j r =>
      simp only [AllPass] at h
      intro e he
      rcases List.mem_cons.1 he with rfl | he
      · exact h.2.1
      · exact ih h.2.2.2.2 e he

theorem refused_stage {s n : Nat} {d : Int} : ∀ {evs : List Ev} {i : Nat}, Refused s n d i evs →
    ∀ e ∈ evs, stageOf e = s := by
  intro evs
  induction evs with
  | nil => simp
  | cons e es ih =>
    intro i h
    cases e with
    | gen => simp [Refused] at h
    | cleanup => simp [Refused] at h
    | check s' j r =>
      intro e he
      cases es with
      | nil =>
        simp only [Refused] at h
        simp only [List.mem_cons, List.not_mem_nil, or_false] at he
        subst he
        exact h.2.1
      | cons e' es' =>
        simp only [Refused] at h
        rcases List.mem_cons.1 he with rfl | he
        · exact h.2.1
        · exact ih h.2.2.2.2 e he

theorem allPass_no_cleanup {s n : Nat} : ∀ {evs : List Ev} {i : Nat}, AllPass s n i evs →
    ∀ s', Ev.cleanup s' ∉ evs := by
  intro evs
  induction evs with
  | nil => simp
  | cons e es ih =>
    intro i h s' hm
    cases e with
    | gen => simp [AllPass] at h
    | cleanup => simp [AllPass] at h
    | check s1 j r =>
      simp only [AllPass] at h
      simp only [List.mem_cons, reduceCtorEq, false_or] at hm
      exact ih h.2.2.2.2 s' hm

theorem refused_no_cleanup {s n : Nat} {d : Int} : ∀ {evs : List Ev} {i : Nat},
    Refused s n d i evs → ∀ s', Ev.cleanup s' ∉ evs := by
  intro evs
  induction evs with
  | nil => simp
  | cons e es ih =>
    intro i h s' hm
    cases e with
    | gen => simp [Refused] at h
    | cleanup => simp [Refused] at h
    | check s1 j r =>
      cases es with
      | nil => simp at hm
      | cons e' es' =>
        simp only [Refused] at h
        simp only [List.mem_cons, reduceCtorEq, false_or] at hm
        exact ih h.2.2.2.2 s' (List.mem_cons.2 hm)

theorem accepted_stage {n : Nat → Nat} {s : Nat} {d : Int} {evs : List Ev}
    (h : Accepted n s d evs) : ∀ e ∈ evs, stageOf e = s := by
  obtain ⟨cs, rfl, _, h⟩ := h
  intro e he
  rcases List.mem_cons.1 he with rfl | he
  · rfl
  · exact allPass_stage h e he

theorem failed_stage {n : Nat → Nat} {start s : Nat} {d : Int} {evs : List Ev}
    (h : Failed n start s d evs) : ∀ e ∈ evs, stageOf e = s := by
  obtain ⟨_, ⟨rfl, _⟩ | rfl | ⟨g, cs, rfl, _, h⟩⟩ := h
  · simp [stageOf]
  · simp [stageOf]
  · intro e he
    rcases List.mem_cons.1 he with rfl | he
    · rfl
    · exact refused_stage h e he

theorem history_ge {n : Nat → Nat} {has : Nat → Bool} {start : Nat} {L : List Ev} {s : Nat}
    (h : History n has start L s) : start ≤ s := by
  induction h with
  | nil => exact Nat.le_refl _
  | advance _ _ ih => omega
  | goBack _ _ _ ih => omega

theorem fresh_extend {n : Nat → Nat} {L E : List Ev} {s : Nat} {d : Int} (h : FreshIn n L s d)
    (hE : ∀ e ∈ E, s < stageOf e) : FreshIn n (L ++ E) s d := by
  obtain ⟨pre, evs, post, rfl, ha, hp⟩ := h
  refine ⟨pre, evs, post ++ E, by simp, ha, ?_⟩
  intro e he
  rcases List.mem_append.1 he with he | he
  · exact hp e he
  · exact hE e he

/-- In every legal history, all stages below the current one are up to date. -/
theorem history_current {n : Nat → Nat} {has : Nat → Bool} {start : Nat} {L : List Ev} {t : Nat}
    (h : History n has start L t) : ∀ s, start ≤ s → s < t → Current n L s := by
  induction h with
  | nil => intro s h1 h2; omega
  | @advance L t d evs hh ha ih =>
    intro s h1 h2
    by_cases hst : s < t
    · obtain ⟨s0, d0, h3, h4, h5⟩ := ih s h1 hst
      refine ⟨s0, d0, h3, h4, fresh_extend h5 ?_⟩
      intro e he
      rw [accepted_stage ha e he]
      omega
    · exact ⟨t, d, by omega, h2, L, evs, [], by simp, ha, by simp⟩
  | @goBack L t d evs hh hf hd ih =>
    intro s h1 h2
    have hge := history_ge hh
    have hd0 := hf.1
    obtain ⟨s0, d0, h3, h4, h5⟩ := ih s h1 (by omega)
    refine ⟨s0, d0, h3, h4, fresh_extend h5 ?_⟩
    intro e he
    rcases List.mem_append.1 he with he | he
    · rw [failed_stage hf e he]
      omega
    · obtain ⟨s', rfl, h6, h7, _⟩ := mem_cleanups he
      simp only [stageOf]
      omega

/-- The loop invariant. -/
structure Inv (S : Setup σ) (start : Nat) (retry : Int) (st : St σ) (A : List (Nat × Int)) :
    Prop where
  hist : History (nChecks S) (hasUnroll S) start st.log.reverse st.state
  att : Attempts (nChecks S) start st.log.reverse A
  tries : retry ≠ 0 → ∀ s, st.tries s = failStreak s A

theorem attempts_cleanups {n : Nat → Nat} {start : Nat} {has : Nat → Bool} {lo : Nat} :
    ∀ {i : Nat} {L : List Ev} {A : List (Nat × Int)}, Attempts n start L A →
      Attempts n start (L ++ cleanups has lo i) A := by
  intro i
  induction i with
  | zero => intro L A h; simpa [cleanups] using h
  | succ i ih =>
    intro L A h
    unfold cleanups
    split
    · split
      · have := ih (Attempts.cleanup (s := i + 1) h)
        simpa using this
      · simpa using ih h
    · simpa using h

theorem inv_init (S : Setup σ) (start : Nat) (retry : Int) (w : σ) :
    Inv S start retry (init start w) [] :=
  ⟨History.nil, Attempts.nil, fun _ _ => rfl⟩

/-- What one iteration does, in terms of the specification. -/
theorem step_spec (S : Setup σ) (start : Nat) (retry : Int) (st : St σ) (A : List (Nat × Int))
    (h : Inv S start retry st A) :
    ∃ evs d,
      ((0 < d ∧ Accepted (nChecks S) st.state d evs) ∨
        (d ≤ 0 ∧ Failed (nChecks S) start st.state d evs)) ∧
      match step S start retry st with
      | .inl st' => Inv S start retry st' ((st.state, d) :: A)
      | .inr st' => st'.log.reverse = st.log.reverse ++ evs ∧ d ≤ 0 ∧
          (d = INT_MIN ∨ (st.state : Int) + d < 0 ∨
            (retry ≠ 0 ∧ retry ≤ (failStreak st.state ((st.state, d) :: A) : Int))) := by
  have hge := history_ge h.hist
  obtain ⟨evs, h1, h2⟩ := execStage_spec S start st.state st.w st.log hge
  refine ⟨evs, _, h2, ?_⟩
  unfold step
  simp only
  by_cases hd : (execStage S start st.state st.w st.log).2.1 ≤ 0
  · rw [if_pos hd]
    have hf : Failed (nChecks S) start st.state (execStage S start st.state st.w st.log).2.1 evs := by
      rcases h2 with h2 | h2
      · omega
      · exact h2.2
    by_cases hfatal : (execStage S start st.state st.w st.log).2.1 = INT_MIN ∨
        (st.state : Int) + (execStage S start st.state st.w st.log).2.1 < 0
    · rw [if_pos hfatal]
      refine ⟨by simp [h1], hd, ?_⟩
      rcases hfatal with hf | hf
      · exact Or.inl hf
      · exact Or.inr (Or.inl hf)
    · have hnf := hfatal
      rw [if_neg hfatal]
      by_cases hret : retry ≠ 0 ∧ ((if retry ≠ 0 then setTries st.tries st.state
          (st.tries st.state + 1) else st.tries) st.state : Int) ≥ retry
      · rw [if_pos hret]
        refine ⟨by simp [h1], hd, Or.inr (Or.inr ⟨hret.1, ?_⟩)⟩
        have := hret.2
        simp only [hret.1, ne_eq, not_false_eq_true, if_true, setTries] at this
        simp only [failStreak, if_true]
        rw [if_neg (by omega)]
        rw [← h.tries hret.1]
        exact this
      · rw [if_neg hret]
        have hnn : 0 ≤ (st.state : Int) + (execStage S start st.state st.w st.log).2.1 := by
          simp only [not_or] at hnf
          omega
        have htn : (max ((st.state : Int) + (execStage S start st.state st.w st.log).2.1)
              (start : Int)).toNat =
            max ((st.state : Int) + (execStage S start st.state st.w st.log).2.1).toNat start := by
          omega
        refine ⟨?_, ?_, ?_⟩
        · have := History.goBack h.hist hf hnn
          simp only [unrollLoop_log, h1, htn]
          simpa using this
        · have := attempts_cleanups (has := hasUnroll S)
            (lo := max ((st.state : Int) + (execStage S start st.state st.w st.log).2.1).toNat start)
            (i := st.state) (Attempts.fail h.att hf)
          simp only [unrollLoop_log, h1, htn]
          simpa using this
        · intro hr s
          simp only [hr, ne_eq, not_false_eq_true, if_true, setTries, failStreak]
          by_cases hs : s = st.state
          · subst hs
            simp only [if_true]
            rw [if_neg (by omega), h.tries hr]
          · rw [if_neg hs, if_neg (fun hh => hs hh.symm), h.tries hr]
  · rw [if_neg hd]
    have ha : Accepted (nChecks S) st.state (execStage S start st.state st.w st.log).2.1 evs := by
      rcases h2 with h2 | h2
      · exact h2.2
      · omega
    have htn : (max ((st.state : Int) + (execStage S start st.state st.w st.log).2.1)
          (start : Int)).toNat =
        st.state + ((execStage S start st.state st.w st.log).2.1).toNat := by
      omega
    refine ⟨?_, ?_, ?_⟩
    · have := History.advance h.hist ha
      simp only [h1, htn]
      simpa using this
    · have := Attempts.ok h.att ha
      simp only [h1]
      simpa using this
    · intro hr s
      simp only [setTries, failStreak]
      by_cases hs : s = st.state
      · subst hs
        simp only [if_true]
        rw [if_pos (by omega)]
      · rw [if_neg hs, if_neg (fun hh => hs hh.symm), h.tries hr]

end Ecgen.Engine
