import Verif.Engine.Verbose
import Verif.Engine.Props

/-!
# The log of a search (C98)
-/

namespace Ecgen.Engine

open Spec

variable {σ : Type}

theorem tells_cleanups {n : Nat → Nat} {has : Nat → Bool} {lo : Nat} {t : List Char} : ∀ (i : Nat) {L : List Ev}, Tells n L t → Tells n (L ++ cleanups has lo i) t := by
  intro i
  induction i with
  | zero => intro L h; simpa [cleanups] using h
  | succ i ih =>
    intro L h
    unfold cleanups
    split
    · cases has (i + 1) with
      | true =>
        have := ih (Tells.cleanup (s := i + 1) h)
        simpa [List.append_assoc] using this
      | false => simpa using ih h
    · simpa using h

/-- one attempt -/
theorem exec_tells (S : Setup σ) (start s : Nat) (w : σ) (log : List Ev) (hs : start ≤ s) :
    ∃ evs, (execStage S start s w log).2.2 = evs.reverse ++ log ∧
      ((0 < (execStage S start s w log).2.1 ∧ Accepted (nChecks S) s (execStage S start s w log).2.1 evs) ∨
       ((execStage S start s w log).2.1 ≤ 0 ∧ timedOut S s w = true ∧ evs = [.gen s .timeout]) ∨
       ((execStage S start s w log).2.1 ≤ 0 ∧ timedOut S s w = false ∧ Refusal (nChecks S) s (execStage S start s w log).2.1 evs)) := by
  unfold execStage timedOut
  split
  · rename_i w1 h
    exact ⟨[.gen s .timeout], by simp, Or.inr (Or.inl ⟨by simp only; omega, by simp [h], rfl⟩)⟩
  · rename_i w1 d h
    split
    · rename_i hd
      obtain ⟨evs, h1, h2⟩ := runChecks_spec s (S.checks s) 0 w1 d (.gen s (.ret d) :: log) hd
      refine ⟨.gen s (.ret d) :: evs, by simp [h1], ?_⟩
      rw [Nat.zero_add] at h2
      rcases h2 with ⟨h2, h3⟩ | ⟨h2, h3⟩
      · left
        rw [h2]
        exact ⟨hd, evs, rfl, hd, h3⟩
      · exact Or.inr (Or.inr ⟨h2, by simp [h], Or.inr ⟨d, evs, rfl, hd, h3⟩⟩)
    · rename_i hd
      exact ⟨[.gen s (.ret d)], by simp, Or.inr (Or.inr ⟨by simpa using hd, by simp [h], Or.inl rfl⟩)⟩

/-- one iteration: the search goes on and the text grows by the sign for the attempt, or it ends and at most the message on the limit is written -/
theorem step_tells (S : Setup σ) (start : Nat) (retry : Int) (st : St σ) (t : List Char) (hs : start ≤ st.state) (ht : Tells (nChecks S) st.log.reverse t) :
    (∀ st', step S start retry st = .inl st' → start ≤ st'.state ∧ Tells (nChecks S) st'.log.reverse (t ++ stepText S start retry st) ∧
      ((stepText S start retry st = ['+'] ∧ ∃ w' d, S.gen st.state st.w = (w', .ret d) ∧ 0 < d ∧ (st'.state : Int) = st.state + d) ∨
        (stepText S start retry st = ['.'] ∧ st'.state = st.state) ∨ ((stepText S start retry st = ['-'] ∨ stepText S start retry st = ['#']) ∧ st'.state ≤ st.state))) ∧
    (∀ st', step S start retry st = .inr st' → (∃ evs d, st'.log.reverse = st.log.reverse ++ evs ∧ Failed (nChecks S) start st.state d evs) ∧
      (stepText S start retry st = [] ∨ stepText S start retry st = limitText retry st.state)) := by
  obtain ⟨evs, h1, h2⟩ := exec_tells S start st.state st.w st.log hs
  have hF := execStage_spec S start st.state st.w st.log hs
  have hW := (execStage_world S start st.state st.w st.log hs).1
  unfold step stepText
  simp only
  by_cases hd : (execStage S start st.state st.w st.log).2.1 ≤ 0
  · rw [if_pos hd, if_pos hd]
    have hfail : ∃ evs d, (execStage S start st.state st.w st.log).2.2.reverse = st.log.reverse ++ evs ∧ Failed (nChecks S) start st.state d evs := by
      obtain ⟨e, k1, k2⟩ := hF
      rcases k2 with k2 | k2
      · omega
      · exact ⟨e, _, by rw [k1]; simp, k2.2⟩
    by_cases hfatal : (execStage S start st.state st.w st.log).2.1 = INT_MIN ∨ (st.state : Int) + (execStage S start st.state st.w st.log).2.1 < 0
    · rw [if_pos hfatal, if_pos hfatal]
      refine ⟨fun st' h => by simp at h, fun st' h => ?_⟩
      simp only [Sum.inr.injEq] at h
      subst h
      exact ⟨hfail, Or.inl rfl⟩
    · rw [if_neg hfatal, if_neg hfatal]
      have hlim : (retry ≠ 0 ∧ ((if retry ≠ 0 then setTries st.tries st.state (st.tries st.state + 1) else st.tries) st.state : Int) ≥ retry) ↔
          (retry ≠ 0 ∧ ((st.tries st.state + 1 : Nat) : Int) ≥ retry) := by
        by_cases hr : retry ≠ 0
        · simp [hr, setTries]
        · simp [hr]
      by_cases hret : retry ≠ 0 ∧ ((st.tries st.state + 1 : Nat) : Int) ≥ retry
      · rw [if_pos hret, if_pos (hlim.2 hret)]
        refine ⟨fun st' h => by simp at h, fun st' h => ?_⟩
        simp only [Sum.inr.injEq] at h
        subst h
        exact ⟨hfail, Or.inr rfl⟩
      · rw [if_neg hret, if_neg (fun h => hret (hlim.1 h))]
        refine ⟨fun st' h => ?_, fun st' h => by simp at h⟩
        simp only [Sum.inl.injEq] at h
        subst h
        have hlog : ∀ new, (unrollLoop S new st.state (execStage S start st.state st.w st.log).1 (execStage S start st.state st.w st.log).2.2).2.reverse =
            (st.log.reverse ++ evs) ++ cleanups (hasUnroll S) new st.state := by
          intro new
          rw [unrollLoop_log, h1]
          simp
        simp only [hlog]
        refine ⟨by omega, tells_cleanups _ ?_, ?_⟩
        · rcases h2 with h2 | ⟨-, h2, rfl⟩ | ⟨-, h2, h3⟩
          · omega
          · rw [if_pos h2]; exact .hash ht
          · rw [h2, if_neg (by decide)]
            by_cases hn : (execStage S start st.state st.w st.log).2.1 < 0
            · rw [if_pos hn]; exact .minus ht h3 hn
            · rw [if_neg hn]
              have h0 : (execStage S start st.state st.w st.log).2.1 = 0 := by omega
              rw [h0] at h3
              exact .dot ht h3
        · by_cases hto : timedOut S st.state st.w = true
          · rw [if_pos hto]
            exact Or.inr (Or.inr ⟨Or.inr rfl, by omega⟩)
          · rw [if_neg hto]
            by_cases hn : (execStage S start st.state st.w st.log).2.1 < 0
            · rw [if_pos hn]
              exact Or.inr (Or.inr ⟨Or.inl rfl, by omega⟩)
            · rw [if_neg hn]
              exact Or.inr (Or.inl ⟨rfl, by omega⟩)
  · rw [if_neg hd, if_neg hd]
    refine ⟨fun st' h => ?_, fun st' h => by simp at h⟩
    simp only [Sum.inl.injEq] at h
    subst h
    rcases h2 with ⟨h2, h3⟩ | ⟨h2, -⟩ | ⟨h2, -⟩
    · refine ⟨by simp only; omega, ?_, Or.inl ⟨rfl, ?_⟩⟩
      · simp only [h1, List.reverse_append, List.reverse_reverse]
        exact .plus ht h3
      · obtain ⟨w1, k1, k2, -⟩ := hW (by omega)
        exact ⟨w1, _, k1, k2, by simp only; omega⟩
    · omega
    · omega

theorem loop_tells (S : Setup σ) (start stop : Nat) (retry : Int) : ∀ (fuel : Nat) (st : St σ) (t : List Char), start ≤ st.state →
    Tells (nChecks S) st.log.reverse t →
    (∀ st', loop S start stop retry fuel st = some (1, st') → ∃ u, loopText S start stop retry fuel st = u ++ ['\n'] ∧ Tells (nChecks S) st'.log.reverse (t ++ u)) ∧
    (∀ st', loop S start stop retry fuel st = some (0, st') → ∃ u end_ L evs s d, loopText S start stop retry fuel st = u ++ end_ ∧ Tells (nChecks S) L (t ++ u) ∧
      st'.log.reverse = L ++ evs ∧ Failed (nChecks S) start s d evs ∧ (end_ = [] ∨ end_ = limitText retry s)) ∧
    (loop S start stop retry fuel st = none → ∃ L, Tells (nChecks S) L (t ++ loopText S start stop retry fuel st)) := by
  intro fuel
  induction fuel with
  | zero =>
    intro st t hs ht
    unfold loop loopText
    by_cases h : st.state < stop
    · simp only [if_pos h]
      exact ⟨fun st' h' => by simp at h', fun st' h' => by simp at h', fun _ => ⟨_, by simpa using ht⟩⟩
    · simp only [if_neg h]
      refine ⟨fun st' h' => ?_, fun st' h' => by simp at h', fun h' => by simp at h'⟩
      simp only [Option.some.injEq, Prod.mk.injEq, true_and] at h'
      subst h'
      exact ⟨[], rfl, by simpa using ht⟩
  | succ fuel ih =>
    intro st t hs ht
    unfold loop loopText
    by_cases h : st.state < stop
    · simp only [if_pos h]
      obtain ⟨h1, h2⟩ := step_tells S start retry st t hs ht
      cases hst : step S start retry st with
      | inl st1 =>
        obtain ⟨k1, k2, -⟩ := h1 st1 hst
        obtain ⟨i1, i2, i3⟩ := ih st1 _ k1 k2
        simp only
        refine ⟨fun st' h' => ?_, fun st' h' => ?_, fun h' => ?_⟩
        · obtain ⟨u, j1, j2⟩ := i1 st' h'
          exact ⟨stepText S start retry st ++ u, by rw [j1, List.append_assoc], by rwa [← List.append_assoc]⟩
        · obtain ⟨u, e, L, evs, s, d, j1, j2, j3⟩ := i2 st' h'
          exact ⟨stepText S start retry st ++ u, e, L, evs, s, d, by rw [j1, List.append_assoc], by rwa [← List.append_assoc], j3⟩
        · obtain ⟨L, j⟩ := i3 h'
          exact ⟨L, by rwa [← List.append_assoc]⟩
      | inr st1 =>
        obtain ⟨⟨evs, d, k1, k2⟩, k3⟩ := h2 st1 hst
        simp only
        refine ⟨fun st' h' => by simp at h', fun st' h' => ?_, fun h' => by simp at h'⟩
        simp only [Option.some.injEq, Prod.mk.injEq, true_and] at h'
        subst h'
        exact ⟨[], stepText S start retry st, st.log.reverse, evs, st.state, d, by simp, by simpa using ht, k1, k2, k3⟩
    · simp only [if_neg h]
      refine ⟨fun st' h' => ?_, fun st' h' => by simp at h', fun h' => by simp at h'⟩
      simp only [Option.some.injEq, Prod.mk.injEq, true_and] at h'
      subst h'
      exact ⟨[], rfl, by simpa using ht⟩

theorem loop_counts (S : Setup σ) (start stop : Nat) (retry : Int) (hone : ∀ s w w' d, S.gen s w = (w', .ret d) → d ≤ 1) : ∀ (fuel : Nat) (st st' : St σ) (t : List Char),
    start ≤ st.state → st.state ≤ stop → Tells (nChecks S) st.log.reverse t → st.state ≤ start + t.count '+' → ('-' ∉ t → '#' ∉ t → st.state = start + t.count '+') →
    loop S start stop retry fuel st = some (1, st') → ∃ u, loopText S start stop retry fuel st = u ++ ['\n'] ∧ stop ≤ start + (t ++ u).count '+' ∧
      ('-' ∉ t ++ u → '#' ∉ t ++ u → stop = start + (t ++ u).count '+') := by
  intro fuel
  induction fuel with
  | zero =>
    intro st st' t hs hst ht hc he hl
    unfold loop at hl
    unfold loopText
    by_cases h : st.state < stop
    · rw [if_pos h] at hl
      simp at hl
    · rw [if_neg h]
      have : st.state = stop := by omega
      exact ⟨[], rfl, by simpa using by omega, by rw [List.append_nil, ← this]; exact he⟩
  | succ fuel ih =>
    intro st st' t hs hstop ht hc he hl
    unfold loop at hl
    unfold loopText
    by_cases h : st.state < stop
    · rw [if_pos h] at hl ⊢
      obtain ⟨h1, h2⟩ := step_tells S start retry st t hs ht
      cases hst : step S start retry st with
      | inl st1 =>
        rw [hst] at hl
        simp only at hl ⊢
        obtain ⟨k1, k2, k3⟩ := h1 st1 hst
        have key : st1.state ≤ stop ∧ st1.state ≤ start + (t ++ stepText S start retry st).count '+' ∧
            ('-' ∉ t ++ stepText S start retry st → '#' ∉ t ++ stepText S start retry st → st1.state = start + (t ++ stepText S start retry st).count '+') := by
          rcases k3 with ⟨e, w', d, g1, g2, g3⟩ | ⟨e, g⟩ | ⟨e | e, g⟩
          · have := hone _ _ _ _ g1
            rw [e]
            simp only [List.count_append, List.mem_append, not_or]
            refine ⟨by omega, by simp; omega, fun a b => ?_⟩
            have := he a.1 b.1
            simp
            omega
          · rw [e]
            simp only [List.count_append, List.mem_append, not_or]
            refine ⟨by omega, by simp; omega, fun a b => ?_⟩
            have := he a.1 b.1
            simp
            omega
          · rw [e]
            simp only [List.count_append, List.mem_append, not_or]
            exact ⟨by omega, by simp; omega, fun a b => absurd (by simp) a.2⟩
          · rw [e]
            simp only [List.count_append, List.mem_append, not_or]
            exact ⟨by omega, by simp; omega, fun a b => absurd (by simp) b.2⟩
        obtain ⟨u, j1, j2, j3⟩ := ih st1 st' _ k1 key.1 k2 key.2.1 key.2.2 hl
        refine ⟨stepText S start retry st ++ u, by rw [j1, List.append_assoc], ?_, ?_⟩
        · rwa [← List.append_assoc]
        · rwa [← List.append_assoc]
      | inr st1 =>
        rw [hst] at hl
        simp at hl
    · rw [if_neg h]
      have : st.state = stop := by omega
      exact ⟨[], rfl, by simpa using by omega, by rw [List.append_nil, ← this]; exact he⟩

/-! ## Theorems -/

/-- A search that succeeds writes one line, that tells all it did, sign by sign. -/
theorem verbose_found (S : Setup σ) (start stop : Nat) (retry : Int) (fuel : Nat) (w : σ) (st : St σ) (h : genRetry S start stop retry fuel w = some (1, st)) :
    ∃ t, genText S start stop retry fuel w = t ++ ['\n'] ∧ Tells (nChecks S) st.log.reverse t := by
  unfold genRetry at h
  unfold genText
  by_cases h1 : start = stop
  · rw [if_pos h1] at h; simp at h
  · rw [if_neg h1] at h ⊢
    by_cases h2 : start > stop
    · rw [if_pos h2] at h; simp at h
    · rw [if_neg h2] at h ⊢
      exact (loop_tells S start stop retry fuel (init start w) [] (Nat.le_refl _) .nil).1 st h

/-- A search that gives up has told all but its last attempt, which failed; then comes nothing, or the message that the limit is reached at that stage. -/
theorem verbose_failed (S : Setup σ) (start stop : Nat) (retry : Int) (fuel : Nat) (w : σ) (st : St σ) (hle : start ≤ stop) (h : genRetry S start stop retry fuel w = some (0, st)) :
    ∃ t end_ L evs s d, genText S start stop retry fuel w = t ++ end_ ∧ Tells (nChecks S) L t ∧ st.log.reverse = L ++ evs ∧ Failed (nChecks S) start s d evs ∧
      (end_ = [] ∨ end_ = limitText retry s) := by
  unfold genRetry at h
  unfold genText
  by_cases h1 : start = stop
  · rw [if_pos h1] at h; simp at h
  · rw [if_neg h1] at h ⊢
    rw [if_neg (by omega : ¬ start > stop)] at h ⊢
    exact (loop_tells S start stop retry fuel (init start w) [] (Nat.le_refl _) .nil).2.1 st h

/-- A search that goes on has told all it did so far, and not ended the line. -/
theorem verbose_running (S : Setup σ) (start stop : Nat) (retry : Int) (fuel : Nat) (w : σ) (h : genRetry S start stop retry fuel w = none) :
    ∃ L, Tells (nChecks S) L (genText S start stop retry fuel w) := by
  unfold genRetry at h
  unfold genText
  by_cases h1 : start = stop
  · rw [if_pos h1] at h; simp at h
  · rw [if_neg h1] at h ⊢
    by_cases h2 : start > stop
    · rw [if_pos h2] at h; simp at h
    · rw [if_neg h2] at h ⊢
      exact (loop_tells S start stop retry fuel (init start w) [] (Nat.le_refl _) .nil).2.2 h

/-- If no generator goes forward by more than one stage, a search that succeeds writes at least as many `+` as there are stages, and exactly as many if it
never went back. -/
theorem verbose_count (S : Setup σ) (start stop : Nat) (retry : Int) (hone : ∀ s w w' d, S.gen s w = (w', .ret d) → d ≤ 1) (fuel : Nat) (w : σ) (st : St σ)
    (h : genRetry S start stop retry fuel w = some (1, st)) :
    stop - start ≤ (genText S start stop retry fuel w).count '+' ∧
      ('-' ∉ genText S start stop retry fuel w → '#' ∉ genText S start stop retry fuel w → (genText S start stop retry fuel w).count '+' = stop - start) := by
  unfold genRetry at h
  unfold genText
  by_cases h1 : start = stop
  · rw [if_pos h1] at h; simp at h
  · rw [if_neg h1] at h ⊢
    by_cases h2 : start > stop
    · rw [if_pos h2] at h; simp at h
    · rw [if_neg h2] at h ⊢
      obtain ⟨u, e, k1, k2⟩ := loop_counts S start stop retry hone fuel (init start w) st [] (Nat.le_refl _) (by simp [init]; omega) .nil (by simp [init]) (by simp [init]) h
      rw [List.nil_append] at k1 k2
      have hc : (u ++ ['\n']).count '+' = u.count '+' := by simp [List.count_append]
      rw [e, hc]
      refine ⟨by omega, fun a b => ?_⟩
      have := k2 (fun m => a (by simp [m])) (fun m => b (by simp [m]))
      omega

/-- a search of three stages: the second is refused once and repeated, the third asks for the first, is then cut off by the timer, and then accepted -/
def chatty : Setup Nat where
  gen s w := (w + 1, match s, w with
    | 1, 1 => .ret 0
    | 2, 3 => .ret (-2)
    | 2, 6 => .timeout
    | _, _ => .ret 1)
  checks _ := []
  unroll _ := none

theorem verbose_met : (∃ st, genRetry chatty 0 3 0 20 0 = some (1, st)) ∧ genText chatty 0 3 0 20 0 = "+.+-++#+++\n".toList ∧
    (∀ s w w' d, chatty.gen s w = (w', .ret d) → d ≤ 1) ∧
    (∃ st, genRetry chatty 0 3 1 20 0 = some (0, st)) ∧ genText chatty 0 3 1 20 0 = "+Reached retry limit: 1, state = 1\n".toList := by
  refine ⟨⟨_, rfl⟩, by decide +kernel, ?_, ⟨_, rfl⟩, by decide +kernel⟩
  intro s w w' d h
  simp only [chatty, Prod.mk.injEq] at h
  obtain ⟨-, h⟩ := h
  split at h <;> simp only [GenRes.ret.injEq, reduceCtorEq] at h <;> omega

/-- **C98** A search with nothing to do writes nothing, and nothing happens in it: if the last stage is the first, the result is 2, if it is before the
first, the result is 0. -/
theorem verbose_nothing (S : Setup σ) (start stop : Nat) (retry : Int) (fuel : Nat) (w : σ) (h : stop ≤ start) :
    genText S start stop retry fuel w = [] ∧
    ∃ st : St σ, genRetry S start stop retry fuel w = some (if stop = start then 2 else 0, st) ∧ st.log = [] ∧ st.w = w := by
  unfold genText genRetry
  rcases Nat.lt_or_ge stop start with h1 | h1
  · rw [if_neg (by omega), if_pos h1, if_neg (by omega), if_pos h1, if_neg (by omega)]
    exact ⟨rfl, _, rfl, rfl, rfl⟩
  · rw [if_pos (by omega), if_pos (by omega), if_pos (by omega)]
    exact ⟨rfl, _, rfl, rfl, rfl⟩

end Ecgen.Engine
