import Verif.Stack.Certificate
import Verif.Engine.Reach

/-!
# A search whose stages pass the check does nothing undefined
-/

namespace Ecgen.Stack
open Ecgen.Engine Ecgen.Engine.Spec

/-- one iteration of the search -/
theorem step_inv (rel : Bool) (F : Fns) (start stop : Nat) (retry : Int) (P : Nat → W → Prop) (Q : W → Prop)
    (hok : ∀ s w d w', start ≤ s → s < stop → P s w → Succeeds (setup rel F) s w d w' → P (s + d.toNat) w')
    (hback : ∀ s w d w', start ≤ s → s < stop → P s w → Fails (setup rel F) start s w d w' → d ≠ INT_MIN → 0 ≤ (s : Int) + d → d ≤ 0 →
      P (max ((s : Int) + d).toNat start)
        (giveBack (max ((s : Int) + d).toNat start) (cleaned (setup rel F) (max ((s : Int) + d).toNat start) s w')))
    (hfail : ∀ s w d w', start ≤ s → s < stop → P s w → Fails (setup rel F) start s w d w' →
      (d = INT_MIN ∨ (s : Int) + d < 0 ∨ retry ≠ 0) → Q w')
    (st : St W) (hge : start ≤ st.state) (hlt : st.state < stop) (hP : P st.state st.w) :
    (∀ st', step rel F start retry st = .inl st' → start ≤ st'.state ∧ P st'.state st'.w) ∧
    (∀ st', step rel F start retry st = .inr st' → Q st'.w) := by
  have hex := execStage_world (setup rel F) start st.state st.w st.log hge
  unfold step Engine.step
  simp only
  generalize execStage (setup rel F) start st.state st.w st.log = r at hex ⊢
  by_cases hd : r.2.1 ≤ 0
  · rw [if_pos hd]
    have hq := hfail _ _ _ _ hge hlt hP (hex.2 hd)
    by_cases hfatal : r.2.1 = INT_MIN ∨ (st.state : Int) + r.2.1 < 0
    · rw [if_pos hfatal]
      refine ⟨fun st' h => (by cases h), fun st' h => ?_⟩
      cases h
      exact hq (by omega)
    · rw [if_neg hfatal]
      by_cases hret : retry ≠ 0 ∧ ((if retry ≠ 0 then setTries st.tries st.state (st.tries st.state + 1) else st.tries) st.state : Int) ≥ retry
      · rw [if_pos hret]
        refine ⟨fun st' h => (by cases h), fun st' h => ?_⟩
        cases h
        exact hq (Or.inr (Or.inr hret.1))
      · rw [if_neg hret]
        refine ⟨fun st' h => ?_, fun st' h => (by cases h)⟩
        have e : (max ((st.state : Int) + r.2.1) (start : Int)).toNat = max ((st.state : Int) + r.2.1).toNat start := by omega
        simp only [e, unrollLoop_world] at h
        rw [if_pos (by omega)] at h
        cases h
        exact ⟨by simp only; omega, hback _ _ _ _ hge hlt hP (hex.2 hd) (by omega) (by omega) hd⟩
  · rw [if_neg hd]
    refine ⟨fun st' h => ?_, fun st' h => (by cases h)⟩
    have e : (max ((st.state : Int) + r.2.1) (start : Int)).toNat = st.state + (r.2.1).toNat := by omega
    simp only [e] at h
    rw [if_neg (by omega)] at h
    cases h
    exact ⟨by simp only; omega, hok _ _ _ _ hge hlt hP (hex.1 (by omega))⟩

/-- what is assumed of the tape in a class -/
def TapeOk (C : Class) (t : Nat → Cell) : Prop :=
  (C.again = false → ∀ k, (t k).again = false) ∧ (C.calm = true → ∀ k, (t k).cut = false)

def Plan.TapeOk (P : Plan) (t : Nat → Cell) : Prop :=
  (P.again = false → ∀ k, (t k).again = false) ∧ (P.calm = true → ∀ k, (t k).cut = false)

/-- what is known holds -/
def Holds (t : Nat → Cell) (a : AState) (w : W) : Prop := w.tape = t ∧ ∃ m, w.mem = some m ∧ Rep a m

theorem Holds.le {t : Nat → Cell} {a b : AState} {w : W} (h : a.le b = true) (hw : Holds t a w) : Holds t b w := by
  obtain ⟨ht, m, hm, r⟩ := hw
  exact ⟨ht, m, hm, r.le h⟩

theorem Holds.giveBack {t : Nat → Cell} {a : AState} {w : W} (hw : Holds t a w) (k : Nat) : Holds t (a.map (AVal.cut k)) (giveBack k w) := by
  obtain ⟨ht, m, hm, r⟩ := hw
  exact ⟨ht, m.release k, by simp [Stack.giveBack, hm], r.release k⟩

/-- a function that is not under the timer -/
theorem call_sound {rel : Bool} {G : Goals} {p : Stmt} {a : AState} {l : List AState} {t : Nat → Cell} {w : W}
    (hag : G.again = false → ∀ k, (t k).again = false) (h : chk rel G p a = some l) (hw : Holds t a w) :
    ((call rel p w).2 = 1 ∧ ∃ b ∈ l, Holds t b (call rel p w).1) ∨ (∃ b, G.ret (call rel p w).2 b = true ∧ Holds t b (call rel p w).1) := by
  obtain ⟨rfl, m, hm, r⟩ := hw
  have hs := chk_sound rel G w.tape false hag p a l h w.pos m r
  have hc := fun m' => exec_calm rel w.tape false (by simp) p w.pos m m'
  unfold call
  rw [hm]
  simp only
  rcases he : exec rel w.tape false p w.pos m with ⟨o, k⟩
  rw [he] at hs hc
  cases o with
  | norm m' =>
    obtain ⟨b, hb, rb⟩ := hs
    exact Or.inl ⟨rfl, b, hb, rfl, m', rfl, rb⟩
  | ret d m' =>
    obtain ⟨b, hb, rb⟩ := hs
    exact Or.inr ⟨b, hb, rfl, m', rfl, rb⟩
  | cut m' => exact absurd rfl (hc m')
  | ub => exact hs.elim

/-- the cleanup functions -/
theorem unroll_sound {rel : Bool} {F : Fns} (hF : F.unroll = Prog.unroll) {t : Nat → Cell} {n : Nat} :
    ∀ {s : Nat} {l l' : List AState} {w : W}, unrollA rel n s l = some l' → (∃ a ∈ l, Holds t a w) →
      ∃ b ∈ l', Holds t b (cleaned (setup rel F) n s w) := by
  intro s
  induction s with
  | zero => intro l l' w h hw; cases h; exact hw
  | succ s ih =>
    intro l l' w h hw
    simp only [unrollA] at h
    simp only [cleaned]
    split at h
    · rename_i hn
      rw [if_pos hn]
      split at h
      · rename_i l1 he
        obtain ⟨a, ha, hw⟩ := hw
        obtain ⟨k, hk, hsub⟩ := each_sound he ha
        refine ih h ?_
        simp only [setup, Option.getD_some, hF]
        rcases call_sound (t := t) (by simp) hk hw with ⟨_, b, hb, hbw⟩ | ⟨b, hb, _⟩
        · exact ⟨b, hsub b hb, hbw⟩
        · simp at hb
      · cases h
    · rename_i hn
      rw [if_neg hn]
      cases h
      exact hw

theorem back_sound {P : Plan} {F : Fns} (hF : F.unroll = Prog.unroll) {t : Nat → Cell} {n s : Nat} {a : AState} {w : W}
    (h : backOk P n s a = true) (hw : Holds t a w) :
    Holds t (P.known n) (giveBack n (cleaned (setup P.rel F) n s w)) ∧ (P.retry = true → P.fail a = true) := by
  unfold backOk at h
  simp only [Bool.and_eq_true] at h
  obtain ⟨hf, h⟩ := h
  refine ⟨?_, fun hr => by simpa [hr] using hf⟩
  split at h
  · rename_i l hl
    obtain ⟨b, hb, hbw⟩ := unroll_sound hF hl ⟨a, List.mem_singleton.mpr rfl, hw⟩
    exact (hbw.giveBack n).le ((List.all_eq_true.mp h) b hb)
  · cases h

/-- a stage refuses: if the search goes back, what is known holds -/
theorem refuse_sound {P : Plan} {F : Fns} (hF : F.unroll = Prog.unroll) {t : Nat → Cell} {s : Nat} {d : Int} {a : AState} {w : W}
    (h : refuseOk P s d a = true) (hw : Holds t a w) :
    (d ≠ INT_MIN → 0 ≤ (s : Int) + d → Holds t (P.known (max ((s : Int) + d).toNat P.start))
      (giveBack (max ((s : Int) + d).toNat P.start) (cleaned (setup P.rel F) (max ((s : Int) + d).toNat P.start) s w))) ∧
    ((d = INT_MIN ∨ (s : Int) + d < 0 ∨ P.retry = true) → P.fail a = true) := by
  unfold refuseOk at h
  by_cases hd : d = INT_MIN ∨ (s : Int) + d < 0
  · rw [if_pos hd] at h
    exact ⟨fun h1 h2 => by omega, fun _ => h⟩
  · rw [if_neg hd] at h
    have hb := back_sound hF h hw
    refine ⟨fun _ _ => hb.1, fun h' => ?_⟩
    rcases h' with h' | h' | h'
    · exact absurd (Or.inl h') hd
    · exact absurd (Or.inr h') hd
    · exact hb.2 h'

/-- the validators of a stage -/
theorem checks_sound {P : Plan} {F : Fns} {t : Nat → Cell} (ht : P.TapeOk t) {s : Nat} {a : AState} {w : W}
    (h : checksOk P s (F.check s) a = true) (hw : Holds t a w) :
    (0 < (checkStage P.rel F s w).2 ∧ Holds t (P.known (s + 1)) (checkStage P.rel F s w).1) ∨
    ((checkStage P.rel F s w).2 ≤ 0 ∧ ∃ b, refuseOk P s (checkStage P.rel F s w).2 b = true ∧ Holds t b (checkStage P.rel F s w).1) := by
  unfold checksOk at h
  split at h
  · rename_i l hl
    rcases call_sound (t := t) ht.1 hl hw with ⟨h1, b, hb, hbw⟩ | ⟨b, hb, hbw⟩
    · refine Or.inl ⟨?_, (hbw.giveBack ctop).le ((List.all_eq_true.mp h) b hb)⟩
      show 0 < (call _ _ _).2
      rw [h1]; decide
    · simp only [Bool.and_eq_true, decide_eq_true_eq] at hb
      exact Or.inr ⟨hb.1, _, hb.2, hbw.giveBack ctop⟩
  · cases h

/-- the three ends of a generator -/
theorem gen_sound {P : Plan} {F : Fns} {t : Nat → Cell} (ht : P.TapeOk t) {s : Nat} {w : W} (h : stageOk P s (F.gen s) (F.check s) = true)
    (hw : Holds t (P.known s) w) :
    ((genStage P.rel F s w).2 = .ret 1 ∧ ∃ a, checksOk P s (F.check s) a = true ∧ Holds t a (genStage P.rel F s w).1) ∨
    (∃ d a, (genStage P.rel F s w).2 = .ret d ∧ d ≤ 0 ∧ refuseOk P s d a = true ∧ Holds t a (genStage P.rel F s w).1) ∨
    ((genStage P.rel F s w).2 = .timeout ∧ ∃ a, backOk P P.start s a = true ∧ Holds t a (genStage P.rel F s w).1) := by
  obtain ⟨rfl, m, hm, r⟩ := hw
  unfold stageOk at h
  split at h
  · rename_i l hl
    have hs := chk_sound P.rel _ w.tape true ht.1 _ _ l hl w.pos (m.noted s) (r.note s)
    have hcalm := fun hc : P.calm = true => fun m' => exec_calm P.rel w.tape true (fun _ => ht.2 hc) (F.gen s) w.pos (m.noted s) m'
    unfold genStage
    rw [hm]
    simp only
    rcases he : exec P.rel w.tape true (F.gen s) w.pos (m.noted s) with ⟨o, k⟩
    rw [he] at hs hcalm
    cases o with
    | norm m' =>
      obtain ⟨b, hb, rb⟩ := hs
      exact Or.inl ⟨rfl, b, (List.all_eq_true.mp h) b hb, rfl, m', rfl, rb⟩
    | ret d m' =>
      obtain ⟨b, hb, rb⟩ := hs
      simp only at hb
      split at hb
      · simp only [Bool.and_eq_true, decide_eq_true_eq] at hb
        exact Or.inl ⟨by simp only [hb.1], b, hb.2, rfl, m', rfl, rb⟩
      · rename_i hd
        exact Or.inr (Or.inl ⟨d, b, rfl, by omega, hb, rfl, m', rfl, rb⟩)
    | cut m' =>
      obtain ⟨b, hb, rb⟩ := hs
      simp only [Bool.or_eq_true] at hb
      rcases hb with hb | hb
      · exact absurd rfl (hcalm hb m')
      · exact Or.inr (Or.inr ⟨rfl, b, hb, rfl, m', rfl, rb⟩)
    | ub => exact hs.elim
  · cases h

/-- the functions of a search pass the check: each stage for a plan that assumes no more of the tape and agrees in what is known up to the next
stage -/
def Plan.Certified (P : Plan) (stop : Nat) (F : Fns) : Prop :=
  F.unroll = Prog.unroll ∧ stop ≤ 9 ∧ ∀ s, P.start ≤ s → s < stop → ∃ Q : Plan, Q.start = P.start ∧ Q.retry = P.retry ∧ Q.fail = P.fail ∧ Q.rel = P.rel ∧
    (Q.calm = true → P.calm = true) ∧ (Q.again = false → P.again = false) ∧ (∀ n, n ≤ s + 1 → Q.known n = P.known n) ∧
    stageOk Q s (F.gen s) (F.check s) = true

/-- how a stage may fail, and what is known then -/
theorem fails_sound {P : Plan} {F : Fns} (hF : F.unroll = Prog.unroll) {t : Nat → Cell} (ht : P.TapeOk t) {s : Nat} (h9 : s < 9)
    (hst : stageOk P s (F.gen s) (F.check s) = true) {w w' : W} {d : Int} (hw : Holds t (P.known s) w)
    (hf : Fails (setup P.rel F) P.start s w d w') :
    ∃ a, Holds t a w' ∧
    (d ≠ INT_MIN → 0 ≤ (s : Int) + d → Holds t (P.known (max ((s : Int) + d).toNat P.start))
      (giveBack (max ((s : Int) + d).toNat P.start) (cleaned (setup P.rel F) (max ((s : Int) + d).toNat P.start) s w'))) ∧
    ((d = INT_MIN ∨ (s : Int) + d < 0 ∨ P.retry = true) → P.fail a = true) := by
  rcases hf with ⟨hg, hd⟩ | ⟨hg, hd⟩ | ⟨w1, g, hg, hgd, hr⟩
  · have hg' : genStage P.rel F s w = (w', .timeout) := hg
    rcases gen_sound ht hst hw with ⟨h4, _⟩ | ⟨d', a, h4, _⟩ | ⟨h4, a, ha, haw⟩ <;> rw [hg'] at h4
    · cases h4
    · cases h4
    · rw [hg'] at haw
      have e0 : max ((s : Int) + d).toNat P.start = P.start := by omega
      rw [e0]
      have h5 := back_sound hF ha haw
      refine ⟨a, haw, fun _ _ => h5.1, fun h6 => ?_⟩
      rcases h6 with h6 | h6 | h6
      · exact absurd h6 (by simp only [INT_MIN]; omega)
      · exact absurd h6 (by omega)
      · exact h5.2 h6
  · have hg' : genStage P.rel F s w = (w', .ret d) := hg
    rcases gen_sound ht hst hw with ⟨h4, _⟩ | ⟨d', a, h4, _, ha, haw⟩ | ⟨h4, _⟩ <;> rw [hg'] at h4
    · cases h4; omega
    · cases h4
      rw [hg'] at haw
      exact ⟨a, haw, refuse_sound hF ha haw⟩
    · cases h4
  · have hg' : genStage P.rel F s w = (w1, .ret g) := hg
    rcases gen_sound ht hst hw with ⟨h4, a, ha, haw⟩ | ⟨d', a, h4, hd', _⟩ | ⟨h4, _⟩ <;> rw [hg'] at h4
    · rw [hg'] at haw
      replace haw : Holds t a w1 := haw
      have hr' : Rejects [checkStage P.rel F s] w1 d w' := hr
      cases hr' with
      | here h5 =>
        rcases checks_sound ht ha haw with ⟨h6, _⟩ | ⟨_, b, hb, hbw⟩
        · exact absurd h5 (Int.not_le.mpr h6)
        · exact ⟨b, hbw, refuse_sound hF hb hbw⟩
      | later _ h5 => cases h5
    · cases h4; omega
    · cases h4

theorem Holds.some {t : Nat → Cell} {a : AState} {w : W} (h : Holds t a w) : w.mem.isSome = true := by
  obtain ⟨_, m, hm, _⟩ := h
  rw [hm]; rfl

/-- one iteration of a search that passes the check -/
theorem plan_step {P : Plan} {stop : Nat} {F : Fns} (hF : P.Certified stop F) {t : Nat → Cell} (ht : P.TapeOk t) (retry : Int)
    (hretry : retry ≠ 0 → P.retry = true) (st : St W) (hge : P.start ≤ st.state) (hlt : st.state < stop)
    (hw : Holds t (P.known st.state) st.w) :
    (∀ st', step P.rel F P.start retry st = .inl st' → P.start ≤ st'.state ∧ st'.state ≤ stop ∧ Holds t (P.known st'.state) st'.w) ∧
    (∀ st', step P.rel F P.start retry st = .inr st' → ∃ a, P.fail a = true ∧ Holds t a st'.w) := by
  refine step_inv P.rel F P.start stop retry (fun s w => s ≤ stop ∧ Holds t (P.known s) w) (fun w => ∃ a, P.fail a = true ∧ Holds t a w)
    ?_ ?_ ?_ st hge hlt ⟨Nat.le_of_lt hlt, hw⟩
  · rintro s w d w' hs0 hs ⟨-, hw⟩ ⟨w1, hg, hd, hp⟩
    obtain ⟨Q, h1, h2, h3, h4, h5, h6, h7, hst⟩ := hF.2.2 s hs0 hs
    have htQ : Q.TapeOk t := ⟨fun h => ht.1 (h6 h), fun h => ht.2 (h5 h)⟩
    rw [← h7 s (Nat.le_succ s)] at hw
    have hg' : genStage Q.rel F s w = (w1, .ret d) := by rw [h4]; exact hg
    rcases gen_sound htQ hst hw with ⟨h1, a, ha, haw⟩ | ⟨d', a, h1, hd', _⟩ | ⟨h1, _⟩ <;> rw [hg'] at h1
    · rw [hg'] at haw
      replace haw : Holds t a w1 := haw
      cases h1
      have hp' : Passes [checkStage Q.rel F s] w1 w' := by rw [h4]; exact hp
      cases hp' with
      | cons h2 h3 =>
        cases h3
        rcases checks_sound htQ ha haw with ⟨_, h8⟩ | ⟨h8, _⟩
        · rw [h7 _ (Nat.le_refl _)] at h8; exact ⟨hs, h8⟩
        · exact absurd h8 (Int.not_le.mpr h2)
    · cases h1; omega
    · cases h1
  · rintro s w d w' hs0 hs ⟨-, hw⟩ hf h8 h9 h10
    obtain ⟨Q, h1, h2, h3, h4, h5, h6, h7, hst⟩ := hF.2.2 s hs0 hs
    have htQ : Q.TapeOk t := ⟨fun h => ht.1 (h6 h), fun h => ht.2 (h5 h)⟩
    rw [← h7 s (Nat.le_succ s)] at hw
    rw [← h1] at hs0 ⊢
    rw [← h4, ← h1] at hf
    obtain ⟨a, _, h11, _⟩ := fails_sound hF.1 htQ (Nat.lt_of_lt_of_le hs hF.2.1) hst hw hf
    have h12 := h11 h8 h9
    rw [h7 _ (by omega), h4] at h12
    exact ⟨by omega, h12⟩
  · rintro s w d w' hs0 hs ⟨-, hw⟩ hf h8
    obtain ⟨Q, h1, h2, h3, h4, h5, h6, h7, hst⟩ := hF.2.2 s hs0 hs
    have htQ : Q.TapeOk t := ⟨fun h => ht.1 (h6 h), fun h => ht.2 (h5 h)⟩
    rw [← h7 s (Nat.le_succ s)] at hw
    rw [← h1] at hs0
    rw [← h4, ← h1] at hf
    obtain ⟨a, haw, _, h11⟩ := fails_sound hF.1 htQ (Nat.lt_of_lt_of_le hs hF.2.1) hst hw hf
    refine ⟨a, ?_, haw⟩
    rw [← h3]
    refine h11 ?_
    rcases h8 with h8 | h8 | h8
    · exact Or.inl h8
    · exact Or.inr (Or.inl h8)
    · exact Or.inr (Or.inr (by rw [h2]; exact hretry h8))

/-- all the states of such a search -/
theorem plan_reaches {P : Plan} {stop : Nat} {F : Fns} (hF : P.Certified stop F) {t : Nat → Cell} (ht : P.TapeOk t) (retry : Int)
    (hretry : retry ≠ 0 → P.retry = true) (st st' : St W) (hge : P.start ≤ st.state) (hle : st.state ≤ stop)
    (hw : Holds t (P.known st.state) st.w) (h : Reaches P.rel F P.start stop retry st st') :
    P.start ≤ st'.state ∧ st'.state ≤ stop ∧ Holds t (P.known st'.state) st'.w := by
  induction h with
  | refl => exact ⟨hge, hle, hw⟩
  | next _ hlt hst ih => exact (plan_step hF ht retry hretry _ ih.1 hlt ih.2.2).1 _ hst

/-! ## the searches of a class -/

/-- the functions of a search pass the check: each stage in a class that assumes no more of the tape (and may differ in the last stage if it is
not the last one) -/
def Certified (C : Class) (F : Fns) : Prop :=
  F.unroll = Prog.unroll ∧ ∀ s, s < 9 → ∃ d c g, (c = true → C.calm = true) ∧ (g = false → C.again = false) ∧ (d = C.data ∨ s < 8) ∧
    stageOk (Class.plan ⟨C.kind, d, c, g, C.rel⟩) s (F.gen s) (F.check s) = true

/-- only the class with its last stage matters for what is known -/
theorem known_eq (C : Class) {d c g : Bool} {s n : Nat} (hd : d = C.data ∨ s < 8) (hn : n ≤ s + 1) :
    known ⟨C.kind, d, c, g, C.rel⟩ n = known C n := by
  rcases hd with rfl | hs
  · rfl
  · unfold known
    have : n ≤ 8 := by omega
    simp only [if_pos this]

theorem Certified.plan {C : Class} {F : Fns} (h : Certified C F) : C.plan.Certified 9 F := by
  refine ⟨h.1, Nat.le_refl _, fun s _ hs => ?_⟩
  obtain ⟨d, c, g, hc, hg, hd, hst⟩ := h.2 s hs
  exact ⟨Class.plan ⟨C.kind, d, c, g, C.rel⟩, rfl, rfl, rfl, rfl, hc, hg, fun n hn => known_eq C hd hn, hst⟩

/-- one iteration of a search that passes the check -/
theorem search_step {C : Class} {F : Fns} (hF : Certified C F) {t : Nat → Cell} (ht : TapeOk C t) (retry : Int) (st : St W) (hlt : st.state < 9)
    (hw : Holds t (known C st.state) st.w) :
    (∀ st', step C.rel F 0 retry st = .inl st' → st'.state ≤ 9 ∧ Holds t (known C st'.state) st'.w) ∧
    (∀ st', step C.rel F 0 retry st = .inr st' → st'.w.mem.isSome = true) := by
  have key := plan_step hF.plan (t := t) ht retry (fun _ => rfl) st (Nat.zero_le _) hlt hw
  refine ⟨fun st' h => (key.1 st' h).2, fun st' h => ?_⟩
  obtain ⟨a, _, ha⟩ := key.2 st' h
  exact ha.some

/-- all the states of such a search -/
theorem search_reaches {C : Class} {F : Fns} (hF : Certified C F) {t : Nat → Cell} (ht : TapeOk C t) (retry : Int) (st st' : St W)
    (hs : st.state ≤ 9) (hw : Holds t (known C st.state) st.w) (h : Reaches C.rel F 0 9 retry st st') :
    st'.state ≤ 9 ∧ Holds t (known C st'.state) st'.w :=
  (plan_reaches hF.plan (t := t) ht retry (fun _ => rfl) st st' (Nat.zero_le _) hs hw h).2

end Ecgen.Stack
