import Verif.Ordered.Lemmas
import Verif.Engine.Reach

/-!
# The search as a whole
-/

namespace Ecgen.Ordered

open Whole Output Output.Spec Cli Engine Engine.Spec

variable {prime : Bool} {N : Nat}

theorem gen_cases (P : Pari) (c : Config) (s : Nat) (w w1 : W) (r : GenRes) (h : (setup P c).gen s w = (w1, r)) :
    (∃ x, w.pick.cut = some x ∧ w1 = { w.next with cur := x } ∧ r = .timeout) ∨
    (∃ d, w.pick.fail s = some d ∧ w1 = w.next ∧ r = .ret d) ∨
    (∃ x d, act P c w.pick s w.cur = some (x, d) ∧ w1 = { w.next with cur := x } ∧ r = .ret d) ∨
    (w1 = { w.next with ub := true } ∧ r = .ret INT_MIN) := by
  change gen P c (tables P c) s w = _ at h
  unfold gen at h
  cases h1 : w.pick.cut with
  | some x => rw [h1] at h; cases h; exact Or.inl ⟨x, rfl, rfl, rfl⟩
  | none =>
    rw [h1] at h
    cases h2 : w.pick.fail s with
    | some d => simp only [h2] at h; cases h; exact Or.inr (Or.inl ⟨d, rfl, rfl, rfl⟩)
    | none =>
      simp only [h2] at h
      change done w (act P c w.pick s w.cur) = _ at h
      cases h3 : act P c w.pick s w.cur with
      | none => rw [h3] at h; cases h; exact Or.inr (Or.inr (Or.inr ⟨rfl, rfl⟩))
      | some xd =>
        obtain ⟨x, d⟩ := xd
        rw [h3] at h; cases h; exact Or.inr (Or.inr (Or.inl ⟨x, d, rfl, rfl, rfl⟩))

theorem checks_eq (P : Pari) (c : Config) (s : Nat) : (setup P c).checks s = (checksOf P c s).map fun k w => check w k := rfl

/-- what a check does to the world and what it returns -/
theorem check_spec (w : W) (k : Check) : (check w k).1.cur = w.cur ∧ (check w k).1.tape = w.tape ∧
    (k = .hexParam → (check w k).2 = w.pick.verdict.getD 1) ∧
    (k ≠ .hexParam → (∃ v, verdict w.cur k = some v ∧ (check w k).2 = v) ∨ (check w k).2 = INT_MIN) := by
  cases k with
  | hexParam => exact ⟨rfl, rfl, fun _ => rfl, fun h => absurd rfl h⟩
  | _ =>
    unfold check
    simp only
    split
    · rename_i d hd
      exact ⟨rfl, rfl, fun h => (nomatch h), fun _ => Or.inl ⟨d, hd, rfl⟩⟩
    · exact ⟨rfl, rfl, fun h => (nomatch h), fun _ => Or.inr rfl⟩

theorem passes_spec (l : List Check) : ∀ (w w' : W), Passes (l.map fun k w => check w k) w w' →
    w'.cur = w.cur ∧ w'.tape = w.tape ∧ ∀ k ∈ l, k ≠ .hexParam → ∃ v, verdict w.cur k = some v ∧ 0 < v := by
  induction l with
  | nil => intro w w' h; cases h; exact ⟨rfl, rfl, fun k hk => (nomatch hk)⟩
  | cons k l ih =>
    intro w w' h
    rw [List.map_cons] at h
    cases h with
    | cons h1 h2 =>
      obtain ⟨e1, e2, -, e3⟩ := check_spec w k
      obtain ⟨f1, f2, f3⟩ := ih _ _ h2
      refine ⟨f1.trans e1, f2.trans e2, fun j hj hne => ?_⟩
      rcases List.mem_cons.1 hj with rfl | hj
      · rcases e3 hne with ⟨v, hv, e⟩ | e
        · exact ⟨v, hv, e ▸ h1⟩
        · rw [e] at h1; simp only [INT_MIN] at h1; omega
      · rw [e1] at f3; exact f3 j hj hne

theorem rejects_spec (l : List Check) : ∀ (w : W) (d : Int) (w' : W), Rejects (l.map fun k w => check w k) w d w' →
    w'.cur = w.cur ∧ w'.tape = w.tape ∧ d ≤ 0 ∧ (d = INT_MIN ∨ ∃ k ∈ l, (k = .hexParam ∧ ∃ i, (w.tape i).verdict = some d) ∨
      (k ≠ .hexParam ∧ verdict w.cur k = some d)) := by
  induction l with
  | nil => intro w d w' h; cases h
  | cons k l ih =>
    intro w d w' h
    rw [List.map_cons] at h
    obtain ⟨e1, e2, e3, e4⟩ := check_spec w k
    cases h with
    | here h1 =>
      refine ⟨e1, e2, h1, ?_⟩
      by_cases hk : k = .hexParam
      · have e := e3 hk
        rw [e] at h1 ⊢
        refine Or.inr ⟨k, List.mem_cons_self, Or.inl ⟨hk, w.pos, ?_⟩⟩
        change w.pick.verdict = _
        cases hv : w.pick.verdict with
        | none => rw [hv] at h1; simp at h1
        | some v => rfl
      · rcases e4 hk with ⟨v, hv, e⟩ | e
        · exact Or.inr ⟨k, List.mem_cons_self, Or.inr ⟨hk, by rw [e]; exact hv⟩⟩
        · exact Or.inl e
    | later h1 h2 =>
      obtain ⟨f1, f2, f3, f4⟩ := ih _ _ _ h2
      refine ⟨f1.trans e1, f2.trans e2, f3, ?_⟩
      rw [e1, e2] at f4
      rcases f4 with f4 | ⟨j, hj, f4⟩
      · exact Or.inl f4
      · exact Or.inr ⟨j, List.mem_cons_of_mem _ hj, f4⟩

/-- a check that refuses goes back to the field -/
theorem refuses (P : Pari) (c : Config) (h : c.method = METHOD_CM) (s : Nat) (x : Cur) (k : Check) (hk : k ∈ checksOf P c s) (hne : k ≠ .hexParam) (d : Int)
    (hv : verdict x k = some d) (hd : d ≤ 0) : (s : Int) + d = 1 := by
  rw [table_checks h] at hk
  split at hk
  · subst s
    rw [List.mem_singleton] at hk
    subst hk
    simp only [verdict, Option.map_eq_some_iff] at hv
    obtain ⟨E, -, hv⟩ := hv
    split at hv <;> omega
  · split at hk
    · rw [List.mem_singleton] at hk
      exact absurd hk hne
    · cases hk

theorem hex_stage (P : Pari) (c : Config) (h : c.method = METHOD_CM) (s : Nat) (hk : Check.hexParam ∈ checksOf P c s) : s = 7 := by
  rw [table_checks h] at hk
  split at hk
  · simp at hk
  · split at hk
    · rename_i h7; exact h7.1
    · cases hk

variable {T : Nat → Pick}

/-- the calls to come are those of the tape -/
def Behaves (T : Nat → Pick) (w : W) : Prop := w.tape = T

theorem pick_eq {w : W} (hb : Behaves T w) : w.pick = T w.pos := congrFun hb w.pos

theorem pick_ok {P : Pari} {c : Config} (hT : TapeOk P c prime N T) {w : W} (hb : Behaves T w) : w.pick.Ok c := by
  rw [pick_eq hb]
  exact hT.picks w.pos

theorem failures_spec (s : Nat) (d : Int) (h : d ∈ failures s) : d ≤ 0 ∧ (0 ≤ (s : Int) + d → (s : Int) + d ≤ 1) := by
  unfold failures at h
  split at h <;> simp [Engine.INT_MIN] at h <;> (try rcases h with rfl | rfl) <;> omega

theorem keep_ok (P : Pari) (hP : P.Ok) (c : Config) (h : c.method = METHOD_CM) (hacc : accepted P c = some (N, prime)) (hT : TapeOk P c prime N T) (s : Nat) (w : W) (d : Int) (w' : W) (hs : s < 9) (hi : Inv P c prime N T s w.cur)
    (hb : Behaves T w) (hsucc : Succeeds (setup P c) s w d w') : d = 1 ∧ Inv P c prime N T (s + 1) w'.cur ∧ Behaves T w' := by
  obtain ⟨w1, h1, h2, h3⟩ := hsucc
  rw [checks_eq] at h3
  obtain ⟨f1, f2, f3⟩ := passes_spec _ _ _ h3
  rcases gen_cases P c s w w1 _ h1 with ⟨x, _, _, hr⟩ | ⟨d', hf, _, hr⟩ | ⟨x, d', ha, rfl, hr⟩ | ⟨_, hr⟩
  · cases hr
  · cases hr
    have := (failures_spec s d ((pick_ok hT hb).fail s d hf)).1
    omega
  · cases hr
    rcases goes hP h hacc hT w.pos s hs _ hi x d (pick_eq hb ▸ ha) with ⟨rfl, -, h4⟩ | ⟨h4, -⟩
    · exact ⟨rfl, by rw [f1]; exact h4 f3, f2.trans hb⟩
    · omega
  · cases hr
    simp only [INT_MIN] at h2
    omega

theorem keep_fail (P : Pari) (hP : P.Ok) (c : Config) (h : c.method = METHOD_CM) (hacc : accepted P c = some (N, prime)) (hT : TapeOk P c prime N T) (s : Nat) (w : W) (d : Int) (w' : W) (hs : s < 9) (hi : Inv P c prime N T s w.cur)
    (hb : Behaves T w) (hf : Fails (setup P c) 0 s w d w') :
    Behaves T w' ∧ (0 ≤ (s : Int) + d → ∃ k : Nat, k ≤ 1 ∧ (s : Int) + d = k ∧ Inv P c prime N T k w'.cur) := by
  rcases hf with ⟨h1, rfl⟩ | ⟨h1, h2⟩ | ⟨w1, g, h1, h2, h3⟩
  · rcases gen_cases P c s w w' _ h1 with ⟨x, hc, rfl, hr⟩ | ⟨d', hf, _, hr⟩ | ⟨x, d', ha, _, hr⟩ | ⟨_, hr⟩
    · exact ⟨hb, fun _ => ⟨0, by omega, by omega, inv_low (by omega) ((pick_ok hT hb).cut x hc).1 ((pick_ok hT hb).cut x hc).2⟩⟩
    all_goals cases hr
  · rcases gen_cases P c s w w' _ h1 with ⟨x, _, _, hr⟩ | ⟨d', hf, rfl, hr⟩ | ⟨x, d', ha, rfl, hr⟩ | ⟨rfl, hr⟩
    · cases hr
    · cases hr
      refine ⟨hb, fun h0 => ?_⟩
      obtain ⟨h1, h2⟩ := failures_spec s d ((pick_ok hT hb).fail s d hf)
      have := h2 h0
      exact ⟨((s : Int) + d).toNat, by omega, by omega, hi.low _ (by omega)⟩
    · cases hr
      refine ⟨hb, fun h0 => ?_⟩
      rcases goes hP h hacc hT w.pos s hs _ hi x d (pick_eq hb ▸ ha) with ⟨rfl, -, -⟩ | ⟨-, h4⟩
      · omega
      · exact ⟨1, by omega, (h4 h0).1, (h4 h0).2⟩
    · cases hr
      refine ⟨hb, fun h0 => ?_⟩
      simp only [INT_MIN] at h0
      omega
  · rw [checks_eq] at h3
    obtain ⟨f1, f2, f3, f4⟩ := rejects_spec _ _ _ _ h3
    rcases gen_cases P c s w w1 _ h1 with ⟨x, _, _, hr⟩ | ⟨d', hf, _, hr⟩ | ⟨x, d', ha, rfl, hr⟩ | ⟨_, hr⟩
    · cases hr
    · cases hr
      have := (failures_spec s g ((pick_ok hT hb).fail s g hf)).1
      omega
    · cases hr
      refine ⟨f2.trans hb, fun h0 => ?_⟩
      rcases goes hP h hacc hT w.pos s hs _ hi x g (pick_eq hb ▸ ha) with ⟨-, h4, -⟩ | ⟨h4, -⟩
      · have e : (s : Int) + d = 1 := by
          rcases f4 with rfl | ⟨k, hk, ⟨rfl, i, hv⟩ | ⟨hne, hv⟩⟩
          · simp only [INT_MIN] at h0; omega
          · have := (hT.picks i).verdict d (hb ▸ hv)
            have := hex_stage P c h s hk
            omega
          · exact refuses P c h s _ k hk hne d hv f3
        exact ⟨1, by omega, by omega, by rw [f1]; exact h4⟩
      · omega
    · cases hr
      simp only [INT_MIN] at h2
      omega

/-- the clean-up leaves the early members -/
theorem cleaned_keeps (P : Pari) (c : Config) (lo : Nat) : ∀ (hi : Nat) (w : W),
    (cleaned (setup P c) lo hi w).cur.info = w.cur.info ∧ (cleaned (setup P c) lo hi w).cur.seed = w.cur.seed ∧
    (cleaned (setup P c) lo hi w).tape = w.tape := by
  intro hi
  induction hi with
  | zero => intro w; exact ⟨rfl, rfl, rfl⟩
  | succ i ih =>
    intro w
    unfold cleaned
    split
    · obtain ⟨h1, h2, h3⟩ := ih (((setup P c).unroll (i + 1)).getD id w)
      rw [h1, h2, h3]
      simp only [setup, Option.getD_some]
      unfold unroll
      split
      · omega
      all_goals exact ⟨rfl, rfl, trivial⟩
    · exact ⟨rfl, rfl, rfl⟩

theorem cleaned_inv {P : Pari} {c : Config} {k s : Nat} {w : W} (hk : k ≤ 1) (h : Inv P c prime N T k w.cur) :
    Inv P c prime N T k (cleaned (setup P c) k s w).cur := by
  obtain ⟨e1, e2, -⟩ := cleaned_keeps P c k s w
  exact inv_low (by omega) (e1 ▸ h.quiet) (e2 ▸ h.noseed)

/-- **the search**: if it succeeds, the curve is complete -/
theorem search (P : Pari) (hP : P.Ok) (c : Config) (h : c.method = METHOD_CM) (hacc : accepted P c = some (N, prime)) (hT : TapeOk P c prime N T) (fuel : Nat) (w : W) (hb : Behaves T w) (h0 : Inv P c prime N T 0 w.cur) (r : Int) (st : Engine.St W)
    (hg : Engine.gen (setup P c) 0 9 fuel w = some (r, st)) : Behaves T st.w ∧ ((r = 1 ∧ Inv P c prime N T 9 st.w.cur) ∨ r = 0) := by
  unfold Engine.gen Engine.genRetry at hg
  rw [if_neg (by decide), if_neg (by decide)] at hg
  have := Engine.loop_inv (setup P c) 0 9 0 (fun s w => s ≤ 9 ∧ Inv P c prime N T s w.cur ∧ Behaves T w) (fun w => Behaves T w)
    (by
      rintro s w d w' - hs ⟨-, hi, hb⟩ hsucc
      obtain ⟨rfl, h1, h2⟩ := keep_ok P hP c h hacc hT s w d w' hs hi hb hsucc
      exact ⟨by simp only [Int.toNat_one]; omega, h1, h2⟩)
    (by
      rintro s w d w' - hs ⟨-, hi, hb⟩ hf h0
      obtain ⟨h1, h2⟩ := keep_fail P hP c h hacc hT s w d w' hs hi hb hf
      obtain ⟨k, hk, e, h3⟩ := h2 h0
      have e' : max ((s : Int) + d).toNat 0 = k := by omega
      rw [e']
      exact ⟨by omega, cleaned_inv hk h3, (cleaned_keeps P c k s w').2.2.trans h1⟩)
    (by
      rintro s w d w' - hs ⟨-, hi, hb⟩ hf
      exact (keep_fail P hP c h hacc hT s w d w' hs hi hb hf).1)
    fuel _ (Nat.zero_le _) ⟨Nat.zero_le _, h0, hb⟩ r st hg
  rcases this with ⟨rfl, h1, h2, h3, h4⟩ | ⟨rfl, h1⟩
  · have : st.state = 9 := by omega
    rw [this] at h3
    exact ⟨h4, Or.inl ⟨rfl, h3⟩⟩
  · exact ⟨h1, Or.inr rfl⟩

end Ecgen.Ordered
