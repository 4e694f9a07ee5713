import Verif.Seeded.Lemmas
import Verif.Engine.Reach

/-!
# The search as a whole
-/

namespace Ecgen.Seeded

open Whole Output Output.Spec Cli Engine Engine.Spec

theorem gen_cases (P : Pari) (c : Config) (s : Nat) (w w1 : W) (r : GenRes) (h : (setup P c).gen s w = (w1, r)) :
    (∃ x, w.pick.cut = some x ∧ w1 = { w.next with st := leftBehind w x } ∧ r = .timeout) ∨
    (∃ d, w.pick.fail s = some d ∧ w1 = w.next ∧ r = .ret d) ∨
    (∃ x d, act P c w.pick s w.st = some (x, d) ∧ w1 = { w.next with st := x } ∧ r = .ret d) ∨
    (w1 = { w.next with ub := true } ∧ r = .ret INT_MIN) := by
  change gen P c.bits (exhaustiveSetup c) s w = _ at h
  unfold gen at h
  cases h1 : w.pick.cut with
  | some x => rw [h1] at h; cases h; exact Or.inl ⟨x, rfl, rfl, rfl⟩
  | none =>
    rw [h1] at h
    cases h2 : w.pick.fail s with
    | some d => simp only [h2] at h; cases h; exact Or.inr (Or.inl ⟨d, rfl, rfl, rfl⟩)
    | none =>
      simp only [h2] at h
      change done w (act P c w.pick s w.st) = _ at h
      cases h3 : act P c w.pick s w.st with
      | none => rw [h3] at h; cases h; exact Or.inr (Or.inr (Or.inr ⟨rfl, rfl⟩))
      | some xd =>
        obtain ⟨x, d⟩ := xd
        rw [h3] at h; cases h; exact Or.inr (Or.inr (Or.inl ⟨x, d, rfl, rfl, rfl⟩))

theorem checks_eq (P : Pari) (c : Config) (s : Nat) : (setup P c).checks s = (checksOf c s).map fun k w => check P w k := rfl

/-- what a check does to the world and what it returns -/
theorem check_spec (P : Pari) (w : W) (k : Check) : (check P w k).1.st = w.st ∧ (check P w k).1.tape = w.tape ∧
    (k = .hexParam → (check P w k).2 = w.pick.verdict.getD 1) ∧
    (k ≠ .hexParam → (∃ v, verdict P w.st k = some v ∧ (check P w k).2 = v) ∨ (check P w k).2 = INT_MIN) := by
  cases k with
  | hexParam => exact ⟨rfl, rfl, fun _ => rfl, fun h => absurd rfl h⟩
  | _ =>
    unfold check
    simp only
    split
    · rename_i d hd
      exact ⟨rfl, rfl, fun h => (nomatch h), fun _ => Or.inl ⟨d, hd, rfl⟩⟩
    · exact ⟨rfl, rfl, fun h => (nomatch h), fun _ => Or.inr rfl⟩

theorem passes_spec (P : Pari) (l : List Check) : ∀ (w w' : W), Passes (l.map fun k w => check P w k) w w' →
    w'.st = w.st ∧ w'.tape = w.tape ∧ ∀ k ∈ l, k ≠ .hexParam → ∃ v, verdict P w.st k = some v ∧ 0 < v := by
  induction l with
  | nil => intro w w' h; cases h; exact ⟨rfl, rfl, fun k hk => (nomatch hk)⟩
  | cons k l ih =>
    intro w w' h
    rw [List.map_cons] at h
    cases h with
    | cons h1 h2 =>
      obtain ⟨e1, e2, -, e3⟩ := check_spec P w k
      obtain ⟨f1, f2, f3⟩ := ih _ _ h2
      refine ⟨f1.trans e1, f2.trans e2, fun j hj hne => ?_⟩
      rcases List.mem_cons.1 hj with rfl | hj
      · rcases e3 hne with ⟨v, hv, e⟩ | e
        · exact ⟨v, hv, e ▸ h1⟩
        · rw [e] at h1; simp only [INT_MIN] at h1; omega
      · rw [e1] at f3; exact f3 j hj hne

theorem rejects_spec (P : Pari) (l : List Check) : ∀ (w : W) (d : Int) (w' : W), Rejects (l.map fun k w => check P w k) w d w' →
    w'.st = w.st ∧ w'.tape = w.tape ∧ d ≤ 0 ∧ (d = INT_MIN ∨ ∃ k ∈ l, (k = .hexParam ∧ ∃ i, (w.tape i).verdict = some d) ∨
      (k ≠ .hexParam ∧ verdict P w.st k = some d)) := by
  induction l with
  | nil => intro w d w' h; cases h
  | cons k l ih =>
    intro w d w' h
    rw [List.map_cons] at h
    obtain ⟨e1, e2, e3, e4⟩ := check_spec P w k
    cases h with
    | here h1 =>
      refine ⟨e1, e2, h1, ?_⟩
      by_cases hk : k = .hexParam
      · have e := e3 hk
        rw [e] at h1 ⊢
        refine Or.inr ⟨k, List.mem_cons_self, Or.inl ⟨hk, w.pos, ?_⟩⟩
        change w.pick.verdict = _
        cases hv : w.pick.verdict with
        | none => rw [hv] at h1; simp at h1
        | some v => rfl
      · rcases e4 hk with ⟨v, hv, e⟩ | e
        · exact Or.inr ⟨k, List.mem_cons_self, Or.inr ⟨hk, by rw [e]; exact hv⟩⟩
        · exact Or.inl e
    | later h1 h2 =>
      obtain ⟨f1, f2, f3, f4⟩ := ih _ _ _ h2
      refine ⟨f1.trans e1, f2.trans e2, f3, ?_⟩
      rw [e1, e2] at f4
      rcases f4 with f4 | ⟨j, hj, f4⟩
      · exact Or.inl f4
      · exact Or.inr ⟨j, List.mem_cons_of_mem _ hj, f4⟩

/-- a check that refuses goes back to the field -/
theorem refuses (P : Pari) (c : Config) (h : Covered c) (s : Nat) (x : St) (k : Check) (hk : k ∈ checksOf c s) (hne : k ≠ .hexParam) (d : Int)
    (hv : verdict P x k = some d) (hd : d ≤ 0) : (s : Int) + d = 1 := by
  rw [table_checks c h] at hk
  split at hk
  · subst s
    rw [List.mem_singleton] at hk
    subst hk
    simp only [verdict, Option.map_eq_some_iff] at hv
    obtain ⟨E, -, hv⟩ := hv
    split at hv <;> omega
  · split at hk
    · rename_i h5
      obtain ⟨rfl, -⟩ := h5
      rw [List.mem_singleton] at hk
      subst hk
      simp only [verdict] at hv
      split at hv
      · simp only [Option.some.injEq] at hv
        split at hv <;> omega
      · cases hv
    · split at hk
      · subst s
        simp only [List.mem_cons, List.not_mem_nil, or_false] at hk
        rcases hk with rfl | rfl
        all_goals
          simp only [verdict] at hv
          split at hv
          · simp only [Option.some.injEq] at hv
            split at hv <;> omega
          · cases hv
      · split at hk
        · rw [List.mem_singleton] at hk
          exact absurd hk hne
        · cases hk

theorem hex_stage (c : Config) (h : Covered c) (s : Nat) (hk : Check.hexParam ∈ checksOf c s) : s = 7 := by
  rw [table_checks c h] at hk
  split at hk
  · simp at hk
  · split at hk
    · simp at hk
    · split at hk
      · simp at hk
      · split at hk
        · rename_i h7; exact h7.1
        · cases hk

/-- the calls to come behave -/
def Behaves (c : Config) (w : W) : Prop := ∀ i, (w.tape i).Ok c

theorem failures_spec (s : Nat) (d : Int) (h : d ∈ failures s) : d ≤ 0 ∧ (0 ≤ (s : Int) + d → (s : Int) + d ≤ 1) := by
  unfold failures at h
  split at h <;> simp [Engine.INT_MIN] at h <;> (try rcases h with rfl | rfl) <;> omega

theorem keep_ok (P : Pari) (hP : P.Ok) (c : Config) (h : Covered c) (s : Nat) (w : W) (d : Int) (w' : W) (hs : s < 9) (hi : Inv c s w.st)
    (hb : Behaves c w) (hsucc : Succeeds (setup P c) s w d w') : d = 1 ∧ Inv c (s + 1) w'.st ∧ Behaves c w' := by
  obtain ⟨w1, h1, h2, h3⟩ := hsucc
  rw [checks_eq] at h3
  obtain ⟨f1, f2, f3⟩ := passes_spec P _ _ _ h3
  rcases gen_cases P c s w w1 _ h1 with ⟨x, _, _, hr⟩ | ⟨d', hf, _, hr⟩ | ⟨x, d', ha, rfl, hr⟩ | ⟨_, hr⟩
  · cases hr
  · cases hr
    have := (failures_spec s d ((hb w.pos).fail s d hf)).1
    omega
  · cases hr
    rcases goes P hP c h w.pick (hb w.pos) s hs _ hi x d ha with ⟨rfl, -, h4⟩ | ⟨h4, -⟩
    · exact ⟨rfl, by rw [f1]; exact h4 f3, fun i => by rw [f2]; exact hb i⟩
    · omega
  · cases hr
    simp only [INT_MIN] at h2
    omega

theorem keep_fail (P : Pari) (hP : P.Ok) (c : Config) (h : Covered c) (s : Nat) (w : W) (d : Int) (w' : W) (hs : s < 9) (hi : Inv c s w.st)
    (hb : Behaves c w) (hf : Fails (setup P c) 0 s w d w') :
    Behaves c w' ∧ (0 ≤ (s : Int) + d → ∃ k : Nat, (k ≤ 1 ∨ k = 3) ∧ (s : Int) + d = k ∧ Inv c k w'.st) := by
  rcases hf with ⟨h1, rfl⟩ | ⟨h1, h2⟩ | ⟨w1, g, h1, h2, h3⟩
  · rcases gen_cases P c s w w' _ h1 with ⟨x, hc, rfl, hr⟩ | ⟨d', hf, _, hr⟩ | ⟨x, d', ha, _, hr⟩ | ⟨_, hr⟩
    · exact ⟨hb, fun _ => ⟨0, by omega, by omega, inv_low (by omega) ((hb w.pos).cut x hc).1 ((hb w.pos).cut x hc).2 fun h => by omega⟩⟩
    all_goals cases hr
  · rcases gen_cases P c s w w' _ h1 with ⟨x, _, _, hr⟩ | ⟨d', hf, rfl, hr⟩ | ⟨x, d', ha, rfl, hr⟩ | ⟨rfl, hr⟩
    · cases hr
    · cases hr
      refine ⟨hb, fun h0 => ?_⟩
      obtain ⟨h1, h2⟩ := failures_spec s d ((hb w.pos).fail s d hf)
      have := h2 h0
      exact ⟨((s : Int) + d).toNat, by omega, by omega, hi.low _ (by omega) (by omega)⟩
    · cases hr
      refine ⟨hb, fun h0 => ?_⟩
      rcases goes P hP c h w.pick (hb w.pos) s hs _ hi x d ha with ⟨rfl, -, -⟩ | ⟨-, h4⟩
      · omega
      · exact h4 h0
    · cases hr
      refine ⟨hb, fun h0 => ?_⟩
      simp only [INT_MIN] at h0
      omega
  · rw [checks_eq] at h3
    obtain ⟨f1, f2, f3, f4⟩ := rejects_spec P _ _ _ _ h3
    rcases gen_cases P c s w w1 _ h1 with ⟨x, _, _, hr⟩ | ⟨d', hf, _, hr⟩ | ⟨x, d', ha, rfl, hr⟩ | ⟨_, hr⟩
    · cases hr
    · cases hr
      have := (failures_spec s g ((hb w.pos).fail s g hf)).1
      omega
    · cases hr
      refine ⟨fun i => by rw [f2]; exact hb i, fun h0 => ?_⟩
      rcases goes P hP c h w.pick (hb w.pos) s hs _ hi x g ha with ⟨-, h4, -⟩ | ⟨h4, -⟩
      · have e : (s : Int) + d = 1 := by
          rcases f4 with rfl | ⟨k, hk, ⟨rfl, i, hv⟩ | ⟨hne, hv⟩⟩
          · simp only [INT_MIN] at h0; omega
          · have := (hb i).verdict d hv
            have := hex_stage c h s hk
            omega
          · exact refuses P c h s _ k hk hne d hv f3
        exact ⟨1, by omega, by omega, by rw [f1]; exact h4⟩
      · omega
    · cases hr
      simp only [INT_MIN] at h2
      omega

/-- the clean-up leaves the early members -/
theorem cleaned_keeps (P : Pari) (c : Config) (lo : Nat) : ∀ (hi : Nat) (w : W),
    (cleaned (setup P c) lo hi w).st.cur.info = w.st.cur.info ∧ (cleaned (setup P c) lo hi w).st.cur.seed = w.st.cur.seed ∧
    (cleaned (setup P c) lo hi w).st.cur.field = w.st.cur.field ∧ (cleaned (setup P c) lo hi w).st.cur.a = w.st.cur.a ∧
    (cleaned (setup P c) lo hi w).st.upd = w.st.upd ∧ (cleaned (setup P c) lo hi w).tape = w.tape := by
  intro hi
  induction hi with
  | zero => intro w; exact ⟨rfl, rfl, rfl, rfl, rfl, rfl⟩
  | succ i ih =>
    intro w
    unfold cleaned
    split
    · obtain ⟨h1, h2, h3, h4, h5, h6⟩ := ih (((setup P c).unroll (i + 1)).getD id w)
      rw [h1, h2, h3, h4, h5, h6]
      simp only [setup, Option.getD_some]
      unfold unroll
      split
      · omega
      all_goals exact ⟨rfl, rfl, rfl, rfl, trivial, trivial⟩
    · exact ⟨rfl, rfl, rfl, rfl, rfl, rfl⟩

theorem cleaned_inv {P : Pari} {c : Config} {k s : Nat} {w : W} (hk : k ≤ 1 ∨ k = 3) (h : Inv c k w.st) : Inv c k (cleaned (setup P c) k s w).st := by
  obtain ⟨e1, e2, e3, e4, e5, -⟩ := cleaned_keeps P c k s w
  refine ⟨e1 ▸ h.quiet, e2 ▸ h.noseed, e2 ▸ h.seed, fun h2 => ?_, fun h9 => absurd h9 (by omega)⟩
  obtain ⟨q, hq, hkn⟩ := h.known h2
  exact ⟨q, hq, by rw [e3]; exact hkn.field, hkn.prime, by rw [e2, e5]; exact hkn.next, by rw [e4]; exact hkn.a, fun h4 => absurd h4 (by omega)⟩

/-- **the search**: if it succeeds, the curve is complete -/
theorem search (P : Pari) (hP : P.Ok) (c : Config) (h : Covered c) (fuel : Nat) (w : W) (hb : Behaves c w) (h0 : Inv c 0 w.st) (r : Int) (st : Engine.St W)
    (hg : Engine.gen (setup P c) 0 9 fuel w = some (r, st)) : Behaves c st.w ∧ ((r = 1 ∧ Inv c 9 st.w.st) ∨ r = 0) := by
  unfold Engine.gen Engine.genRetry at hg
  rw [if_neg (by decide), if_neg (by decide)] at hg
  have := Engine.loop_inv (setup P c) 0 9 0 (fun s w => s ≤ 9 ∧ Inv c s w.st ∧ Behaves c w) (fun w => Behaves c w)
    (by
      rintro s w d w' - hs ⟨-, hi, hb⟩ hsucc
      obtain ⟨rfl, h1, h2⟩ := keep_ok P hP c h s w d w' hs hi hb hsucc
      exact ⟨by simp only [Int.toNat_one]; omega, h1, h2⟩)
    (by
      rintro s w d w' - hs ⟨-, hi, hb⟩ hf h0
      obtain ⟨h1, h2⟩ := keep_fail P hP c h s w d w' hs hi hb hf
      obtain ⟨k, hk, e, h3⟩ := h2 h0
      have e' : max ((s : Int) + d).toNat 0 = k := by omega
      rw [e']
      refine ⟨by omega, cleaned_inv hk h3, fun i => ?_⟩
      rw [(cleaned_keeps P c k s w').2.2.2.2.2]
      exact h1 i)
    (by
      rintro s w d w' - hs ⟨-, hi, hb⟩ hf
      exact (keep_fail P hP c h s w d w' hs hi hb hf).1)
    fuel _ (Nat.zero_le _) ⟨Nat.zero_le _, h0, hb⟩ r st hg
  rcases this with ⟨rfl, h1, h2, h3, h4⟩ | ⟨rfl, h1⟩
  · have : st.state = 9 := by omega
    rw [this] at h3
    exact ⟨h4, Or.inl ⟨rfl, h3⟩⟩
  · exact ⟨h1, Or.inr rfl⟩

end Ecgen.Seeded
