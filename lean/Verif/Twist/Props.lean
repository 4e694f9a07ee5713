import Verif.Twist.Model
import Verif.Engine.Props
import Verif.Count.Spec
import Mathlib.Algebra.Field.ZMod
import Mathlib.Tactic.NormNum.Prime

/-!
# The printed order is the order of the printed curve (C35, C62)
-/

namespace Ecgen.Twist
open Ecgen.Engine Ecgen.Engine.Spec

variable {κ τ : Type}

/-- equal up to the environment -/
def Same (w w' : World κ τ) : Prop := w'.cur = w.cur ∧ w'.order = w.order ∧ w'.cached = w.cached

theorem Same.trans {a b c : World κ τ} (h : Same a b) (h' : Same b c) : Same a c :=
  ⟨h'.1.trans h.1, h'.2.1.trans h.2.1, h'.2.2.trans h.2.2⟩

theorem passes_same (cs : List (World κ τ → τ × Int)) (w w' : World κ τ)
    (h : Passes (cs.map fun c w => let r := c w; ({ w with env := r.1 }, r.2)) w w') : Same w w' := by
  induction cs generalizing w with
  | nil => cases h; exact ⟨rfl, rfl, rfl⟩
  | cons c cs ih =>
    rw [List.map_cons] at h
    cases h with
    | cons h1 h2 =>
      have hs : Same w { w with env := (c w).1 } := ⟨rfl, rfl, rfl⟩
      exact hs.trans (ih _ h2)

theorem rejects_same (cs : List (World κ τ → τ × Int)) (w w' : World κ τ) (d : Int)
    (h : Rejects (cs.map fun c w => let r := c w; ({ w with env := r.1 }, r.2)) w d w') : Same w w' := by
  induction cs generalizing w with
  | nil => cases h
  | cons c cs ih =>
    rw [List.map_cons] at h
    have hs : Same w { w with env := (c w).1 } := ⟨rfl, rfl, rfl⟩
    cases h with
    | here h1 => exact hs
    | later h1 h2 => exact hs.trans (ih _ h2)

theorem rejects_nonpos {σ : Type} {cs : List (σ → σ × Int)} {w w' : σ} {d : Int} (h : Rejects cs w d w') : d ≤ 0 := by
  induction h with
  | here h => exact h
  | later _ _ ih => exact ih

theorem cleaned_spec (C : Cfg κ τ) (lo hi : Nat) (w : World κ τ) :
    (cleaned (setup C) lo hi w).cur = w.cur ∧ (cleaned (setup C) lo hi w).order = w.order ∧
    (4 ≤ lo ∨ hi < 4 → (cleaned (setup C) lo hi w).cached = w.cached) := by
  induction hi generalizing w with
  | zero => exact ⟨rfl, rfl, fun _ => rfl⟩
  | succ n ih =>
    unfold cleaned
    split
    · rename_i hlt
      have hu : (((setup C).unroll (n + 1)).getD id w).cur = w.cur ∧ (((setup C).unroll (n + 1)).getD id w).order = w.order ∧
          (n + 1 ≠ 4 → ((setup C).unroll (n + 1)).getD id w = w) := by
        unfold setup
        dsimp only
        split
        · rename_i h4; exact ⟨rfl, rfl, fun h => absurd h4 h⟩
        · split <;> exact ⟨rfl, rfl, fun _ => rfl⟩
      obtain ⟨h1, h2, h3⟩ := ih (((setup C).unroll (n + 1)).getD id w)
      refine ⟨h1.trans hu.1, h2.trans hu.2.1, fun h => ?_⟩
      rw [h3 (by omega), hu.2.2 (by omega)]
    · exact ⟨rfl, rfl, fun _ => rfl⟩

theorem gen_ret_one (C : Cfg κ τ) (s : Nat) (hs : s = 4 ∨ s = 5) (w w' : World κ τ) (d : Int) (h : gen C s w = (w', .ret d))
    (hd : 0 < d) : d = 1 := by
  unfold gen at h
  rw [if_neg (by omega), if_neg (by omega)] at h
  split at h
  · cases h
  · rcases hs with rfl | rfl
    · rw [if_pos rfl] at h
      unfold genCurve at h
      split at h
      · split at h <;> (cases h; rfl)
      · cases h; omega
    · rw [if_neg (by omega)] at h
      unfold genOrder at h
      dsimp only at h
      generalize (if C.useCache then w.cached.getD (C.count w.cur) else C.count w.cur) = n at h
      by_cases ha : C.accept n = true
      · rw [if_pos ha] at h; cases h; rfl
      · rw [if_neg ha] at h; cases h; omega

/-- the order is right: the cached order, if any, is that of the curve from the order stage on, and after the order stage the
printed order is -/
def Right (C : Cfg κ τ) (s : Nat) (w : World κ τ) : Prop :=
  (5 ≤ s → C.useCache = true → w.cached = none ∨ w.cached = some (C.count w.cur)) ∧
  (6 ≤ s → w.order = some (C.count w.cur))

theorem right_same (C : Cfg κ τ) (s : Nat) (w w' : World κ τ) (h : Same w w') (hr : Right C s w) : Right C s w' := by
  obtain ⟨h1, h2, h3⟩ := h
  unfold Right
  rw [h1, h2, h3]
  exact hr

theorem right_lt (C : Cfg κ τ) (s : Nat) (w : World κ τ) (h : s < 5) : Right C s w :=
  ⟨fun h' => absurd h' (by omega), fun h' => absurd h' (by omega)⟩

theorem count_right (C : Cfg κ τ) (w : World κ τ)
    (h : C.useCache = true → w.cached = none ∨ w.cached = some (C.count w.cur)) :
    (if C.useCache then w.cached.getD (C.count w.cur) else C.count w.cur) = C.count w.cur := by
  split
  · rename_i hu
    rcases h hu with h | h <;> rw [h] <;> rfl
  · rfl

/-- one call of a generator from the order stage on keeps the order right; success of the curve stage makes it so -/
theorem gen_right (C : Cfg κ τ) (hC : C.twist = true → C.useCache = false) (s : Nat) (w w1 : World κ τ) (r : GenRes)
    (hr : Right C s w) (h : gen C s w = (w1, r)) :
    (5 ≤ s → Right C s w1) ∧ (∀ d, 4 ≤ s → r = .ret d → 0 < d → Right C (s + 1) w1) := by
  have same_case : ∀ w1, Same w w1 → (5 ≤ s → Right C s w1) ∧
      (6 ≤ s → Right C (s + 1) w1) := by
    intro w1 hs
    refine ⟨fun _ => right_same C s w w1 hs hr, fun h6 => ?_⟩
    refine right_same C _ w w1 hs ⟨fun _ => hr.1 (by omega), fun _ => hr.2 h6⟩
  unfold gen at h
  split at h
  · rename_i h4
    exact ⟨fun h => absurd h (by omega), fun d h => absurd h (by omega)⟩
  · split at h
    · rename_i h6
      cases h
      have := same_case { w with env := (C.late s w).1 } ⟨rfl, rfl, rfl⟩
      exact ⟨this.1, fun _ _ _ _ => this.2 h6⟩
    · rename_i h4 h6
      split at h
      · cases h
        exact ⟨fun h5 => right_same C s w _ ⟨rfl, rfl, rfl⟩ hr, fun d _ h => by cases h⟩
      · split at h
        · rename_i hs
          subst hs
          refine ⟨fun h5 => absurd h5 (by omega), fun d _ hd hpos => ?_⟩
          unfold genCurve at h
          split at h
          · split at h
            · rename_i ht
              have hu := hC ht
              cases h
              exact ⟨fun _ hu' => absurd (hu.symm.trans hu') (by decide), fun h6 => absurd h6 (by omega)⟩
            · cases h
              exact ⟨fun _ _ => Or.inl rfl, fun h6 => absurd h6 (by omega)⟩
          · cases h
            cases hd
            omega
        · have hs : s = 5 := by omega
          subst hs
          have hn := count_right C w (hr.1 (le_refl _))
          unfold genOrder at h
          dsimp only at h
          rw [hn] at h
          split at h
          · cases h
            exact ⟨fun _ => ⟨fun _ _ => Or.inr rfl, fun _ => rfl⟩, fun _ _ _ _ => ⟨fun _ _ => Or.inr rfl, fun _ => rfl⟩⟩
          · cases h
            refine ⟨fun _ => ⟨fun _ hu => ?_, fun h6 => absurd h6 (by omega)⟩, fun d _ hd hpos => ?_⟩
            · right
              simp only
              rw [if_pos hu]
            · cases hd; omega

theorem right_run (C : Cfg κ τ) (hC : C.twist = true → C.useCache = false)
    (hone : ∀ s w e d, C.late s w = (e, .ret d) → d ≤ 1) (hearly : ∀ s c e r, C.early s c e = r → ∀ d, r.2.2 = .ret d → d ≤ 1)
    (retry : Int) (fuel : Nat) (w : World κ τ) (st : St (World κ τ))
    (h : genRetry (setup C) 0 9 retry fuel w = some (1, st)) : st.w.order = some (C.count st.w.cur) := by
  have hok : ∀ s w d w', 0 ≤ s → s < 9 → Right C s w → Succeeds (setup C) s w d w' → Right C (s + d.toNat) w' := by
    rintro s w d w' - hs hr ⟨w1, hg', hd, hp⟩
    have hg : gen C s w = (w1, .ret d) := hg'
    clear hg'
    have hsame : Same w1 w' := passes_same _ _ _ hp
    have hd1 : d = 1 := by
      by_cases h4 : s < 4
      · unfold gen at hg
        rw [if_pos h4] at hg
        have h2 := congrArg Prod.snd hg
        have := hearly s w.cur w.env _ rfl d h2
        omega
      · by_cases h6 : 5 < s
        · unfold gen at hg
          rw [if_neg h4, if_pos h6] at hg
          have h2 : (C.late s w).2 = .ret d := congrArg Prod.snd hg
          have := hone s w (C.late s w).1 d (by rw [← h2])
          omega
        · exact gen_ret_one C s (by omega) w w1 d hg hd
    subst hd1
    apply right_same C _ w1 w' hsame
    by_cases h4 : 4 ≤ s
    · exact (gen_right C hC s w w1 _ hr hg).2 1 h4 rfl (by norm_num)
    · exact right_lt C _ _ (by simp; omega)
  have hback : ∀ s w d w', 0 ≤ s → s < 9 → Right C s w → Fails (setup C) 0 s w d w' → 0 ≤ (s : Int) + d →
      Right C (max ((s : Int) + d).toNat 0) (cleaned (setup C) (max ((s : Int) + d).toNat 0) s w') := by
    intro s w d w' _ hs hr hf h0
    have hd : d ≤ 0 := by
      rcases hf with ⟨_, rfl⟩ | ⟨_, h⟩ | ⟨w1, g, _, _, h⟩
      · simp
      · exact h
      · clear hr
        exact rejects_nonpos h
    by_cases h5 : (max ((s : Int) + d).toNat 0) < 5
    · exact right_lt C _ _ h5
    · have hs5 : 5 ≤ s := by omega
      have hw' : Right C s w' := by
        rcases hf with ⟨h, _⟩ | ⟨h, _⟩ | ⟨w1, g, h, _, hrej⟩
        · exact (gen_right C hC s w w' _ hr h).1 hs5
        · exact (gen_right C hC s w w' _ hr h).1 hs5
        · exact right_same C s w1 w' (rejects_same _ _ _ _ hrej) ((gen_right C hC s w w1 _ hr h).1 hs5)
      obtain ⟨c1, c2, c3⟩ := cleaned_spec C (max ((s : Int) + d).toNat 0) s w'
      apply right_same C _ w' _ ⟨c1, c2, c3 (Or.inl (by omega))⟩
      exact ⟨fun _ => hw'.1 hs5, fun h6 => hw'.2 (by omega)⟩
  have := search_success_invariant (setup C) 0 9 retry (Right C) hok hback fuel w st (right_lt C 0 w (by omega)) h
  exact this.2.2 (by omega)

/-- C62: outside of twist mode, whatever order filter is used, whatever later stages and checks do, however often the search
steps back and whatever was left behind by earlier attempts, the printed order is the order of the printed curve. -/
theorem plain_order (C : Cfg κ τ) (hC : C.twist = false)
    (hone : ∀ s w e d, C.late s w = (e, .ret d) → d ≤ 1) (hearly : ∀ s c e r, C.early s c e = r → ∀ d, r.2.2 = .ret d → d ≤ 1)
    (retry : Int) (fuel : Nat) (w : World κ τ) (st : St (World κ τ))
    (h : genRetry (setup C) 0 9 retry fuel w = some (1, st)) : st.w.order = some (C.count st.w.cur) :=
  right_run C (by rw [hC]; intro h; cases h) hone hearly retry fuel w st h

/-- C35, with an order generator that counts afresh (`--prime`): the same in twist mode. -/
theorem twist_recount (C : Cfg κ τ) (hC : C.useCache = false)
    (hone : ∀ s w e d, C.late s w = (e, .ret d) → d ≤ 1) (hearly : ∀ s c e r, C.early s c e = r → ∀ d, r.2.2 = .ret d → d ≤ 1)
    (retry : Int) (fuel : Nat) (w : World κ τ) (st : St (World κ τ))
    (h : genRetry (setup C) 0 9 retry fuel w = some (1, st)) : st.w.order = some (C.count st.w.cur) :=
  right_run C (fun _ => hC) hone hearly retry fuel w st h

/-- C35, with the cached cardinality (the default order generator, `--cofactor`, `--smooth`): right as long as nothing fails from the
checks of the order stage on and `curve->order` is unset at the start. -/
theorem twist_partial (C : Cfg κ τ) (hlate : ∀ s w, (C.late s w).2 = .ret 1) (hcheck : ∀ s w, 5 ≤ s → ∀ c ∈ C.checks s, 0 < (c w).2)
    (hearly : ∀ s c e r, C.early s c e = r → ∀ d, r.2.2 = .ret d → d ≤ 1)
    (retry : Int) (fuel : Nat) (w : World κ τ) (st : St (World κ τ)) (hw : w.order = none)
    (h : genRetry (setup C) 0 9 retry fuel w = some (1, st)) : st.w.order = some (C.count st.w.cur) := by
  let P : Nat → World κ τ → Prop := fun s w =>
    (s ≤ 5 → w.order = none) ∧ (s = 5 → w.cached = none) ∧ (6 ≤ s → w.order = some (C.count w.cur))
  have hsameP : ∀ s (w w' : World κ τ), Same w w' → P s w → P s w' := by
    rintro s w w' ⟨h1, h2, h3⟩ hp
    show _ ∧ _ ∧ _
    rw [h1, h2, h3]
    exact hp
  have hok : ∀ s w d w', 0 ≤ s → s < 9 → P s w → Succeeds (setup C) s w d w' → P (s + d.toNat) w' := by
    rintro s w d w' - hs hr ⟨w1, hg', hd, hp⟩
    have hg : gen C s w = (w1, .ret d) := hg'
    clear hg'
    apply hsameP _ w1 w' (passes_same _ _ _ hp)
    by_cases h4 : s < 4
    · unfold gen at hg
      rw [if_pos h4] at hg
      have h2 := congrArg Prod.snd hg
      have := hearly s w.cur w.env _ rfl d h2
      have hd1 : d = 1 := by omega
      subst hd1
      have h3 := (congrArg Prod.fst hg).symm
      simp only at h3
      subst h3
      exact ⟨fun _ => hr.1 (by omega), fun h => absurd h (by simp; omega), fun h => absurd h (by simp; omega)⟩
    · by_cases h6 : 5 < s
      · unfold gen at hg
        rw [if_neg h4, if_pos h6] at hg
        have h2 : (C.late s w).2 = .ret d := congrArg Prod.snd hg
        rw [hlate s w] at h2
        cases h2
        have h3 := (congrArg Prod.fst hg).symm
        simp only at h3
        subst h3
        exact ⟨fun h => absurd h (by simp; omega), fun h => absurd h (by simp; omega), fun _ => hr.2.2 (by omega)⟩
      · have hd1 := gen_ret_one C s (by omega) w w1 d hg hd
        subst hd1
        unfold gen at hg
        rw [if_neg h4, if_neg h6] at hg
        split at hg
        · cases hg
        · rename_i hcut
          split at hg
          · rename_i hs4
            subst hs4
            have ho := hr.1 (by omega)
            unfold genCurve at hg
            split at hg
            · split at hg
              · cases hg
                refine ⟨fun _ => ?_, fun _ => ?_, fun h => absurd h (by simp)⟩
                · simp [ho]
                · simp [ho]
              · cases hg
                exact ⟨fun _ => ho, fun _ => rfl, fun h => absurd h (by simp)⟩
            · cases hg
          · have hs5 : s = 5 := by omega
            subst hs5
            have hc := hr.2.1 rfl
            have hn := count_right C w (fun _ => Or.inl hc)
            unfold genOrder at hg
            dsimp only at hg
            rw [hn] at hg
            split at hg
            · cases hg
              exact ⟨fun h => absurd h (by simp), fun h => absurd h (by simp), fun _ => rfl⟩
            · cases hg
  have hback : ∀ s w d w', 0 ≤ s → s < 9 → P s w → Fails (setup C) 0 s w d w' → 0 ≤ (s : Int) + d →
      P (max ((s : Int) + d).toNat 0) (cleaned (setup C) (max ((s : Int) + d).toNat 0) s w') := by
    intro s w d w' _ hs hr hf h0
    have hrej : 5 ≤ s → ∀ w1 d w', ¬ Rejects ((setup C).checks s) w1 d w' := by
      intro h5 w1 d w' hr
      have hall : ∀ c ∈ (setup C).checks s, ∀ w, 0 < (c w).2 := by
        intro c hc w
        obtain ⟨c', hc', rfl⟩ := List.mem_map.1 hc
        exact hcheck s w h5 c' hc'
      generalize (setup C).checks s = cs at hr hall
      induction hr with
      | @here c cs w h => have := hall c List.mem_cons_self w; omega
      | later _ _ ih => exact ih fun c hc => hall c (List.mem_cons_of_mem _ hc)
    have hd : d ≤ 0 := by
      rcases hf with ⟨_, rfl⟩ | ⟨_, h⟩ | ⟨w1, g, _, _, h⟩
      · simp
      · exact h
      · exact rejects_nonpos h
    have hs5 : s ≤ 5 := by
      by_contra h6
      rcases hf with ⟨h, _⟩ | ⟨h, hd⟩ | ⟨w1, g, h, _, hrj⟩
      · have h : gen C s w = _ := h
        unfold gen at h
        rw [if_neg (by omega), if_pos (by omega)] at h
        have h2 : (C.late s w).2 = .timeout := congrArg Prod.snd h
        rw [hlate] at h2; cases h2
      · have h : gen C s w = _ := h
        unfold gen at h
        rw [if_neg (by omega), if_pos (by omega)] at h
        have h2 : (C.late s w).2 = .ret d := congrArg Prod.snd h
        rw [hlate] at h2; cases h2; omega
      · exact hrej (by omega) _ _ _ hrj
    have ho := hr.1 hs5
    have key : w'.order = none ∧ (5 ≤ s → w'.cached = none ∨ d ≤ -4) := by
      have hgen : ∀ w1 r, gen C s w = (w1, r) → (w1.order = none ∨ s = 5) ∧
          (s = 5 → (∀ d, r = .ret d → d ≤ 0 → w1.order = none ∧ d = -4) ∧ (r = .timeout → w1.order = none ∧ w1.cached = none)) := by
        intro w1 r h
        unfold gen at h
        split at h
        · cases h; exact ⟨Or.inl ho, fun h => absurd h (by omega)⟩
        · rw [if_neg (by omega)] at h
          split at h
          · cases h
            exact ⟨Or.inl ho, fun h5 => ⟨fun d h => GenRes.noConfusion h, fun _ => ⟨ho, hr.2.1 h5⟩⟩⟩
          · split at h
            · rename_i h4
              subst h4
              refine ⟨Or.inl ?_, fun h => absurd h (by omega)⟩
              unfold genCurve at h
              split at h
              · split at h
                · cases h; simp [ho]
                · cases h; exact ho
              · cases h; exact ho
            · have hs5 : s = 5 := by omega
              refine ⟨Or.inr hs5, fun _ => ?_⟩
              have hn := count_right C w (fun _ => Or.inl (hr.2.1 hs5))
              unfold genOrder at h
              dsimp only at h
              rw [hn] at h
              split at h
              · cases h
                exact ⟨fun d h hd => by cases h; omega, fun h => GenRes.noConfusion h⟩
              · cases h
                exact ⟨fun d h _ => by cases h; exact ⟨ho, rfl⟩, fun h => GenRes.noConfusion h⟩
      rcases hf with ⟨h, hd'⟩ | ⟨h, hd'⟩ | ⟨w1, g, h, hg, hrj⟩
      · obtain ⟨a, b⟩ := hgen _ _ h
        by_cases h5 : s = 5
        · have := (b h5).2 rfl
          exact ⟨this.1, fun _ => Or.inl this.2⟩
        · exact ⟨a.resolve_right h5, fun h => absurd h (by omega)⟩
      · obtain ⟨a, b⟩ := hgen _ _ h
        by_cases h5 : s = 5
        · have := (b h5).1 d rfl hd'
          exact ⟨this.1, fun _ => Or.inr (by omega)⟩
        · exact ⟨a.resolve_right h5, fun h => absurd h (by omega)⟩
      · by_cases h5 : s = 5
        · exact absurd hrj (hrej (by omega) _ _ _)
        · obtain ⟨a, b⟩ := hgen _ _ h
          have hsm := rejects_same _ _ _ _ hrj
          exact ⟨hsm.2.1.trans (a.resolve_right h5), fun h => absurd h (by omega)⟩
    obtain ⟨c1, c2, c3⟩ := cleaned_spec C (max ((s : Int) + d).toNat 0) s w'
    refine ⟨fun _ => c2.trans key.1, fun h5 => ?_, fun h6 => absurd h6 (by omega)⟩
    rw [c3 (by omega)]
    rcases key.2 (by omega) with h | h
    · exact h
    · omega
  have := search_success_invariant (setup C) 0 9 retry P hok hback fuel w st
    ⟨fun _ => hw, fun h => absurd h (by omega), fun h => absurd h (by omega)⟩ h
  exact this.2.2.2 (by omega)

/-! ## The stale order -/

/-- a run with two candidates: the first one is refused by the generator stage (as `gens_gen_one` or an embedding degree check
does, returning -5), the second is accepted; `t` is the twist -/
def demo (size count : κ → Int) (t : κ → κ) (c1 c2 : κ) : Cfg κ Nat where
  size := size
  count := count
  valid _ := true
  tw c e := (t c, e)
  early s c e := if s = 1 then (if e = 0 then c1 else c2, e + 1, .ret 1) else (c, e, .ret 1)
  late s w := (w.env, if s = 6 ∧ w.env = 1 then .ret (-5) else .ret 1)
  checks _ := []
  twist := true
  useCache := true
  accept _ := true
  cut _ _ := none

/-- from stage `s` in world `w` the search ends successfully in world `wf` -/
def Runs {σ : Type} (S : Setup σ) (fuel s : Nat) (w wf : σ) : Prop :=
  ∀ tries log, ∃ st, loop S 0 9 0 fuel ⟨s, tries, w, log⟩ = some (1, st) ∧ st.w = wf

theorem Runs.one {σ : Type} {S : Setup σ} {fuel s : Nat} {w w1 wf : σ} (hs : s < 9) (hg : S.gen s w = (w1, .ret 1))
    (hc : S.checks s = []) (h : Runs S fuel (s + 1) w1 wf) : Runs S (fuel + 1) s w wf := by
  intro tries log
  obtain ⟨st, h1, h2⟩ := h (setTries tries s 0) (Ev.gen s (.ret 1) :: log)
  refine ⟨st, ?_, h2⟩
  unfold loop
  rw [if_pos hs]
  have he : execStage S 0 s w log = (w1, 1, Ev.gen s (.ret 1) :: log) := by
    unfold execStage
    rw [hg]
    simp only [hc, runChecks]
    simp
  unfold step
  simp only [he]
  have hm : (max ((s : Int) + 1) ((0 : Nat) : Int)).toNat = s + 1 := by omega
  simp only [hm]
  simpa using h1

theorem Runs.back {σ : Type} {S : Setup σ} {fuel s s' : Nat} {d : Int} {w w1 w2 wf : σ} (hs : s < 9)
    (hg : S.gen s w = (w1, .ret d)) (hd : d ≤ 0) (hd' : -9 ≤ d) (hs' : (s : Int) + d = s')
    (hu : ∀ log, ∃ log', unrollLoop S s' s w1 log = (w2, log')) (h : Runs S fuel s' w2 wf) : Runs S (fuel + 1) s w wf := by
  intro tries log
  obtain ⟨log', hl⟩ := hu (Ev.gen s (.ret d) :: log)
  obtain ⟨st, h1, h2⟩ := h tries log'
  refine ⟨st, ?_, h2⟩
  unfold loop
  rw [if_pos hs]
  have he : execStage S 0 s w log = (w1, d, Ev.gen s (.ret d) :: log) := by
    unfold execStage
    rw [hg]
    simp only
    rw [if_neg (by omega)]
  unfold step
  simp only [he]
  have hm : (max ((s : Int) + d) ((0 : Nat) : Int)).toNat = s' := by omega
  have hn : ¬ (d = INT_MIN ∨ (s : Int) + d < 0) := by unfold INT_MIN; omega
  simp only [hm, hd, if_true, hn, if_false]
  simp only [ne_eq, not_true_eq_false, if_false, false_and, hl]
  exact h1

theorem Runs.done {σ : Type} {S : Setup σ} {s : Nat} {w : σ} {fuel : Nat} (hs : ¬ s < 9) : Runs S fuel s w w := by
  intro tries log
  refine ⟨⟨s, tries, w, log⟩, ?_, rfl⟩
  cases fuel <;> (unfold loop; rw [if_neg hs])

/-- C35 is false: the order reported for the twist of `c2` is `2 q + 2` minus the order of the refused twist of `c1`. -/
theorem twist_stale (size count : κ → Int) (t : κ → κ) (c1 c2 c0 : κ) :
    ∃ st, genRetry (setup (demo size count t c1 c2)) 0 9 0 20 ⟨c0, none, none, 0⟩ = some (1, st) ∧
      st.w.cur = t c2 ∧ st.w.order = some (size c2 * 2 + 2 - count (t c1)) := by
  have h : Runs (setup (demo size count t c1 c2)) 20 0 ⟨c0, none, none, 0⟩
      ⟨t c2, some (size c2 * 2 + 2 - count (t c1)), some (size c2 * 2 + 2 - count (t c1)), 2⟩ := by
    refine Runs.one (by norm_num) rfl rfl ?_
    refine Runs.one (by norm_num) rfl rfl ?_
    refine Runs.one (by norm_num) rfl rfl ?_
    refine Runs.one (by norm_num) rfl rfl ?_
    refine Runs.one (by norm_num) rfl rfl ?_
    refine Runs.one (by norm_num) rfl rfl ?_
    refine Runs.back (s' := 1) (d := -5) (by norm_num) rfl (by norm_num) (by norm_num) rfl (fun log => ⟨_, rfl⟩) ?_
    refine Runs.one (by norm_num) rfl rfl ?_
    refine Runs.one (by norm_num) rfl rfl ?_
    refine Runs.one (by norm_num) rfl rfl ?_
    refine Runs.one (by norm_num) rfl rfl ?_
    refine Runs.one (by norm_num) rfl rfl ?_
    refine Runs.one (by norm_num) rfl rfl ?_
    refine Runs.one (by norm_num) rfl rfl ?_
    refine Runs.one (by norm_num) rfl rfl ?_
    exact Runs.done (by norm_num)
  obtain ⟨st, h1, h2⟩ := h (fun _ => 0) []
  refine ⟨st, ?_, by rw [h2], by rw [h2]⟩
  unfold genRetry
  rw [if_neg (by norm_num), if_neg (by norm_num)]
  exact h1

instance : Fact (Nat.Prime 7) := ⟨by norm_num⟩

/-- the order of `y² = x³ + a x + b` over GF(7) -/
def count7 (c : ZMod 7 × ZMod 7) : Int := Count.card c.1 c.2

/-- C35 is false, with curves over GF(7) and the twist by the non-square 3: the twist of `y² = x³ + 3` (3 points) is refused, then
that of `y² = x³ + x` is printed with order 13, while it has 8 points. -/
theorem twist_stale_false :
    ∃ st, genRetry (setup (demo (fun _ => 7) count7 (fun c => (c.1 * 3 ^ 2, c.2 * 3 ^ 3)) (0, 3) (1, 0))) 0 9 0 20
      ⟨(0, 0), none, none, 0⟩ = some (1, st) ∧ st.w.order = some 13 ∧ count7 st.w.cur = 8 := by
  obtain ⟨st, h1, h2, h3⟩ := twist_stale (fun _ => 7) count7 (fun c => (c.1 * 3 ^ 2, c.2 * 3 ^ 3)) (0, 3) (1, 0) (0, 0)
  refine ⟨st, h1, ?_, ?_⟩
  · rw [h3]
    decide +kernel
  · rw [h2]
    decide +kernel

/-- the hypotheses of `plain_order` are met, with a run that steps back once -/
example (size count : κ → Int) (c1 c2 c0 : κ) :
    let C := { demo size count id c1 c2 with twist := false }
    (∀ s w e d, C.late s w = (e, .ret d) → d ≤ 1) ∧
    (∀ s c e r, C.early s c e = r → ∀ d, r.2.2 = .ret d → d ≤ 1) ∧
    Runs (setup C) 20 0 ⟨c0, none, none, 0⟩ ⟨c2, some (count c2), some (count c2), 2⟩ := by
  refine ⟨?_, ?_, ?_⟩
  · intro s w e d h
    have := congrArg Prod.snd h
    simp only [demo] at this
    split at this <;> cases this <;> norm_num
  · intro s c e r h d hd
    subst h
    simp only [demo] at hd
    split at hd <;> cases hd <;> norm_num
  · refine Runs.one (by norm_num) rfl rfl ?_
    refine Runs.one (by norm_num) rfl rfl ?_
    refine Runs.one (by norm_num) rfl rfl ?_
    refine Runs.one (by norm_num) rfl rfl ?_
    refine Runs.one (by norm_num) rfl rfl ?_
    refine Runs.one (by norm_num) rfl rfl ?_
    refine Runs.back (s' := 1) (d := -5) (by norm_num) rfl (by norm_num) (by norm_num) rfl (fun log => ⟨_, rfl⟩) ?_
    refine Runs.one (by norm_num) rfl rfl ?_
    refine Runs.one (by norm_num) rfl rfl ?_
    refine Runs.one (by norm_num) rfl rfl ?_
    refine Runs.one (by norm_num) rfl rfl ?_
    refine Runs.one (by norm_num) rfl rfl ?_
    refine Runs.one (by norm_num) rfl rfl ?_
    refine Runs.one (by norm_num) rfl rfl ?_
    refine Runs.one (by norm_num) rfl rfl ?_
    exact Runs.done (by norm_num)

end Ecgen.Twist
