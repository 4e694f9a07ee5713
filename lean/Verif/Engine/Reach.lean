import Verif.Engine.Props

/-!
# Invariants of all the states of a search, finished or not
-/

namespace Ecgen.Engine
open Spec

variable {σ : Type}

/-- the states the loop of `exhaustive_gen_retry` goes through -/
inductive Reaches (S : Setup σ) (start stop : Nat) (retry : Int) (st : St σ) : St σ → Prop
  | refl : Reaches S start stop retry st st
  | next {st' st''} : Reaches S start stop retry st st' → st'.state < stop → step S start retry st' = .inl st'' →
      Reaches S start stop retry st st''

/-- one iteration: `P` is carried on, or the search fails and `Q` holds -/
theorem step_inv (S : Setup σ) (start stop : Nat) (retry : Int) (P : Nat → σ → Prop) (Q : σ → Prop)
    (hok : ∀ s w d w', start ≤ s → s < stop → P s w → Succeeds S s w d w' → P (s + d.toNat) w')
    (hback : ∀ s w d w', start ≤ s → s < stop → P s w → Fails S start s w d w' → 0 ≤ (s : Int) + d →
      P (max ((s : Int) + d).toNat start) (cleaned S (max ((s : Int) + d).toNat start) s w'))
    (hfail : ∀ s w d w', start ≤ s → s < stop → P s w → Fails S start s w d w' → Q w')
    (st : St σ) (hge : start ≤ st.state) (hlt : st.state < stop) (hP : P st.state st.w) :
    (∀ st', step S start retry st = .inl st' → start ≤ st'.state ∧ P st'.state st'.w) ∧
    (∀ st', step S start retry st = .inr st' → Q st'.w) := by
  have hex := execStage_world S start st.state st.w st.log hge
  unfold step
  simp only
  by_cases hd : (execStage S start st.state st.w st.log).2.1 ≤ 0
  · rw [if_pos hd]
    have hq := hfail _ _ _ _ hge hlt hP (hex.2 hd)
    by_cases hfatal : (execStage S start st.state st.w st.log).2.1 = INT_MIN ∨
        (st.state : Int) + (execStage S start st.state st.w st.log).2.1 < 0
    · rw [if_pos hfatal]
      refine ⟨fun st' h => (by cases h), fun st' h => ?_⟩
      cases h
      exact hq
    · rw [if_neg hfatal]
      by_cases hret : retry ≠ 0 ∧ ((if retry ≠ 0 then setTries st.tries st.state (st.tries st.state + 1) else st.tries) st.state : Int) ≥ retry
      · rw [if_pos hret]
        refine ⟨fun st' h => (by cases h), fun st' h => ?_⟩
        cases h
        exact hq
      · rw [if_neg hret]
        refine ⟨fun st' h => ?_, fun st' h => (by cases h)⟩
        cases h
        refine ⟨by simp only; omega, ?_⟩
        simp only
        rw [unrollLoop_world]
        have e : (max ((st.state : Int) + (execStage S start st.state st.w st.log).2.1) (start : Int)).toNat
            = max ((st.state : Int) + (execStage S start st.state st.w st.log).2.1).toNat start := by omega
        rw [e]
        exact hback _ _ _ _ hge hlt hP (hex.2 hd) (by omega)
  · rw [if_neg hd]
    refine ⟨fun st' h => ?_, fun st' h => (by cases h)⟩
    cases h
    refine ⟨by simp only; omega, ?_⟩
    simp only
    have e : (max ((st.state : Int) + (execStage S start st.state st.w st.log).2.1) (start : Int)).toNat
        = st.state + ((execStage S start st.state st.w st.log).2.1).toNat := by omega
    rw [e]
    exact hok _ _ _ _ hge hlt hP (hex.1 (by omega))

/-- an invariant holds in every state reached -/
theorem reaches_inv (S : Setup σ) (start stop : Nat) (retry : Int) (P : Nat → σ → Prop)
    (hok : ∀ s w d w', start ≤ s → s < stop → P s w → Succeeds S s w d w' → P (s + d.toNat) w')
    (hback : ∀ s w d w', start ≤ s → s < stop → P s w → Fails S start s w d w' → 0 ≤ (s : Int) + d →
      P (max ((s : Int) + d).toNat start) (cleaned S (max ((s : Int) + d).toNat start) s w'))
    (st st' : St σ) (hge : start ≤ st.state) (hP : P st.state st.w) (h : Reaches S start stop retry st st') :
    start ≤ st'.state ∧ P st'.state st'.w := by
  induction h with
  | refl => exact ⟨hge, hP⟩
  | next _ hlt hs ih =>
    exact (step_inv S start stop retry P (fun _ => True) hok hback (fun _ _ _ _ _ _ _ _ => trivial) _ ih.1 hlt ih.2).1 _ hs

/-- an invariant and the result of a search -/
theorem loop_inv (S : Setup σ) (start stop : Nat) (retry : Int) (P : Nat → σ → Prop) (Q : σ → Prop)
    (hok : ∀ s w d w', start ≤ s → s < stop → P s w → Succeeds S s w d w' → P (s + d.toNat) w')
    (hback : ∀ s w d w', start ≤ s → s < stop → P s w → Fails S start s w d w' → 0 ≤ (s : Int) + d →
      P (max ((s : Int) + d).toNat start) (cleaned S (max ((s : Int) + d).toNat start) s w'))
    (hfail : ∀ s w d w', start ≤ s → s < stop → P s w → Fails S start s w d w' → Q w')
    (fuel : Nat) (st : St σ) (hge : start ≤ st.state) (hP : P st.state st.w) (res : Int) (st' : St σ)
    (h : loop S start stop retry fuel st = some (res, st')) :
    (res = 1 ∧ stop ≤ st'.state ∧ P st'.state st'.w) ∨ (res = 0 ∧ Q st'.w) := by
  induction fuel generalizing st with
  | zero =>
    simp only [loop] at h
    split at h
    · cases h
    · cases h; exact Or.inl ⟨rfl, by omega, hP⟩
  | succ fuel ih =>
    simp only [loop] at h
    split at h
    · rename_i hlt
      have hs := step_inv S start stop retry P Q hok hback hfail st hge hlt hP
      cases hst : step S start retry st with
      | inl st1 =>
        rw [hst] at h
        obtain ⟨h1, h2⟩ := hs.1 st1 hst
        exact ih st1 h1 h2 h
      | inr st1 =>
        rw [hst] at h
        cases h
        exact Or.inr ⟨rfl, hs.2 st' hst⟩
    · cases h; exact Or.inl ⟨rfl, by omega, hP⟩

end Ecgen.Engine
