import Verif.Engine.Reach

/-!
# Searches without a limit on the number of tries that never end
-/

namespace Ecgen.Engine
open Spec

variable {σ : Type}

theorem rejects_le {cs : List (σ → σ × Int)} {w : σ} {d : Int} {w' : σ} (h : Rejects cs w d w') : d ≤ 0 := by
  induction h with
  | here h => exact h
  | later _ _ ih => exact ih

theorem fails_le {S : Setup σ} {start s : Nat} {w : σ} {d : Int} {w' : σ} (hs : start ≤ s) (h : Fails S start s w d w') : d ≤ 0 := by
  rcases h with ⟨_, rfl⟩ | ⟨_, h⟩ | ⟨_, _, _, _, hr⟩
  · omega
  · exact h
  · exact rejects_le hr

/-- An invariant of stages before the last one, under which no failure is final: the search never ends. -/
theorem forever (S : Setup σ) (start stop : Nat) (P : Nat → σ → Prop) (hlt : ∀ s w, P s w → s < stop)
    (hok : ∀ s w d w', start ≤ s → P s w → Succeeds S s w d w' → P (s + d.toNat) w')
    (hback : ∀ s w d w', start ≤ s → P s w → Fails S start s w d w' → d ≠ -2147483648 ∧ 0 ≤ (s : Int) + d ∧
      P (max ((s : Int) + d).toNat start) (cleaned S (max ((s : Int) + d).toNat start) s w'))
    (fuel : Nat) (st : St σ) (hge : start ≤ st.state) (hP : P st.state st.w) : loop S start stop 0 fuel st = none := by
  induction fuel generalizing st with
  | zero => rw [loop, if_pos (hlt _ _ hP)]
  | succ fuel ih =>
    rw [loop, if_pos (hlt _ _ hP)]
    have hi := step_inv S start stop 0 P (fun _ => True) (fun s w d w' h1 _ => hok s w d w' h1)
      (fun s w d w' h1 _ h2 h3 _ => (hback s w d w' h1 h2 h3).2.2) (fun _ _ _ _ _ _ _ _ => trivial) st hge (hlt _ _ hP) hP
    have hn : ∀ st', step S start 0 st ≠ .inr st' := by
      intro st' h
      have hex := execStage_world S start st.state st.w st.log hge
      unfold step at h
      simp only at h
      by_cases hd : (execStage S start st.state st.w st.log).2.1 ≤ 0
      · obtain ⟨h1, h2, _⟩ := hback _ _ _ _ hge hP (hex.2 hd)
        rw [if_pos hd, if_neg (by rintro (h3 | h3); exact h1 h3; omega), if_neg (by simp)] at h
        cases h
      · rw [if_neg hd] at h
        cases h
    cases hs : step S start 0 st with
    | inl st1 =>
      obtain ⟨h1, h2⟩ := hi.1 st1 hs
      exact ih st1 h1 h2
    | inr st1 => exact absurd hs (hn st1)

end Ecgen.Engine
