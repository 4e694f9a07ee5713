import Verif.Engine.Lemmas

/-! Termination measure for the search with a retry limit. -/

set_option linter.unusedSimpArgs false

namespace Ecgen.Engine

/-- A little-endian number in base `b` with digits `f 0 ... f (n-1)`. -/
def digits (b : Nat) (f : Nat → Nat) : Nat → Nat
  | 0 => 0
  | n + 1 => digits b f n + f n * b ^ n

theorem digits_lt {b : Nat} {f : Nat → Nat} (hf : ∀ i, f i < b) : ∀ n, digits b f n < b ^ n := by
  intro n
  induction n with
  | zero => simp [digits]
  | succ n ih =>
    simp only [digits, Nat.pow_succ]
    have h1 := hf n
    have h2 : (f n + 1) * b ^ n ≤ b * b ^ n := Nat.mul_le_mul_right _ h1
    rw [Nat.add_mul, Nat.one_mul, Nat.mul_comm b] at h2
    omega

theorem digits_congr {b : Nat} {f g : Nat → Nat} : ∀ n, (∀ i, i < n → f i = g i) →
    digits b f n = digits b g n := by
  intro n
  induction n with
  | zero => intros; rfl
  | succ n ih =>
    intro h
    simp only [digits]
    rw [ih (fun i hi => h i (by omega)), h n (by omega)]

/-- Lowering digit `k`, keeping the higher ones and changing the lower ones arbitrarily lowers the
number. -/
theorem digits_lex {b : Nat} {f g : Nat → Nat} {k : Nat} (hg : ∀ i, g i < b) (hk : g k < f k)
    : ∀ n, k < n → (∀ i, k < i → i < n → g i ≤ f i) → digits b g n < digits b f n := by
  intro n
  induction n with
  | zero => intro h; omega
  | succ n ih =>
    intro hkn hhi
    simp only [digits]
    by_cases h : k < n
    · have h1 := ih h (fun i h1 h2 => hhi i h1 (by omega))
      have h2 := Nat.mul_le_mul_right (b ^ n) (hhi n h (by omega))
      omega
    · have hkn : k = n := by omega
      subst hkn
      have h1 := digits_lt hg k
      have h2 : (g k + 1) * b ^ k ≤ f k * b ^ k := Nat.mul_le_mul_right _ hk
      rw [Nat.add_mul, Nat.one_mul] at h2
      omega

variable {σ : Type}

/-- digit `i` of the measure: remaining attempts at stage `start + i`, zero for finished stages -/
def budget (start r : Nat) (st : St σ) (i : Nat) : Nat :=
  if start + i < st.state then 0 else r - st.tries (start + i)

theorem step_measure (S : Setup σ) (start r : Nat) (st st' : St σ)
    (hge : start ≤ st.state) (htr : ∀ s, st.tries s < r)
    (h : step S start (r : Int) st = .inl st') :
    start ≤ st'.state ∧ (∀ s, st'.tries s < r) ∧
      ∀ n, st.state < start + n →
        digits (r + 1) (budget start r st') n < digits (r + 1) (budget start r st) n := by
  have hr : (r : Int) ≠ 0 := by have := htr 0; omega
  have hb : ∀ (x : St σ) i, budget start r x i < r + 1 := by
    intro x i; unfold budget; split <;> omega
  unfold step at h
  simp only at h
  by_cases hd : (execStage S start st.state st.w st.log).2.1 ≤ 0
  · rw [if_pos hd] at h
    split at h
    · simp at h
    · split at h
      · simp at h
      · rename_i h1 h2
        simp only [Sum.inl.injEq] at h
        subst h
        simp only [hr, ne_eq, not_false_eq_true, true_and, ge_iff_le] at h2
        have h3 : st.tries st.state + 1 < r := by
          simp only [setTries, if_true] at h2
          omega
        refine ⟨by simp only; omega, ?_, ?_⟩
        · intro s
          simp only [hr, ne_eq, not_false_eq_true, if_true, setTries]
          split
          · exact h3
          · exact htr s
        · intro n hn
          apply digits_lex (k := st.state - start) (hb _)
          · simp only [budget, hr, ne_eq, not_false_eq_true, if_true, setTries]
            rw [if_neg (by omega), if_pos (by omega), if_neg (by omega)]
            have : start + (st.state - start) = st.state := by omega
            rw [this]
            omega
          · omega
          · intro i hi _
            simp only [budget, hr, ne_eq, not_false_eq_true, if_true, setTries]
            rw [if_neg (by omega), if_neg (by omega)]
            rw [if_neg (by omega)]
            exact Nat.le_refl _
  · rw [if_neg hd] at h
    simp only [Sum.inl.injEq] at h
    subst h
    refine ⟨by simp only; omega, ?_, ?_⟩
    · intro s
      simp only [setTries]
      split
      · have := htr s; omega
      · exact htr s
    · intro n hn
      apply digits_lex (k := st.state - start) (hb _)
      · simp only [budget, setTries]
        rw [if_pos (by omega), if_neg (by omega)]
        have := htr (start + (st.state - start))
        omega
      · omega
      · intro i hi _
        simp only [budget, setTries]
        split
        · omega
        · rw [if_neg (by omega), if_neg (by omega)]
          exact Nat.le_refl _

theorem loop_terminates (S : Setup σ) (start stop r : Nat) :
    ∀ (fuel : Nat) (st : St σ), start ≤ st.state → (∀ s, st.tries s < r) →
      digits (r + 1) (budget start r st) (stop - start) < fuel →
      (loop S start stop (r : Int) fuel st).isSome := by
  intro fuel
  induction fuel with
  | zero => intro st _ _ h; omega
  | succ fuel ih =>
    intro st hge htr hm
    unfold loop
    split
    · rename_i hlt
      split
      · rename_i st' hst
        obtain ⟨h1, h2, h3⟩ := step_measure S start r st st' hge htr hst
        have := h3 (stop - start) (by omega)
        exact ih st' h1 h2 (by omega)
      · rfl
    · rfl

end Ecgen.Engine
