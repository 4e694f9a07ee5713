/-!
# Counting loops of C functions

`forN f n a` runs `for (i = 0; i < n; ++i) a = f(i, a)`; `none` is undefined behaviour (an access
outside a buffer) in some iteration.
-/

namespace Ecgen

/-- `for (size_t i = 0; i < n; ++i) body(i)` with state `α`; `none` = undefined behaviour. -/
def forN {α : Type} (f : Nat → α → Option α) : Nat → α → Option α
  | 0, a => some a
  | n + 1, a => (forN f n a).bind (f n)

/-- Invariant rule for counting loops: the loop is free of undefined behaviour and establishes the
invariant. -/
theorem forN_inv {α : Type} {f : Nat → α → Option α} (P : Nat → α → Prop) {n : Nat} {a : α}
    (h0 : P 0 a) (hs : ∀ k x, k < n → P k x → ∃ y, f k x = some y ∧ P (k + 1) y) :
    ∃ y, forN f n a = some y ∧ P n y := by
  induction n with
  | zero => exact ⟨a, rfl, h0⟩
  | succ n ih =>
    obtain ⟨x, hx, hP⟩ := ih (fun k x hk => hs k x (by omega))
    obtain ⟨y, hy, hQ⟩ := hs n x (by omega) hP
    exact ⟨y, by simp [forN, hx, hy], hQ⟩

end Ecgen

namespace Ecgen

/-- what one pass of a `do … while (true)` loop with `continue` and `break` does -/
inductive Step (σ α : Type) where
  | cont (s : σ)
  | done (a : α)

/-- run a `while (true)` loop for at most `fuel` passes: `none` is undefined behaviour, `some none` means
that the loop has not ended yet -/
def loopN {σ α : Type} (f : σ → Option (Step σ α)) : Nat → σ → Option (Option α)
  | 0, _ => some none
  | n + 1, s => (f s).bind fun r => match r with
    | .cont s' => loopN f n s'
    | .done a => some (some a)

/-- A finished loop went through finitely many `continue` passes and one `break` pass. -/
theorem loopN_done {σ α : Type} {f : σ → Option (Step σ α)} {n : Nat} {s : σ} {a : α}
    (h : loopN f n s = some (some a)) :
    ∃ (k : Nat) (t : Nat → σ), k < n ∧ t 0 = s ∧ (∀ i < k, f (t i) = some (.cont (t (i + 1)))) ∧
      f (t k) = some (.done a) := by
  induction n generalizing s with
  | zero => simp [loopN] at h
  | succ n ih =>
    rw [loopN] at h
    cases hf : f s with
    | none => rw [hf] at h; simp at h
    | some r =>
      rw [hf, Option.bind_some] at h
      cases r with
      | done b =>
        simp only [Option.some.injEq] at h
        subst h
        exact ⟨0, fun _ => s, by omega, rfl, by intro i hi; omega, hf⟩
      | cont s' =>
        obtain ⟨k, t, hk, h0, hc, hd⟩ := ih h
        refine ⟨k + 1, fun i => match i with | 0 => s | i + 1 => t i, by omega, rfl, ?_, hd⟩
        intro i hi
        cases i with
        | zero => simp only [h0]; exact hf
        | succ i => exact hc i (by omega)

/-- Conversely such a run finishes the loop. -/
theorem loopN_of_trace {σ α : Type} {f : σ → Option (Step σ α)} {a : α} (k : Nat) (t : Nat → σ)
    (hc : ∀ i < k, f (t i) = some (.cont (t (i + 1)))) (hd : f (t k) = some (.done a)) (n : Nat) (hn : k < n) :
    loopN f n (t 0) = some (some a) := by
  induction k generalizing n t with
  | zero =>
    obtain ⟨n, rfl⟩ : ∃ m, n = m + 1 := ⟨n - 1, by omega⟩
    simp [loopN, hd]
  | succ k ih =>
    obtain ⟨n, rfl⟩ : ∃ m, n = m + 1 := ⟨n - 1, by omega⟩
    rw [loopN, hc 0 (by omega), Option.bind_some]
    exact ih (fun i => t (i + 1)) (fun i hi => hc (i + 1) (by omega)) hd n (by omega)

/-- A loop whose passes keep an invariant never runs into undefined behaviour. -/
theorem loopN_safe {σ α : Type} {f : σ → Option (Step σ α)} (P : σ → Prop) (Q : α → Prop)
    (hs : ∀ s, P s → (∃ s', f s = some (.cont s') ∧ P s') ∨ (∃ a, f s = some (.done a) ∧ Q a)) (n : Nat) (s : σ)
    (h : P s) : loopN f n s = some none ∨ ∃ a, loopN f n s = some (some a) ∧ Q a := by
  induction n generalizing s with
  | zero => exact Or.inl rfl
  | succ n ih =>
    rw [loopN]
    rcases hs s h with ⟨s', e, hp⟩ | ⟨a, e, hq⟩
    · rw [e, Option.bind_some]; exact ih s' hp
    · rw [e, Option.bind_some]; exact Or.inr ⟨a, rfl, hq⟩

end Ecgen
