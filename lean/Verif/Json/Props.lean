import Verif.Json.Model

/-!
# The printed list of curves (C04)
-/

namespace Ecgen.Json

variable {κ σ : Type}

/-- the curves generated before the first failure, at most `n` -/
def generated (gen : σ → Option κ × σ) : Nat → σ → List κ
  | 0, _ => []
  | n + 1, w =>
    match gen w with
    | (none, _) => []
    | (some c, w') => c :: generated gen n w'

theorem loop_objects (gen : σ → Option κ × σ) (count left : Nat) (w : σ) :
    objects (generateLoop gen count left w).1 = generated gen left w ∧
    ((generateLoop gen count left w).2 = 0 ↔ (generated gen left w).length = left) ∧
    ((generateLoop gen count left w).2 = 0 ∨ (generateLoop gen count left w).2 = 1) := by
  induction left generalizing w with
  | zero => exact ⟨rfl, by simp [generateLoop, generated], Or.inl rfl⟩
  | succ n ih =>
    unfold generateLoop generated
    rcases h : gen w with ⟨_ | c, w'⟩
    · simp [objects]
    · obtain ⟨h1, h2, h3⟩ := ih w'
      refine ⟨?_, ?_, h3⟩
      · simp only
        rw [objects_append, h1]
        split <;> rfl
      · simp only [List.length_cons, Nat.add_right_cancel_iff]
        exact h2

/-- the curves are printed in the order of generation and the exit status tells whether all were generated -/
theorem generate_objects (gen : σ → Option κ × σ) (count : Nat) (w : σ) :
    objects (generate gen count w).1 = generated gen count w ∧
    ((generate gen count w).2 = 0 ↔ (generated gen count w).length = count) := by
  obtain ⟨h1, h2, h3⟩ := loop_objects gen count count w
  refine ⟨?_, h2⟩
  unfold generate
  simp only [List.cons_append, objects]
  rw [objects_append, h1]
  simp [objects]

theorem loop_full (gen : σ → Option κ × σ) (count left : Nat) (w : σ) (hl : left ≤ count)
    (h : (generated gen left w).length = left) (h0 : 0 < left) :
    Items (generateLoop gen count left w).1 (generated gen left w) := by
  induction left generalizing w with
  | zero => omega
  | succ n ih =>
    unfold generateLoop generated
    unfold generated at h
    rcases hg : gen w with ⟨_ | c, w'⟩
    · rw [hg] at h; simp at h
    · rw [hg] at h
      simp only [List.length_cons, Nat.add_right_cancel_iff] at h
      simp only
      by_cases hn : n = 0
      · subst hn
        rw [if_neg (by omega)]
        exact Items.one c
      · rw [if_pos (by omega)]
        exact Items.more c (ih w' (by omega) h (by omega))

theorem loop_short (gen : σ → Option κ × σ) (count left : Nat) (w : σ) (hl : left ≤ count)
    (h : (generated gen left w).length < left) (hne : generated gen left w ≠ []) :
    ∃ ts, (generateLoop gen count left w).1 = ts ++ [.comma] := by
  induction left generalizing w with
  | zero => omega
  | succ n ih =>
    unfold generateLoop
    unfold generated at h hne
    rcases hg : gen w with ⟨_ | c, w'⟩
    · rw [hg] at hne; simp at hne
    · rw [hg] at h
      simp only [List.length_cons] at h
      simp only
      rw [if_pos (by omega)]
      by_cases he : generated gen n w' = []
      · have hz : (generateLoop gen count n w').1 = [] := by
          cases n with
          | zero => simp [generated] at h
          | succ m =>
            unfold generateLoop
            unfold generated at he
            rcases hg' : gen w' with ⟨_ | c', w''⟩
            · rfl
            · rw [hg'] at he; simp at he
        exact ⟨[.obj c], by rw [hz]; rfl⟩
      · obtain ⟨ts, ht⟩ := ih w' (by omega) (by omega) he
        exact ⟨.obj c :: .comma :: ts, by rw [ht]; rfl⟩

/-- C04: if every requested curve is generated, or none, the output is the JSON array of the generated curves. -/
theorem generate_array_partial (gen : σ → Option κ × σ) (count : Nat) (w : σ)
    (h : (generated gen count w).length = count ∨ generated gen count w = []) :
    IsArray (generate gen count w).1 (generated gen count w) := by
  by_cases h0 : generated gen count w = []
  · have hz : (generateLoop gen count count w).1 = [] := by
      cases count with
      | zero => rfl
      | succ n =>
        unfold generateLoop
        unfold generated at h0
        rcases hg : gen w with ⟨_ | c, w'⟩
        · rfl
        · rw [hg] at h0; simp at h0
    unfold generate
    simp only [hz, h0]
    exact IsArray.empty
  · have hl := h.resolve_right h0
    have hpos : 0 < count := by
      rcases Nat.eq_zero_or_pos count with rfl | h
      · exact absurd rfl h0
      · exact h
    exact IsArray.items (loop_full gen count count w (Nat.le_refl _) hl hpos)

/-- C04, exactly: the output is a JSON array iff no generation fails after the first curve was printed. A failure later leaves a
comma before the closing bracket. -/
theorem generate_array_iff (gen : σ → Option κ × σ) (count : Nat) (w : σ) :
    (∃ os, IsArray (generate gen count w).1 os) ↔
      ((generated gen count w).length = count ∨ generated gen count w = []) := by
  constructor
  · rintro ⟨os, h⟩
    by_contra hc
    rw [not_or] at hc
    have hle : (generated gen count w).length ≤ count := by
      have : ∀ n w, (generated gen n w).length ≤ n := by
        intro n
        induction n with
        | zero => intro w; simp [generated]
        | succ n ih =>
          intro w
          unfold generated
          rcases gen w with ⟨_ | c, w'⟩
          · simp
          · simp [ih w']
      exact this count w
    obtain ⟨ts, ht⟩ := loop_short gen count count w (Nat.le_refl _) (by omega) hc.2
    unfold generate at h
    simp only [ht] at h
    have e : Tok.open :: (ts ++ [Tok.comma]) ++ [Tok.close] = (Tok.open :: ts) ++ [Tok.comma, Tok.close] := by simp
    rw [e] at h
    exact not_array_comma _ _ h
  · intro h
    exact ⟨_, generate_array_partial gen count w h⟩

/-- C04 is false: two curves are requested and the second generation fails. -/
theorem generate_false : ∃ (gen : Nat → Option Nat × Nat), (∀ os, ¬ IsArray (generate gen 2 0).1 os) ∧
    (generate gen 2 0).1 = [.open, .obj 0, .comma, .close] := by
  refine ⟨fun w => (if w = 0 then some 0 else none, w + 1), ?_, rfl⟩
  intro os h
  exact not_array_comma [.open, .obj 0] os h

end Ecgen.Json
