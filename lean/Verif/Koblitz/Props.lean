import Verif.Koblitz.Model

/-!
# Koblitz orders (C25)
-/

namespace Ecgen.Koblitz

/-- the Lucas sequence `V_0 = 2`, `V_1 = μ`, `V_{k+1} = μ V_k - 2 V_{k-1}`: trace of the `k`-th power of the
Frobenius endomorphism with trace `μ` over GF(2) -/
def V (mu : Int) : Nat → Int
  | 0 => 2
  | 1 => mu
  | n + 2 => mu * V mu (n + 1) - 2 * V mu n

/-- two consecutive terms at once -/
def VV (mu : Int) : Nat → Int × Int
  | 0 => (2, mu)
  | n + 1 => let p := VV mu n; (p.2, mu * p.2 - 2 * p.1)

theorem VV_eq (mu : Int) (n : Nat) : VV mu n = (V mu n, V mu (n + 1)) := by
  induction n with
  | zero => rfl
  | succ n ih => simp only [VV, ih, V]

/-- the number of points of `y² + xy = x³ + a x² + 1` over GF(2^m) by Weil's formula (its trace over GF(2) is 1
for a = 1 and -1 for a = 0); proved in `koblitz_points` (Weil.lean) -/
def weil (m a : Nat) : Int := 2 ^ m + 1 - V (if a = 1 then 1 else -1) m

theorem trace_base (a : Nat) (h : a = 0 ∨ a = 1) :
    weil 1 a = if a = 1 then 2 else 4 := by
  rcases h with rfl | rfl <;> decide

theorem table_weil : ∀ e ∈ table, (e.order : Int) = weil e.m e.a ∧ (e.a = 0 ∨ e.a = 1) ∧
    ((e.a = 1 ∧ e.order % 4 = 2) ∨ (e.a = 0 ∧ e.order % 8 = 4)) := by
  have h : ∀ e ∈ table, (e.order : Int) = 2 ^ e.m + 1 - (VV (if e.a = 1 then 1 else -1) e.m).1 ∧
      (e.a = 0 ∨ e.a = 1) ∧ ((e.a = 1 ∧ e.order % 4 = 2) ∨ (e.a = 0 ∧ e.order % 8 = 4)) := by
    decide +kernel
  intro e he
  have := h e he
  rw [VV_eq] at this
  exact this

theorem compare_zero (m a : Nat) (hm : m < 2 ^ 32) (ha : a < 2 ^ 32) (e : Entry) (he : e ∈ table) :
    compare m a e = 0 ↔ m = e.m ∧ a = e.a := by
  have hb : ∀ e ∈ table, e.m < 2 ^ 31 ∧ e.a < 2 ^ 31 := by decide +kernel
  have hb := hb e he
  unfold compare toInt32
  simp only
  by_cases h : Int.bmod ((m : Int) - e.m) (2 ^ 32) = 0
  · rw [if_pos h]
    have h1 : m = e.m := by rw [Int.bmod_def] at h; split at h <;> omega
    constructor
    · intro h2
      refine ⟨h1, ?_⟩
      rw [Int.bmod_def] at h2; split at h2 <;> omega
    · rintro ⟨-, rfl⟩
      simp
  · rw [if_neg h]
    constructor
    · intro h2; exact absurd h2 h
    · rintro ⟨rfl, -⟩
      simp at h

/-- C25: a successful lookup returns the number of points of the Koblitz curve given by Weil's formula, which is
2 (a = 1) or 4 (a = 0) times an odd number. -/
theorem getOrder_weil (m a n : Nat) (hm : m < 2 ^ 32) (ha : a < 2 ^ 32) (h : getOrder m a = some n) :
    (n : Int) = weil m a ∧ (a = 0 ∨ a = 1) ∧ ((a = 1 ∧ n % 4 = 2) ∨ (a = 0 ∧ n % 8 = 4)) := by
  unfold getOrder find at h
  rw [Nat.mod_eq_of_lt hm, Nat.mod_eq_of_lt ha] at h
  cases hf : bsearch (compare m a) table with
  | none => rw [hf] at h; cases h
  | some e =>
    rw [hf, Option.map_some, Option.some.injEq] at h
    obtain ⟨he, hc⟩ := bsearch_sound _ _ _ hf
    obtain ⟨rfl, rfl⟩ := (compare_zero m a hm ha e he).1 hc
    have := table_weil e he
    subst h
    exact this

/-- C25: every pair of the table is found by the bisection. -/
theorem getOrder_complete (e : Entry) (he : e ∈ table) : getOrder e.m e.a = some e.order := by
  have h : ∀ e ∈ table, getOrder e.m e.a = some e.order := by decide +kernel
  exact h e he

/-- C25: pairs that are not in the table give nothing. -/
theorem getOrder_none (m a : Nat) (hm : m < 2 ^ 32) (ha : a < 2 ^ 32)
    (h : ∀ e ∈ table, ¬ (e.m = m ∧ e.a = a)) : getOrder m a = none := by
  unfold getOrder find
  rw [Nat.mod_eq_of_lt hm, Nat.mod_eq_of_lt ha]
  cases hf : bsearch (compare m a) table with
  | none => rfl
  | some e =>
    exfalso
    obtain ⟨he, hc⟩ := bsearch_sound _ _ _ hf
    obtain ⟨rfl, rfl⟩ := (compare_zero m a hm ha e he).1 hc
    exact h e he ⟨rfl, rfl⟩

/-- C25: sizes above 32 bits are reduced, so the claim is false there. -/
theorem getOrder_alias_false : getOrder (2 ^ 32 + 163) 1 = getOrder 163 1 ∧ getOrder 163 1 ≠ none := by
  decide +kernel

example : getOrder 233 0 ≠ none ∧ getOrder 233 1 = none ∧ getOrder 100 1 = none := by decide +kernel

end Ecgen.Koblitz
