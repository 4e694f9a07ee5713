import Verif.Reseed.Model

/-! What the loop of `random_reseed` keeps. -/

namespace Ecgen.Reseed

/-- the first bytes of the device -/
def firstBytes (y : Sys) (n : Nat) : List UInt8 := (List.range n).map y.stream

/-- the invariant: the bytes read so far are the first ones of the device, in their places, and the others are zero -/
def Inv (y : Sys) (s : St) : Prop :=
  s.read ≤ 8 ∧ s.pos = s.read ∧ s.seed = firstBytes y s.read ++ List.replicate (8 - s.read) 0

theorem firstBytes_length (y : Sys) (n : Nat) : (firstBytes y n).length = n := by simp [firstBytes]

theorem firstBytes_add (y : Sys) (m n : Nat) : firstBytes y (m + n) = firstBytes y m ++ (List.range n).map (fun i => y.stream (m + i)) := by
  simp [firstBytes, List.range_add, List.map_map, Function.comp_def]

theorem start_inv (y : Sys) : Inv y start := ⟨by decide, rfl, rfl⟩

theorem body_some {y : Sys} (hy : y.Ok) (k : Nat) {s : St} (h : Inv y s) :
    ∃ t, body y k s = some t ∧ Inv y t ∧ t.read = s.read + y.amount k (8 - s.read) := by
  obtain ⟨h1, h2, h3⟩ := h
  have hn := hy.amount k (8 - s.read)
  have hl : s.seed.length = 8 := by rw [h3]; simp [firstBytes_length]; omega
  refine ⟨_, by rw [body, write, if_pos (by omega)]; rfl, ⟨by simp only; omega, by simp only [h2], ?_⟩, rfl⟩
  simp only
  generalize y.amount k (8 - s.read) = n at *
  rw [firstBytes_add, h2]
  congr 1
  · congr 1
    rw [h3, List.take_append_of_le_length (by rw [firstBytes_length]; exact Nat.le_refl _), List.take_of_length_le (by rw [firstBytes_length]; exact Nat.le_refl _)]
  · rw [h3, List.drop_append, firstBytes_length, List.drop_of_length_le (by rw [firstBytes_length]; omega), List.drop_replicate]
    simp only [List.nil_append]
    congr 1
    omega

theorem loop_inv {y : Sys} (hy : y.Ok) : ∀ (fuel k : Nat) (s : St), Inv y s →
    (∃ t, loop y fuel k s = .running t ∧ Inv y t ∧ t.read < 8) ∨ ∃ t, loop y fuel k s = .ended t ∧ t.seed = firstBytes y 8
  | fuel, k, s, h => by
    unfold loop
    by_cases hr : s.read < 8
    · rw [if_pos hr]
      match fuel with
      | 0 => exact Or.inl ⟨s, rfl, h, hr⟩
      | fuel + 1 =>
        obtain ⟨t, ht, hi, -⟩ := body_some hy k h
        simp only [ht]
        exact loop_inv hy fuel (k + 1) t hi
    · rw [if_neg hr]
      obtain ⟨h1, -, h3⟩ := h
      have : s.read = 8 := by omega
      exact Or.inr ⟨s, rfl, by rw [h3, this]; simp⟩

theorem value_lt : ∀ m : Mem, value m < 256 ^ m.length
  | [] => by simp [value]
  | b :: m => by
    have h := value_lt m
    have hb := b.toNat_lt
    simp only [value, List.length_cons, Nat.pow_succ]
    omega

theorem value_inj : ∀ m n : Mem, m.length = n.length → value m = value n → m = n
  | [], [], _, _ => rfl
  | b :: m, c :: n, hl, h => by
    have hb := b.toNat_lt
    have hc := c.toNat_lt
    simp only [value] at h
    have h1 : b = c := UInt8.toNat_inj.1 (by omega)
    rw [h1, value_inj m n (by simpa using hl) (by omega)]

theorem value_zeros : ∀ n : Nat, value (List.replicate n 0) = 0
  | 0 => rfl
  | n + 1 => by simp [List.replicate_succ, value, value_zeros n]

/-- a loop whose reads deliver something ends: at least one byte comes in every round -/
theorem loop_ends {y : Sys} (hy : y.Ok) (hp : ∀ k n, 0 < n → 0 < y.amount k n) : ∀ (fuel k : Nat) (s : St), Inv y s → 8 - s.read ≤ fuel →
    ∃ t, loop y fuel k s = .ended t
  | fuel, k, s, h, hf => by
    unfold loop
    by_cases hr : s.read < 8
    · rw [if_pos hr]
      match fuel with
      | 0 => omega
      | fuel + 1 =>
        obtain ⟨t, ht, hi, hread⟩ := body_some hy k h
        simp only [ht]
        have := hp k (8 - s.read) (by omega)
        exact loop_ends hy hp fuel (k + 1) t hi (by omega)
    · rw [if_neg hr]
      exact ⟨s, rfl⟩

/-- a loop whose reads deliver nothing from some round on, before the eighth byte, does not end -/
theorem loop_stuck {y : Sys} (hy : y.Ok) : ∀ (fuel k : Nat) (s : St), Inv y s → s.read < 8 → (∀ j, k ≤ j → ∀ n, y.amount j n = 0) →
    ∃ t, loop y fuel k s = .running t
  | fuel, k, s, h, hr, hz => by
    unfold loop
    rw [if_pos hr]
    match fuel with
    | 0 => exact ⟨s, rfl⟩
    | fuel + 1 =>
      obtain ⟨t, ht, hi, hread⟩ := body_some hy k h
      simp only [ht]
      exact loop_stuck hy fuel (k + 1) t hi (by rw [hread, hz k (Nat.le_refl _)]; omega) (fun j hj => hz j (by omega))

theorem loop_stuck_later {y : Sys} (hy : y.Ok) : ∀ (fuel k : Nat) (s : St) {u : St}, Inv y s → loop y fuel k s = .running u →
    (∀ j, k + fuel ≤ j → ∀ n, y.amount j n = 0) → ∀ more, ∃ t, loop y (fuel + more) k s = .running t
  | 0, k, s, u, h, hu, hz, more => by
    unfold loop at hu
    split at hu
    · rename_i hr
      rw [Nat.zero_add]
      exact loop_stuck hy more k s h hr hz
    · cases hu
  | fuel + 1, k, s, u, h, hu, hz, more => by
    unfold loop at hu
    split at hu
    · rename_i hr
      obtain ⟨t, ht, hi, -⟩ := body_some hy k h
      simp only [ht] at hu
      rw [show fuel + 1 + more = (fuel + more) + 1 by omega]
      unfold loop
      rw [if_pos hr]
      simp only [ht]
      exact loop_stuck_later hy fuel (k + 1) t hi hu (fun j hj => hz j (by omega)) more
    · cases hu

end Ecgen.Reseed
