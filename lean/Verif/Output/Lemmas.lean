import Verif.Output.Spec
import Verif.Bits.Props
import Verif.Str.Props
import Mathlib.Algebra.BigOperators.Ring.List
import Mathlib.Algebra.Ring.Nat

/-!
# Lemmas about printed numbers
-/

namespace Ecgen.Output

open Spec Bits

/-! ### Hex digits -/

theorem digitChar_eq (n : Nat) (h : n < 16) : Nat.digitChar n = hexDigit n := by
  have : ∀ n : Fin 16, Nat.digitChar n.val = hexDigit n.val := by decide
  exact this ⟨n, h⟩

theorem hexLoop_eq : ∀ (fuel n : Nat) (acc : Text), n ≠ 0 → n < 2 ^ fuel → hexLoop fuel n acc = Nat.toDigits 16 n ++ acc := by
  intro fuel
  induction fuel with
  | zero => intro n acc h0 h; simp at h; omega
  | succ fuel ih =>
    intro n acc h0 h
    rw [hexLoop, if_neg h0]
    by_cases hs : n < 16
    · have : n / 16 = 0 := Nat.div_eq_of_lt hs
      rw [Nat.toDigits_of_lt_base hs, this, Nat.mod_eq_of_lt hs, digitChar_eq n hs]
      cases fuel <;> simp [hexLoop]
    · rw [ih (n / 16) _ (by omega) (by rw [Nat.pow_succ] at h; omega), Nat.toDigits_of_base_le (n := n) (by decide) (by omega),
        digitChar_eq _ (Nat.mod_lt _ (by decide))]
      simp

theorem hexText_eq (n : Nat) : hexText n = Nat.toDigits 16 n := by
  unfold hexText
  by_cases h : n = 0
  · rw [if_pos h, h]; rfl
  · rw [if_neg h, hexLoop_eq _ _ _ h Nat.lt_log2_self, List.append_nil]

theorem px_eq (w n : Nat) : px w n = '0' :: 'x' :: digitsOf w n := by
  simp [px, hexText_eq, digitsOf]

theorem ofHex_toDigits (n : Nat) : ofHex (Nat.toDigits 16 n) = some n := by
  induction n using Nat.strongRecOn with
  | ind n ih =>
    by_cases hs : n < 16
    · rw [Nat.toDigits_of_lt_base hs, digitChar_eq n hs]
      simp [ofHex, hexVal_hexDigit n hs]
    · have hm : n % 16 < 16 := Nat.mod_lt _ (by decide)
      rw [Nat.toDigits_of_base_le (n := n) (by decide) (by omega), ofHex_append _ _ (ih (n / 16) (by omega))
        (n := n % 16) (by simp [ofHex, digitChar_eq _ hm, hexVal_hexDigit _ hm])]
      simp only [List.length_singleton, Nat.pow_one, Option.some.injEq]
      omega

theorem ofHex_zeros (k : Nat) : ofHex (List.replicate k '0') = some 0 := by
  induction k with
  | zero => rfl
  | succ k ih =>
    rw [List.replicate_succ']
    have := ofHex_append (List.replicate k '0') ['0'] ih (n := 0) (by decide)
    simpa using this

theorem ofHex_digitsOf (w n : Nat) : ofHex (digitsOf w n) = some n := by
  unfold digitsOf
  rw [ofHex_append _ _ (ofHex_zeros _) (ofHex_toDigits n)]
  simp

theorem digitsOf_ne (w n : Nat) : digitsOf w n ≠ [] := by
  unfold digitsOf
  intro h
  exact Nat.toDigits_ne_nil (List.append_eq_nil_iff.1 h).2

theorem hexVal_digitsOf (w n : Nat) : ∀ c ∈ digitsOf w n, ∃ d, d < 16 ∧ c = hexDigit d := by
  have key : ∀ n : Nat, ∀ c ∈ Nat.toDigits 16 n, ∃ d, d < 16 ∧ c = hexDigit d := by
    intro n
    induction n using Nat.strongRecOn with
    | ind n ih =>
      intro c hc
      by_cases hs : n < 16
      · rw [Nat.toDigits_of_lt_base hs, List.mem_singleton] at hc
        exact ⟨n, hs, by rw [hc, digitChar_eq n hs]⟩
      · have hm : n % 16 < 16 := Nat.mod_lt _ (by decide)
        rw [Nat.toDigits_of_base_le (by decide) (by omega), List.mem_append, List.mem_singleton] at hc
        rcases hc with hc | hc
        · exact ih _ (by omega) c hc
        · exact ⟨n % 16, hm, by rw [hc, digitChar_eq _ hm]⟩
  intro c hc
  unfold digitsOf at hc
  rw [List.mem_append] at hc
  rcases hc with hc | hc
  · exact ⟨0, by decide, (List.mem_replicate.1 hc).2⟩
  · exact key n c hc

theorem readHex_px (w n : Nat) : readHex (px w n) = some n := by
  rw [px_eq]
  have h := ofHex_digitsOf w n
  cases hd : digitsOf w n with
  | nil => exact absurd hd (digitsOf_ne w n)
  | cons c s => rw [hd] at h; exact h

/-! ### Binary digits -/

theorem fromDigits_snoc (v : List Bool) (b : Bool) : fromDigits (v ++ [b]) = 2 * fromDigits v + b.toNat := by
  simp [fromDigits]

theorem digits2Loop_acc : ∀ (fuel n : Nat) (acc : List Bool), digits2Loop fuel n acc = digits2Loop fuel n [] ++ acc := by
  intro fuel
  induction fuel with
  | zero => intro n acc; rfl
  | succ fuel ih =>
    intro n acc
    by_cases h : n = 0
    · simp [digits2Loop, h]
    · rw [digits2Loop, if_neg h, ih, digits2Loop, if_neg h, ih (n / 2) [_]]
      simp

theorem digits2Loop_fuel : ∀ (f g n : Nat), n < 2 ^ f → n < 2 ^ g → digits2Loop f n [] = digits2Loop g n [] := by
  intro f
  induction f with
  | zero =>
    intro g n h _
    have : n = 0 := by simpa using h
    subst this
    cases g <;> simp [digits2Loop]
  | succ f ih =>
    intro g n hf hg
    by_cases h : n = 0
    · subst h; cases g <;> simp [digits2Loop]
    · cases g with
      | zero => simp at hg; omega
      | succ g =>
        rw [Nat.pow_succ] at hf hg
        rw [digits2Loop, if_neg h, digits2Loop, if_neg h, digits2Loop_acc, digits2Loop_acc g, ih g (n / 2) (by omega) (by omega)]

theorem digits2_step (n : Nat) (h : n ≠ 0) : digits2 n = digits2 (n / 2) ++ [n % 2 == 1] := by
  unfold digits2
  have hn : n < 2 ^ (n.log2 + 1) := Nat.lt_log2_self
  rw [digits2Loop, if_neg h, digits2Loop_acc]
  rw [digits2Loop_fuel n.log2 ((n / 2).log2 + 1) (n / 2) (by rw [Nat.pow_succ] at hn; omega) Nat.lt_log2_self]

theorem fromDigits_digits2 (n : Nat) : fromDigits (digits2 n) = n := by
  induction n using Nat.strongRecOn with
  | ind n ih =>
    by_cases h : n = 0
    · subst h; rfl
    · rw [digits2_step n h, fromDigits_snoc, ih (n / 2) (by omega)]
      rcases Nat.mod_two_eq_zero_or_one n with h2 | h2 <;> simp [h2] <;> omega

theorem digits2_head (n : Nat) : (digits2 n).head? ≠ some false := by
  induction n using Nat.strongRecOn with
  | ind n ih =>
    by_cases h : n = 0
    · subst h; simp [digits2, digits2Loop]
    · rw [digits2_step n h]
      cases hd : digits2 (n / 2) with
      | nil =>
        have h0 : n / 2 = 0 := by rw [← fromDigits_digits2 (n / 2), hd]; rfl
        have : n = 1 := by omega
        subst this
        simp
      | cons b v =>
        have := ih (n / 2) (by omega)
        rw [hd] at this
        simpa using this

theorem fromDigits_pos : ∀ v : List Bool, v ≠ [] → v.head? ≠ some false → fromDigits v ≠ 0 := by
  intro v
  induction v using List.reverseRecOn with
  | nil => intro h; exact absurd rfl h
  | append_singleton v b ih =>
    intro _ hh
    rw [fromDigits_snoc]
    cases v with
    | nil => cases b <;> simp [fromDigits] at hh ⊢
    | cons c w =>
      have := ih (by simp) (by simpa using hh)
      omega

theorem digits2_fromDigits : ∀ v : List Bool, v.head? ≠ some false → digits2 (fromDigits v) = v := by
  intro v
  induction v using List.reverseRecOn with
  | nil => intro _; rfl
  | append_singleton v b ih =>
    intro hh
    have hne := fromDigits_pos (v ++ [b]) (by simp) hh
    rw [digits2_step _ hne, fromDigits_snoc]
    have h1 : (2 * fromDigits v + b.toNat) / 2 = fromDigits v := by cases b <;> simp <;> omega
    have h2 : ((2 * fromDigits v + b.toNat) % 2 == 1) = b := by cases b <;> simp [Nat.add_mod]
    rw [h1, h2]
    cases v with
    | nil => rfl
    | cons c w => rw [ih (by simpa using hh)]

theorem fromDigits_lt (v : List Bool) : fromDigits v < 2 ^ v.length := by
  induction v using List.reverseRecOn with
  | nil => simp [fromDigits]
  | append_singleton v b ih =>
    rw [fromDigits_snoc, List.length_append, List.length_singleton, Nat.pow_succ]
    cases b <;> simp <;> omega

theorem digits2_length (n m : Nat) (h : n < 2 ^ m) : (digits2 n).length ≤ m := by
  induction m generalizing n with
  | zero =>
    have : n = 0 := by simpa using h
    subst this; simp [digits2, digits2Loop]
  | succ m ih =>
    by_cases h0 : n = 0
    · subst h0; simp [digits2, digits2Loop]
    · rw [digits2_step n h0, List.length_append, List.length_singleton]
      have := ih (n / 2) (by rw [Nat.pow_succ] at h; omega)
      omega

/-- the value of a list of binary digits is the sum of the powers of two -/
theorem fromDigits_sum (v : List Bool) :
    fromDigits v = ((List.range v.length).map fun i => if v.reverse.getD i false then 2 ^ i else 0).sum := by
  induction v using List.reverseRecOn with
  | nil => rfl
  | append_singleton v b ih =>
    rw [fromDigits_snoc, List.length_append, List.length_singleton, List.range_succ_eq_map, ih, List.reverse_append]
    simp only [List.reverse_singleton, List.singleton_append, List.map_cons, List.map_map, List.sum_cons, List.getD_cons_zero]
    have : ((List.range v.length).map ((fun i => if (b :: v.reverse).getD i false = true then 2 ^ i else 0) ∘ Nat.succ)) =
        (List.range v.length).map fun i => 2 * if v.reverse.getD i false = true then 2 ^ i else 0 := by
      apply List.map_congr_left
      intro i _
      simp only [Function.comp, Nat.succ_eq_add_one, List.getD_cons_succ]
      split <;> simp [Nat.pow_succ, Nat.mul_comm]
    rw [this, List.sum_map_mul_left]
    cases b <;> simp <;> omega

theorem elementi_eq (e : Elt) : elementi e = eltV e := by
  cases e with
  | int n => rfl
  | intmod n p => rfl
  | ff v => exact fromDigits_sum v

end Ecgen.Output
