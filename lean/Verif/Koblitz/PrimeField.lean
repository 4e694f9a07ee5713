import Verif.Koblitz.Props
import Verif.Count.Lemmas
import Verif.PowMod
import Mathlib.NumberTheory.LucasPrimality
import Mathlib.Tactic.NormNum.Prime

/-!
# Koblitz orders over prime fields (C25)

`order_gen_koblitz` (order.c:105-121) looks up the requested bit size in the table of orders over binary fields
also when the field is a prime field; there the method produces `y² = x³ + 1` for `a = 0`
(`a_gen_zero`, `b_gen_one`).
-/

namespace Ecgen.Koblitz
open Ecgen.Count

theorem table_pred : ∀ e ∈ table, e.a = 0 → ∃ d ∈ [3, 5, 13, 17, 83], d ∣ e.order - 1 ∧ 83 < e.order - 1 := by
  decide +kernel

/-- C25 is false over prime fields: for **every** bit size in the table with `a = 0` and **every** prime
`p = 2 (mod 3)` the order reported for `y² = x³ + 1` over GF(p) is wrong, whatever PARI would have counted. -/
theorem prime_field_false (bits p n : Nat) [Fact p.Prime] (hb : bits < 2 ^ 32) (h2 : p ≠ 2) (h3 : p % 3 = 2)
    (h : getOrder bits 0 = some n) : genOrder bits 0 (card (0 : ZMod p) 1) ≠ card (0 : ZMod p) 1 := by
  have hc : card (0 : ZMod p) 1 = p + 1 := by
    rw [card_cubes, ZMod.card]
    · rw [ZMod.ringChar_zmod_n]; exact h2
    · apply cube_bijective; rw [ZMod.card]; exact h3
  have hg : genOrder bits 0 (card (0 : ZMod p) 1) = n := by unfold genOrder; rw [h]; rfl
  rw [hg, hc]
  intro hn
  by_cases he : ∀ e ∈ table, ¬ (e.m = bits ∧ e.a = 0)
  · rw [getOrder_none bits 0 hb (by norm_num) he] at h
    cases h
  · push Not at he
    obtain ⟨e, he, hm, ha⟩ := he
    have := getOrder_complete e he
    rw [hm, ha, h] at this
    cases this
    obtain ⟨d, hd, hdv, hl⟩ := table_pred e he ha
    have hp : e.order - 1 = p := by omega
    rw [hp] at hdv hl
    have hpr := (Fact.out : p.Prime)
    rcases (Nat.dvd_prime hpr).1 hdv with h | h
    · subst h; simp at hd
    · subst h; simp at hd; omega

/-- such a prime field: 103 bits, `p = 121 * 2^96 + 1` -/
theorem prime_103 : Nat.Prime 9586607664225984848818817990657 := by
  have key : ∀ k : Nat, k < 2 ^ 103 → ((3 : ZMod 9586607664225984848818817990657) ^ k = 1 ↔
      powMod 103 3 k 9586607664225984848818817990657 = 1) := by
    intro k h
    have : (3 : ZMod 9586607664225984848818817990657) ^ k = ((3 ^ k : Nat) : ZMod _) := by push_cast; rfl
    rw [this, ← Nat.cast_one, ZMod.natCast_eq_natCast_iff, Nat.ModEq, powMod_eq _ _ _ _ h,
      Nat.mod_eq_of_lt (show 1 < 9586607664225984848818817990657 by norm_num)]
  refine lucas_primality _ (3 : ZMod 9586607664225984848818817990657) ?_ ?_
  · exact (key _ (by norm_num)).2 (by decide +kernel)
  · intro q hq hd
    have hf : 9586607664225984848818817990657 - 1 = 2 ^ 96 * 11 ^ 2 := by norm_num
    rw [hf] at hd
    have : q = 2 ∨ q = 11 := by
      rcases (Nat.Prime.dvd_mul hq).1 hd with h | h
      · exact Or.inl ((Nat.prime_dvd_prime_iff_eq hq Nat.prime_two).1 (hq.dvd_of_dvd_pow h))
      · exact Or.inr ((Nat.prime_dvd_prime_iff_eq hq (by norm_num)).1 (hq.dvd_of_dvd_pow h))
    rcases this with rfl | rfl
    · rw [Ne, key _ (by norm_num)]
      decide +kernel
    · rw [Ne, key _ (by norm_num)]
      decide +kernel

/-- the hypotheses of `prime_field_false` are met at 103 bits -/
theorem prime_field_witness : getOrder 103 0 ≠ none ∧ 9586607664225984848818817990657 % 3 = 2 ∧
    2 ^ 102 ≤ 9586607664225984848818817990657 ∧ 9586607664225984848818817990657 < 2 ^ 103 := by
  refine ⟨by decide +kernel, by norm_num, by norm_num, by norm_num⟩

end Ecgen.Koblitz
