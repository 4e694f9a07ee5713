import Verif.Meta.Model
import Verif.Order.Props
import Mathlib.Data.Nat.Prime.Basic
import Mathlib.Tactic.Ring
import Mathlib.Tactic.NormNum.Prime
import Mathlib.Tactic.Linarith

/-!
# Metadata (C40)
-/

namespace Ecgen.Meta
open Ecgen.Order

/-- Hasse's bound for the order of a curve over GF(p) -/
def Hasse (p n : Nat) : Prop := ((p : Int) + 1 - n) ^ 2 ≤ 4 * p

theorem hasse_pos (p n : Nat) (hp : p.Prime) (h : Hasse p n) : 0 < n := by
  rcases Nat.eq_zero_or_pos n with rfl | h0
  · exfalso
    unfold Hasse at h
    have := hp.two_le
    push_cast at h
    have e : ((p : Int) + 1 - 0) ^ 2 = (p - 1) ^ 2 + 4 * p := by ring
    rw [e] at h
    have : (0 : Int) < (p - 1) ^ 2 := by
      apply pow_pos
      omega
    omega
  · exact h0

/-- by Hasse's bound the order of a curve over GF(p), p > 5, is either p or coprime to p -/
theorem hasse_coprime (p n : Nat) (hp : p.Prime) (h5 : 5 < p) (h : Hasse p n) : p = n ∨ Nat.Coprime p n := by
  by_cases hd : p ∣ n
  · left
    obtain ⟨k, rfl⟩ := hd
    have h0 := hasse_pos p _ hp h
    have hk : k = 1 := by
      by_contra hk
      have hk0 : k ≠ 0 := by rintro rfl; simp at h0
      have hk2 : 2 ≤ k := by omega
      unfold Hasse at h
      push_cast at h
      have h1 : (p : Int) - 1 ≤ p * k - (p + 1) := by
        have : (p : Int) * 2 ≤ p * k := by
          apply mul_le_mul_of_nonneg_left _ (by omega)
          exact_mod_cast hk2
        linarith
      have h2 : ((p : Int) - 1) ^ 2 ≤ (p + 1 - p * k) ^ 2 := by
        have e : ((p : Int) + 1 - p * k) ^ 2 = (p * k - (p + 1)) ^ 2 := by ring
        rw [e]
        apply pow_le_pow_left₀ (by omega) h1
      have h6 : (6 : Int) ≤ p := by omega
      nlinarith
    rw [hk, Nat.mul_one]
  · exact Or.inr ((Nat.Prime.coprime_iff_not_dvd hp).2 hd)

theorem disc_ne_zero (p n : Nat) (hp : p.Prime) : ((p : Int) + 1 - n) ^ 2 - p * 4 ≠ 0 := by
  intro h
  obtain ⟨t, ht⟩ : ∃ t : Int, t = (p : Int) + 1 - n := ⟨_, rfl⟩
  rw [← ht] at h
  have e : t.natAbs * t.natAbs = p * 4 := by
    have : ((t.natAbs * t.natAbs : Nat) : Int) = ((p * 4 : Nat) : Int) := by
      push_cast
      rw [← pow_two, sq_abs]
      linarith
    exact_mod_cast this
  have h1 : p ∣ t.natAbs := by
    have : p ∣ t.natAbs * t.natAbs := ⟨4, e⟩
    rcases (Nat.Prime.dvd_mul hp).1 this with h | h <;> exact h
  have h2 : 2 ∣ t.natAbs := by
    have : 2 ∣ t.natAbs * t.natAbs := ⟨p * 2, by omega⟩
    rcases (Nat.Prime.dvd_mul Nat.prime_two).1 this with h | h <;> exact h
  obtain ⟨s, hs⟩ := h2
  have e2 : s * s = p := by
    rw [hs] at e
    have : 2 * s * (2 * s) = 4 * (s * s) := by ring
    omega
  have h3 := Nat.prime_mul_iff.1 (e2 ▸ hp)
  rcases h3 with ⟨a, b⟩ | ⟨a, b⟩ <;> (subst b; exact absurd a (by norm_num))

/-- C40 over prime fields: for every prime p > 5 and every order in Hasse's interval the metadata is produced, the trace
is `p + 1 - n`, discriminant and conductor satisfy `D f² = t² - 4p` with D a fundamental discriminant, and the
embedding degree is the least `k` with `n ∣ p^k - 1` (0 for an anomalous curve, where there is none). -/
theorem metadata_partial (zn : Nat → Nat → Nat) (hz : ZnSpec zn) (core2 : Int → Int × Int) (hc : CorediscSpec core2)
    (p n : Nat) (hp : p.Prime) (h5 : 5 < p) (h : Hasse p n) :
    ∃ k D f, genPrime zn core2 p n = some ⟨some k, (p : Int) + 1 - n, some D, some f⟩ ∧
      D * f ^ 2 = ((p : Int) + 1 - n) ^ 2 - 4 * p ∧
      ((D % 4 = 1 ∧ Squarefree D) ∨ ∃ m, D = 4 * m ∧ (m % 4 = 2 ∨ m % 4 = 3) ∧ Squarefree m) ∧
      ((p = n ∧ k = 0 ∧ ∀ j, 0 < j → ¬ n ∣ p ^ j - 1) ∨
        (0 < k ∧ n ∣ p ^ k - 1 ∧ ∀ j, 0 < j → j < k → ¬ n ∣ p ^ j - 1)) := by
  have hcop := hasse_coprime p n hp h5 h
  have hn := hasse_pos p n hp h
  have h4 : (((p : Int) + 1 - n) ^ 2 - p * 4) % 4 = 0 ∨ (((p : Int) + 1 - n) ^ 2 - p * 4) % 4 = 1 := by
    have e : (((p : Int) + 1 - n) ^ 2 - p * 4) % 4 = ((p : Int) + 1 - n) ^ 2 % 4 := by omega
    rw [e]
    generalize (p : Int) + 1 - n = t
    have : t % 4 = 0 ∨ t % 4 = 1 ∨ t % 4 = 2 ∨ t % 4 = 3 := by omega
    rcases this with h | h | h | h <;> rw [pow_two, Int.mul_emod, h] <;> norm_num
  have hcd := hc _ (disc_ne_zero p n hp) h4
  have hgen : ∀ k, embedding? zn p n = some k → genPrime zn core2 p n = some ⟨some k, (p : Int) + 1 - n,
      some (core2 (((p : Int) + 1 - n) ^ 2 - p * 4)).1, some (core2 (((p : Int) + 1 - n) ^ 2 - p * 4)).2⟩ := by
    intro k hk
    unfold genPrime
    rw [hk]
  have heq : (core2 (((p : Int) + 1 - n) ^ 2 - p * 4)).1 * (core2 (((p : Int) + 1 - n) ^ 2 - p * 4)).2 ^ 2 =
      ((p : Int) + 1 - n) ^ 2 - 4 * p := by
    rw [← hcd.1]; ring
  by_cases hpn : p = n
  · refine ⟨0, _, _, hgen 0 (by unfold embedding?; rw [if_pos hpn]), heq, hcd.2, Or.inl ⟨hpn, rfl, ?_⟩⟩
    intro j hj hdv
    rw [← hpn] at hdv
    have h1 : p ∣ p ^ j := dvd_pow_self p (by omega)
    have h2 : 1 ≤ p ^ j := Nat.one_le_pow _ _ hp.pos
    have h3 := (Nat.dvd_sub h1 hdv)
    rw [Nat.sub_sub_self h2] at h3
    exact hp.one_lt.ne' (Nat.dvd_one.1 h3)
  · have hco := hcop.resolve_left hpn
    exact ⟨zn p n, _, _, hgen _ (by unfold embedding?; rw [if_neg hpn, if_pos hco]), heq, hcd.2,
      Or.inr (hz p n hn hco)⟩

/-- C40 over binary fields: only the trace is given. -/
theorem metadata_binary (m n : Nat) :
    (genBinary m n).trace = ((2 ^ m : Nat) : Int) + 1 - n ∧ (genBinary m n).embedding = none := by
  constructor
  · simp [genBinary]
  · rfl

/-- C40 fails for tiny fields: a curve over GF(5) with 10 points makes the multiplicative order undefined, so no
metadata (and no curve) is produced. -/
theorem metadata_false (zn : Nat → Nat → Nat) (core2 : Int → Int × Int) :
    Hasse 5 10 ∧ genPrime zn core2 5 10 = none := by
  refine ⟨by unfold Hasse; norm_num, ?_⟩
  have : embedding? zn 5 10 = none := by unfold embedding?; rw [if_neg (by norm_num), if_neg (by decide)]
  unfold genPrime
  rw [this]

/-- the hypotheses of `metadata_partial` are met: a curve over GF(23) with 30 points -/
example : Nat.Prime 23 ∧ 5 < 23 ∧ Hasse 23 30 := ⟨by norm_num, by norm_num, by unfold Hasse; norm_num⟩

end Ecgen.Meta
