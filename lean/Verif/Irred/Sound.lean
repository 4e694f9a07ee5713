import Verif.Irred.Bits
import Mathlib.FieldTheory.Finite.Extension
import Mathlib.RingTheory.AdjoinRoot

/-!
# The kernel-evaluable test proves irreducibility
-/

namespace Ecgen.Irred

open Polynomial

/-- the polynomial over GF(2) whose coefficients are the bits of `a` -/
noncomputable def P (a : Nat) : (ZMod 2)[X] := ∑ i ∈ Finset.range (a.log2 + 1), if a.testBit i then X ^ i else 0

theorem testBit_big (a i : Nat) (h : a.log2 + 1 ≤ i) : a.testBit i = false :=
  Nat.testBit_lt_two_pow (lt_of_lt_of_le Nat.lt_log2_self (Nat.pow_le_pow_right (by decide) h))

theorem coeff_P (a i : Nat) : (P a).coeff i = if a.testBit i then 1 else 0 := by
  rw [P, finsetSum_coeff]
  have e : ∀ j, ((if a.testBit j then (X : (ZMod 2)[X]) ^ j else 0).coeff i) =
      if i = j then (if a.testBit i then 1 else 0) else 0 := by
    intro j
    by_cases h : i = j
    · subst h
      by_cases ha : a.testBit i = true <;> simp [ha]
    · by_cases ha : a.testBit j = true <;> simp [ha, h, coeff_X_pow]
  rw [Finset.sum_congr rfl fun j _ => e j, Finset.sum_ite_eq]
  by_cases h : i ∈ Finset.range (a.log2 + 1)
  · rw [if_pos h]
  · rw [if_neg h, testBit_big a i (by simpa using h)]
    rfl

theorem P_xor (a b : Nat) : P (a ^^^ b) = P a + P b := by
  ext i
  rw [coeff_add, coeff_P, coeff_P, coeff_P, Nat.testBit_xor]
  cases a.testBit i <;> cases b.testBit i <;> decide

theorem P_shl (a k : Nat) : P (a <<< k) = X ^ k * P a := by
  ext i
  rw [coeff_X_pow_mul', coeff_P, Nat.testBit_shiftLeft]
  by_cases h : k ≤ i
  · rw [if_pos h, coeff_P, decide_eq_true h, Bool.true_and]
  · rw [if_neg h, decide_eq_false h, Bool.false_and]
    rfl

theorem P_zero : P 0 = 0 := by ext i; simp [coeff_P]

theorem P_one : P 1 = 1 := by
  ext i
  rw [coeff_P, coeff_one]
  by_cases h : i = 0
  · subst h; rfl
  · have e : Nat.testBit 1 i = false :=
      Nat.testBit_lt_two_pow (lt_of_lt_of_le (show 1 < 2 ^ 1 by decide) (Nat.pow_le_pow_right (by decide) (by omega)))
    rw [if_neg h, e]
    rfl

theorem P_mul_two_pow (a k : Nat) : P (a * 2 ^ k) = X ^ k * P a := by rw [← Nat.shiftLeft_eq, P_shl]

theorem P_two_pow (k : Nat) : P (2 ^ k) = X ^ k := by
  have := P_mul_two_pow 1 k
  rwa [Nat.one_mul, P_one, mul_one] at this

theorem P_two : P 2 = X := by simpa using P_two_pow 1

theorem P_half (a : Nat) : P a = X * P (a / 2) + P (a % 2) := by
  ext i
  have h2 : a % 2 = 0 ∨ a % 2 = 1 := by omega
  cases i with
  | zero =>
    rw [coeff_add, coeff_X_mul_zero, zero_add, coeff_P, coeff_P, Nat.testBit_zero, Nat.testBit_zero, Nat.mod_mod]
  | succ i =>
    rw [coeff_add, coeff_X_mul, coeff_P, coeff_P, Nat.testBit_add_one]
    rcases h2 with h | h
    · rw [h, P_zero, coeff_zero, add_zero]
    · rw [h, P_one, coeff_one, if_neg (Nat.succ_ne_zero i), add_zero]

theorem self_add (f : (ZMod 2)[X]) : f + f = 0 := CharTwo.add_self_eq_zero f

theorem pow_expand (f : (ZMod 2)[X]) (k : Nat) : expand (ZMod 2) (2 ^ k) f = f ^ 2 ^ k := by
  induction k with
  | zero => simp
  | succ k ih => rw [pow_succ, mul_comm, expand_mul, ih, map_pow, ZMod.expand_card, ← pow_mul]

theorem P_spread8 (a : Nat) (ha : a < 2 ^ 2187) : P (spread (levels 8 layout8) a) = P a ^ 8 := by
  have h := pow_expand (P a) 3
  norm_num at h
  rw [← h]
  ext i
  rw [coeff_expand (by decide), coeff_P, coeff_P, spread8 a ha]
  by_cases hi : i % 8 = 0
  · rw [decide_eq_true hi, if_pos (Nat.dvd_of_mod_eq_zero hi), Bool.true_and]
  · rw [decide_eq_false hi, if_neg (fun h => hi (Nat.mod_eq_zero_of_dvd h)), Bool.false_and]
    rfl

theorem P_spread4 (a : Nat) (ha : a < 2 ^ 2187) : P (spread (levels 4 layout4) a) = P a ^ 4 := by
  have h := pow_expand (P a) 2
  norm_num at h
  rw [← h]
  ext i
  rw [coeff_expand (by decide), coeff_P, coeff_P, spread4 a ha]
  by_cases hi : i % 4 = 0
  · rw [decide_eq_true hi, if_pos (Nat.dvd_of_mod_eq_zero hi), Bool.true_and]
  · rw [decide_eq_false hi, if_neg (fun h => hi (Nat.mod_eq_zero_of_dvd h)), Bool.false_and]
    rfl

theorem sq_succ (n a : Nat) : sq (n + 1) a = a % 2 + 4 * sq n (a / 2) := rfl

theorem P_add4 (b s : Nat) (hb : b < 2) : P (b + 4 * s) = P b + X ^ 2 * P s := by
  have e : b + 4 * s = b ^^^ (s <<< 2) := by
    apply Nat.eq_of_testBit_eq
    intro i
    rw [Nat.testBit_xor, Nat.testBit_shiftLeft, show b + 4 * s = 2 ^ 2 * s + b by omega,
      Nat.testBit_two_pow_mul_add s (show b < 2 ^ 2 by omega)]
    by_cases h : i < 2
    · rw [if_pos h, decide_eq_false (by omega)]; simp
    · rw [if_neg h, decide_eq_true (by omega), Nat.testBit_lt_two_pow (show b < 2 ^ i from
        lt_of_lt_of_le (show b < 2 ^ 1 by omega) (Nat.pow_le_pow_right (by decide) (by omega)))]
      simp
  rw [e, P_xor, P_shl]

theorem P_sq (n : Nat) : ∀ a, a < 2 ^ n → P (sq n a) = P a ^ 2 := by
  induction n with
  | zero =>
    intro a h
    have : a = 0 := by rw [Nat.pow_zero] at h; omega
    subst this
    show P 0 = _
    rw [P_zero]; ring
  | succ n ih =>
    intro a h
    rw [sq_succ, P_add4 _ _ (by omega), ih (a / 2) (by rw [Nat.pow_succ] at h; omega), P_half a]
    have h2 : P (a % 2) ^ 2 = P (a % 2) := by
      rcases (by omega : a % 2 = 0 ∨ a % 2 = 1) with h | h <;> rw [h]
      · rw [P_zero]; ring
      · rw [P_one]; ring
    have h3 := CharTwo.two_eq_zero (R := (ZMod 2)[X])
    linear_combination -h2 - X * P (a / 2) * P (a % 2) * h3

/-! ## reduction -/

/-- what a reduction function may do -/
def Reds (f : (ZMod 2)[X]) (red : Nat → Nat → Nat) : Prop :=
  ∀ k a, k = 1 ∨ k = 2 ∨ k = 4 → AdjoinRoot.mk f (P (red k a)) = AdjoinRoot.mk f (P a)

theorem pow_tri (m e k : Nat) (hk : k = 1 ∨ k = 2 ∨ k = 4) :
    (X ^ (k * m) + X ^ (k * e) + 1 : (ZMod 2)[X]) = (X ^ m + X ^ e + 1) ^ k := by
  obtain ⟨j, rfl⟩ : ∃ j, k = 2 ^ j := by
    rcases hk with rfl | rfl | rfl
    exacts [⟨0, rfl⟩, ⟨1, rfl⟩, ⟨2, rfl⟩]
  rw [← pow_expand]
  simp [expand_X, ← pow_mul]

theorem pow_penta (m e1 e2 e3 k : Nat) (hk : k = 1 ∨ k = 2 ∨ k = 4) :
    (X ^ (k * m) + X ^ (k * e1) + X ^ (k * e2) + X ^ (k * e3) + 1 : (ZMod 2)[X]) =
      (X ^ m + X ^ e1 + X ^ e2 + X ^ e3 + 1) ^ k := by
  obtain ⟨j, rfl⟩ : ∃ j, k = 2 ^ j := by
    rcases hk with rfl | rfl | rfl
    exacts [⟨0, rfl⟩, ⟨1, rfl⟩, ⟨2, rfl⟩]
  rw [← pow_expand]
  simp [expand_X, ← pow_mul]

theorem P_fold3 (M E a q : Nat) : P (fold3 M E a q) = P a + P q * (X ^ M + X ^ E + 1) := by
  show P (((a ^^^ q) ^^^ (q <<< E)) ^^^ (q <<< M)) = _
  rw [P_xor, P_xor, P_xor, P_shl, P_shl]
  ring

theorem P_fold5 (M A B C a q : Nat) : P (fold5 M A B C a q) = P a + P q * (X ^ M + X ^ A + X ^ B + X ^ C + 1) := by
  show P (((((a ^^^ q) ^^^ (q <<< A)) ^^^ (q <<< B)) ^^^ (q <<< C)) ^^^ (q <<< M)) = _
  rw [P_xor, P_xor, P_xor, P_xor, P_xor, P_shl, P_shl, P_shl, P_shl]
  ring

theorem mk_add_mul (f a q h : (ZMod 2)[X]) (hf : f ∣ h) : AdjoinRoot.mk f (a + q * h) = AdjoinRoot.mk f a := by
  rw [map_add, map_mul, AdjoinRoot.mk_eq_zero.2 hf, mul_zero, add_zero]

theorem reds_tri (m e : Nat) : Reds (X ^ m + X ^ e + 1) (redTri m e) := by
  intro k a hk
  show AdjoinRoot.mk _ (P (fold3 (k * m) (k * e) a _)) = _
  rw [P_fold3, mk_add_mul]
  rw [pow_tri m e k hk]
  exact dvd_pow_self _ (by omega)

theorem finish_mk (m e1 e2 e3 n : Nat) : ∀ b,
    AdjoinRoot.mk (X ^ m + X ^ e1 + X ^ e2 + X ^ e3 + 1 : (ZMod 2)[X]) (P (finish m e1 e2 e3 n b)) = AdjoinRoot.mk _ (P b) := by
  induction n with
  | zero => intro b; rfl
  | succ n ih =>
    intro b
    have e : finish m e1 e2 e3 (n + 1) b =
        Bool.rec (finish m e1 e2 e3 n (fold5 m e1 e2 e3 b (b >>> m))) b (Nat.beq (b >>> m) 0) := rfl
    rw [e]
    cases Nat.beq (b >>> m) 0
    · show AdjoinRoot.mk _ (P (finish m e1 e2 e3 n (fold5 m e1 e2 e3 b (b >>> m)))) = _
      rw [ih, P_fold5, mk_add_mul _ _ _ _ (dvd_refl _)]
    · rfl

theorem reds_penta (m e1 e2 e3 : Nat) : Reds (X ^ m + X ^ e1 + X ^ e2 + X ^ e3 + 1) (redPenta m e1 e2 e3) := by
  intro k a hk
  have h5 : ∀ k, k = 1 ∨ k = 2 ∨ k = 4 → AdjoinRoot.mk (X ^ m + X ^ e1 + X ^ e2 + X ^ e3 + 1 : (ZMod 2)[X])
      (P (red5 (k * m) (k * e1) (k * e2) (k * e3) a)) = AdjoinRoot.mk _ (P a) := by
    intro k hk
    rw [red5, P_fold5, mk_add_mul]
    rw [pow_penta m e1 e2 e3 k hk]
    exact dvd_pow_self _ (by omega)
  have e : redPenta m e1 e2 e3 k a = Bool.rec (red5 (k * m) (k * e1) (k * e2) (k * e3) a)
      (finish m e1 e2 e3 64 (red5 m e1 e2 e3 a)) (Nat.beq k 1) := rfl
  rw [e]
  cases Nat.beq k 1
  · exact h5 k hk
  · show AdjoinRoot.mk _ (P (finish m e1 e2 e3 64 (red5 m e1 e2 e3 a))) = _
    rw [finish_mk]
    simpa using h5 1 (Or.inl rfl)

/-! ## the chain of squares -/

theorem step8_mk (f : (ZMod 2)[X]) (red : Nat → Nat → Nat) (h : Reds f red) (a : Nat) (ha : a < 2 ^ 2187) :
    AdjoinRoot.mk f (P (step8 (levels 8 layout8) red a)) = AdjoinRoot.mk f (P a) ^ 8 := by
  rw [step8, h 1 _ (by omega), h 2 _ (by omega), h 4 _ (by omega), P_spread8 a ha, map_pow]

theorem step4_mk (f : (ZMod 2)[X]) (red : Nat → Nat → Nat) (h : Reds f red) (a : Nat) (ha : a < 2 ^ 2187) :
    AdjoinRoot.mk f (P (step4 (levels 4 layout4) red a)) = AdjoinRoot.mk f (P a) ^ 4 := by
  rw [step4, h 1 _ (by omega), h 2 _ (by omega), P_spread4 a ha, map_pow]

theorem ble_ones (a n : Nat) (h : Nat.ble a (ones n) = true) : a < 2 ^ n := by
  have := Nat.le_of_ble_eq_true h
  have h2 := Nat.two_pow_pos n
  rw [ones_eq] at this
  omega

theorem run8_mk (f : (ZMod 2)[X]) (red : Nat → Nat → Nat) (h : Reds f red) (n : Nat) : ∀ a (k : Nat → Bool),
    run8 (levels 8 layout8) red (ones 2187) n a k = true →
    ∃ a', AdjoinRoot.mk f (P a') = AdjoinRoot.mk f (P a) ^ 8 ^ n ∧ k a' = true := by
  induction n with
  | zero => intro a k hk; exact ⟨a, by simp, hk⟩
  | succ n ih =>
    intro a k hk
    have e : run8 (levels 8 layout8) red (ones 2187) (n + 1) a k =
        Bool.rec false (force (step8 (levels 8 layout8) red a) fun a' => run8 (levels 8 layout8) red (ones 2187) n a' k)
          (Nat.ble a (ones 2187)) := rfl
    rw [e] at hk
    cases hb : Nat.ble a (ones 2187) with
    | false => rw [hb] at hk; cases hk
    | true =>
      rw [hb] at hk
      replace hk : force (step8 (levels 8 layout8) red a) (fun a' => run8 (levels 8 layout8) red (ones 2187) n a' k) = true := hk
      rw [force_eq] at hk
      obtain ⟨a', h1, h2⟩ := ih _ k hk
      refine ⟨a', ?_, h2⟩
      rw [h1, step8_mk f red h a (ble_ones a _ hb), ← pow_mul, pow_succ, mul_comm (8 ^ n)]

theorem run4_mk (f : (ZMod 2)[X]) (red : Nat → Nat → Nat) (h : Reds f red) (n : Nat) : ∀ a (k : Nat → Bool),
    run4 (levels 4 layout4) red (ones 2187) n a k = true →
    ∃ a', AdjoinRoot.mk f (P a') = AdjoinRoot.mk f (P a) ^ 4 ^ n ∧ k a' = true := by
  induction n with
  | zero => intro a k hk; exact ⟨a, by simp, hk⟩
  | succ n ih =>
    intro a k hk
    have e : run4 (levels 4 layout4) red (ones 2187) (n + 1) a k =
        Bool.rec false (force (step4 (levels 4 layout4) red a) fun a' => run4 (levels 4 layout4) red (ones 2187) n a' k)
          (Nat.ble a (ones 2187)) := rfl
    rw [e] at hk
    cases hb : Nat.ble a (ones 2187) with
    | false => rw [hb] at hk; cases hk
    | true =>
      rw [hb] at hk
      replace hk : force (step4 (levels 4 layout4) red a) (fun a' => run4 (levels 4 layout4) red (ones 2187) n a' k) = true := hk
      rw [force_eq] at hk
      obtain ⟨a', h1, h2⟩ := ih _ k hk
      refine ⟨a', ?_, h2⟩
      rw [h1, step4_mk f red h a (ble_ones a _ hb), ← pow_mul, pow_succ, mul_comm (4 ^ n)]

theorem run2_mk (f : (ZMod 2)[X]) (red : Nat → Nat → Nat) (h : Reds f red) (a : Nat) (k : Nat → Bool)
    (hk : run2 red a k = true) : ∃ a', AdjoinRoot.mk f (P a') = AdjoinRoot.mk f (P a) ^ 2 ∧ k a' = true := by
  rw [run2] at hk
  cases hb : Nat.ble a (ones 64) with
  | false => rw [hb] at hk; cases hk
  | true =>
    rw [hb] at hk
    replace hk : force (red 1 (sq 64 a)) k = true := hk
    rw [force_eq] at hk
    exact ⟨_, by rw [h 1 _ (by omega), P_sq 64 a (ble_ones a _ hb), map_pow], hk⟩

theorem advance_mk (f : (ZMod 2)[X]) (red : Nat → Nat → Nat) (h : Reds f red) (g a : Nat) (k : Nat → Bool)
    (hk : advance (levels 8 layout8) (levels 4 layout4) red (ones 2187) g a k = true) :
    ∃ a', AdjoinRoot.mk f (P a') = AdjoinRoot.mk f (P a) ^ 2 ^ g ∧ k a' = true := by
  rw [advance] at hk
  cases hb : Nat.beq g 1 with
  | true =>
    rw [hb] at hk
    obtain ⟨a', h1, h2⟩ := run2_mk f red h a k hk
    rw [Nat.eq_of_beq_eq_true hb]
    exact ⟨a', h1, h2⟩
  | false =>
    rw [hb] at hk
    have hg : g ≠ 1 := Nat.ne_of_beq_eq_false hb
    have h8 : ∀ n, (8 : Nat) ^ n = 2 ^ (3 * n) := fun n => by rw [pow_mul]; rfl
    have h4 : ∀ n, (4 : Nat) ^ n = 2 ^ (2 * n) := fun n => by rw [pow_mul]; rfl
    have hm : Nat.mod g 3 = g % 3 := rfl
    have hd : Nat.div g 3 = g / 3 := rfl
    rw [hm] at hk
    rcases (by omega : g % 3 = 0 ∨ g % 3 = 1 ∨ g % 3 = 2) with h0 | h0 | h0
    · rw [h0] at hk
      obtain ⟨a', h1, h2⟩ := run8_mk f red h _ a k hk
      refine ⟨a', ?_, h2⟩
      rw [h1, h8, hd, show 3 * (g / 3) = g by omega]
    · rw [h0] at hk
      obtain ⟨a', h1, h2⟩ := run8_mk f red h _ a _ hk
      obtain ⟨a'', h3, h4'⟩ := run4_mk f red h 2 a' k h2
      refine ⟨a'', ?_, h4'⟩
      rw [h3, h1, h8, h4, ← pow_mul, ← pow_add, hd]
      congr 2
      show 3 * (g / 3 - 1) + 2 * 2 = g
      omega
    · rw [h0] at hk
      obtain ⟨a', h1, h2⟩ := run8_mk f red h _ a _ hk
      obtain ⟨a'', h3, h4'⟩ := run4_mk f red h 1 a' k h2
      refine ⟨a'', ?_, h4'⟩
      rw [h3, h1, h8, h4, ← pow_mul, ← pow_add, hd]
      congr 2
      omega

/-! ## common factors -/

set_option exponentiation.threshold 2500 in
theorem strip_P (c : Nat) : ∃ k, P c = X ^ k * P (strip c) := by
  obtain ⟨k, -, hk⟩ := (Nat.dvd_prime_pow Nat.prime_two).1 (Nat.gcd_dvd_right c (2 ^ 2200))
  refine ⟨k, ?_⟩
  have e : strip c = c / 2 ^ k := by rw [← hk]; rfl
  rw [e, ← P_mul_two_pow, Nat.div_mul_cancel (hk ▸ Nat.gcd_dvd_left c (2 ^ 2200))]

theorem coprime_P (n : Nat) : ∀ a b, coprime n a b = true → ∀ g : (ZMod 2)[X], Prime g → ¬ g ∣ X → g ∣ P a → ¬ g ∣ P b := by
  induction n with
  | zero => intro a b h; cases h
  | succ n ih =>
    intro a b h g hg hX ha hb
    have e : coprime (n + 1) a b = Bool.rec (force (strip (a ^^^ b)) fun c =>
        Bool.rec (coprime n b c) (coprime n c b) (Nat.ble b c)) true (Nat.beq b 1) := rfl
    rw [e] at h
    cases hb1 : Nat.beq b 1 with
    | true =>
      rw [Nat.eq_of_beq_eq_true hb1, P_one] at hb
      exact hg.not_isUnit (isUnit_of_dvd_one hb)
    | false =>
      rw [hb1] at h
      replace h : force (strip (a ^^^ b)) (fun c => Bool.rec (coprime n b c) (coprime n c b) (Nat.ble b c)) = true := h
      rw [force_eq] at h
      have hc : g ∣ P (strip (a ^^^ b)) := by
        obtain ⟨k, hk⟩ := strip_P (a ^^^ b)
        have h1 : g ∣ X ^ k * P (strip (a ^^^ b)) := by rw [← hk, P_xor]; exact dvd_add ha hb
        exact (hg.dvd_or_dvd h1).resolve_left fun h2 => hX (hg.dvd_of_dvd_pow h2)
      cases hle : Nat.ble b (strip (a ^^^ b)) with
      | true => rw [hle] at h; exact ih _ _ h g hg hX hc hb
      | false => rw [hle] at h; exact ih _ _ h g hg hX hb hc

/-- no irreducible polynomial divides both, apart from `X` -/
def NoCommon (f h : (ZMod 2)[X]) : Prop := ∀ g, Prime g → ¬ g ∣ X → g ∣ f → ¬ g ∣ h

theorem visit_sound (F : Nat) (red : Nat → Nat → Nat) (h : Reds (P F) red) (m : Nat) (ds : List Nat) : ∀ i a,
    visit (levels 8 layout8) (levels 4 layout4) red (ones 2187) F m ds i a = true → i ≤ m → (∀ d ∈ ds, d ≤ m) →
    AdjoinRoot.mk (P F) (P a) = AdjoinRoot.mk (P F) (X ^ 2 ^ i) →
    P F ∣ X ^ 2 ^ m - X ∧ ∀ d ∈ ds, NoCommon (P F) (X ^ 2 ^ d - X) := by
  induction ds with
  | nil =>
    intro i a hv him _ ha
    obtain ⟨b, h1, h2⟩ := advance_mk (P F) red h (m - i) a _ hv
    rw [Nat.eq_of_beq_eq_true h2, P_two, ha, ← map_pow, ← pow_mul, ← pow_add, Nat.add_sub_cancel' him] at h1
    refine ⟨?_, fun d hd => by cases hd⟩
    rw [← AdjoinRoot.mk_eq_zero, map_sub, h1, sub_self]
  | cons d ds ih =>
    intro i a hv him hds ha
    have e : visit (levels 8 layout8) (levels 4 layout4) red (ones 2187) F m (d :: ds) i a =
        Bool.rec false (advance (levels 8 layout8) (levels 4 layout4) red (ones 2187) (d - i) a fun b =>
          Bool.rec false (visit (levels 8 layout8) (levels 4 layout4) red (ones 2187) F m ds d b)
            (coprime (3 * m) F (strip (b ^^^ 2)))) (Nat.ble i d) := rfl
    rw [e] at hv
    cases hid : Nat.ble i d with
    | false => rw [hid] at hv; cases hv
    | true =>
      rw [hid] at hv
      have hid := Nat.le_of_ble_eq_true hid
      obtain ⟨b, h1, h2⟩ := advance_mk (P F) red h (d - i) a _ hv
      have h2 : Bool.rec false (visit (levels 8 layout8) (levels 4 layout4) red (ones 2187) F m ds d b)
            (coprime (3 * m) F (strip (b ^^^ 2))) = true := h2
      cases hc : coprime (3 * m) F (strip (b ^^^ 2)) with
      | false => rw [hc] at h2; cases h2
      | true =>
        rw [hc] at h2
        rw [ha, ← map_pow, ← pow_mul, ← pow_add, Nat.add_sub_cancel' hid] at h1
        obtain ⟨h3, h4⟩ := ih d b h2 (hds d (by simp)) (fun x hx => hds x (by simp [hx])) h1
        refine ⟨h3, fun x hx => ?_⟩
        rcases List.mem_cons.1 hx with rfl | hx
        · intro g hg hX hgf hgx
          have h5 : g ∣ P b + X := by
            have h6 : P F ∣ P b - X ^ 2 ^ x := by rw [← AdjoinRoot.mk_eq_zero, map_sub, h1, sub_self]
            have h7 := dvd_add (dvd_trans hgf h6) hgx
            rw [show P b - X ^ 2 ^ x + (X ^ 2 ^ x - X) = P b - X by ring] at h7
            rwa [CharTwo.sub_eq_add] at h7
          rw [← P_two, ← P_xor] at h5
          obtain ⟨k, hk⟩ := strip_P (b ^^^ 2)
          rw [hk] at h5
          exact coprime_P _ _ _ hc g hg hX hgf
            ((hg.dvd_or_dvd h5).resolve_left fun h6 => hX (hg.dvd_of_dvd_pow h6))
        · exact h4 x hx

/-! ## prime factors -/

theorem factors_sound (fuel : Nat) : ∀ k n acc l, factors fuel k n acc = some l → (∀ p, p.Prime → p ∣ n → k ≤ p) → 0 < n →
    2 ≤ k → (∀ x ∈ acc, x ∈ l) ∧ ∀ p, p.Prime → p ∣ n → p ∈ l := by
  induction fuel with
  | zero => intro k n acc l h; cases h
  | succ fuel ih =>
    intro k n acc l h hn hn0 hk
    have e : factors (fuel + 1) k n acc = Bool.rec (Bool.rec (factors fuel (k + 1) n acc)
        (factors fuel k (n / Nat.gcd n (k ^ 16)) (k :: acc)) (Nat.beq (n % k) 0))
        (some (Bool.rec (n :: acc) acc (Nat.beq n 1))) (Nat.ble (n + 1) (k * k)) := rfl
    rw [e] at h
    cases hle : Nat.ble (n + 1) (k * k) with
    | true =>
      rw [hle] at h
      have hle := Nat.le_of_ble_eq_true hle
      have h : some (Bool.rec (n :: acc) acc (Nat.beq n 1) : List Nat) = some l := h
      cases h1 : Nat.beq n 1 with
      | true =>
        rw [h1] at h
        cases h
        refine ⟨fun x hx => hx, fun p hp hpn => ?_⟩
        rw [Nat.eq_of_beq_eq_true h1] at hpn
        exact absurd (Nat.dvd_one.1 hpn) hp.one_lt.ne'
      | false =>
        rw [h1] at h
        cases h
        refine ⟨fun x hx => List.mem_cons_of_mem _ hx, fun p hp hpn => ?_⟩
        obtain ⟨t, ht⟩ := hpn
        by_cases ht1 : t = 1
        · subst ht1
          rw [ht, mul_one]
          exact List.mem_cons_self
        · exfalso
          obtain ⟨q, hq, hqt⟩ := Nat.exists_prime_and_dvd ht1
          have h2 := hn p hp ⟨t, ht⟩
          have h3 := hn q hq (ht ▸ dvd_mul_of_dvd_right hqt p)
          have ht0 : 0 < t := Nat.pos_of_ne_zero fun h0 => by subst h0; omega
          have h4 : q ≤ t := Nat.le_of_dvd ht0 hqt
          have h5 : k * k ≤ p * t := Nat.mul_le_mul h2 (le_trans h3 h4)
          omega
    | false =>
      rw [hle] at h
      have h : (Bool.rec (factors fuel (k + 1) n acc)
        (factors fuel k (n / Nat.gcd n (k ^ 16)) (k :: acc)) (Nat.beq (n % k) 0) : Option (List Nat)) = some l := h
      cases hd : Nat.beq (n % k) 0 with
      | true =>
        rw [hd] at h
        have hg : Nat.gcd n (k ^ 16) ∣ n := Nat.gcd_dvd_left _ _
        have hmul := Nat.div_mul_cancel hg
        obtain ⟨h1, h2⟩ := ih k _ _ l h (fun p hp hpn => hn p hp (dvd_trans hpn (Nat.div_dvd_of_dvd hg)))
          (Nat.div_pos (Nat.le_of_dvd hn0 hg) (Nat.gcd_pos_of_pos_left _ hn0)) hk
        refine ⟨fun x hx => h1 x (List.mem_cons_of_mem _ hx), fun p hp hpn => ?_⟩
        rw [← hmul] at hpn
        rcases hp.dvd_mul.1 hpn with h3 | h3
        · exact h2 p hp h3
        · have h4 : p ∣ k := hp.dvd_of_dvd_pow (dvd_trans h3 (Nat.gcd_dvd_right _ _))
          have h5 := Nat.le_of_dvd (by omega) h4
          have h6 := hn p hp (dvd_trans h3 hg)
          rw [show p = k by omega]
          exact h1 k List.mem_cons_self
      | false =>
        rw [hd] at h
        have hd := Nat.ne_of_beq_eq_false hd
        refine ih (k + 1) n acc l h (fun p hp hpn => ?_) hn0 (by omega)
        have h1 := hn p hp hpn
        rcases Nat.lt_or_ge k p with h2 | h2
        · exact h2
        · exfalso
          apply hd
          rw [show k = p by omega]
          exact Nat.mod_eq_zero_of_dvd hpn

theorem exps_sound (m : Nat) (hm : 0 < m) (ds : List Nat) (h : exps m = some ds) :
    (∀ d ∈ ds, d ≤ m) ∧ ∀ p, p.Prime → p ∣ m → m / p ∈ ds := by
  rw [exps] at h
  cases hf : factors 100 2 m [] with
  | none => rw [hf] at h; cases h
  | some qs =>
    rw [hf] at h
    have h : some (qs.map (Nat.div m)) = some ds := h
    cases h
    obtain ⟨-, h2⟩ := factors_sound 100 2 m [] qs hf (fun p hp _ => hp.two_le) hm (le_refl 2)
    refine ⟨fun d hd => ?_, fun p hp hpm => List.mem_map.2 ⟨p, h2 p hp hpm, rfl⟩⟩
    obtain ⟨q, -, rfl⟩ := List.mem_map.1 hd
    exact Nat.div_le_self m q

/-! ## Rabin's criterion -/

theorem rabin (f : (ZMod 2)[X]) (m : Nat) (hm : 0 < m) (hdeg : f.natDegree = m) (h1 : f ∣ X ^ 2 ^ m - X)
    (h2 : ∀ p, p.Prime → p ∣ m → ∀ g, Irreducible g → g ∣ f → ¬ g ∣ X ^ 2 ^ (m / p) - X) : Irreducible f := by
  have hf0 : f ≠ 0 := by rintro rfl; simp at hdeg; omega
  have hfu : ¬ IsUnit f := by
    intro hu
    have := natDegree_eq_zero_of_isUnit hu
    omega
  obtain ⟨g, hg, hgf⟩ := WfDvdMonoid.exists_irreducible_factor hfu hf0
  have key : ∀ n, g.natDegree ∣ n ↔ g ∣ X ^ 2 ^ n - X := by
    intro n
    have := hg.natDegree_dvd_iff_dvd_X_pow_card_pow_sub_X (n := n)
    rwa [Nat.card_zmod] at this
  have hd := (key m).2 (dvd_trans hgf h1)
  by_cases he : g.natDegree = m
  · obtain ⟨c, hc⟩ := hgf
    have hc0 : c ≠ 0 := by rintro rfl; exact hf0 (by rw [hc, mul_zero])
    have hcd : c.natDegree = 0 := by
      have := natDegree_mul hg.ne_zero hc0
      rw [← hc] at this
      omega
    have hcu : IsUnit c := by
      rw [eq_C_of_natDegree_eq_zero hcd]
      refine isUnit_C.2 (isUnit_iff_ne_zero.2 fun h => hc0 ?_)
      rw [eq_C_of_natDegree_eq_zero hcd, h, C_0]
    rw [hc]
    exact (associated_mul_unit_right g c hcu).irreducible hg
  · exfalso
    obtain ⟨t, ht⟩ := hd
    have ht1 : t ≠ 1 := by rintro rfl; omega
    obtain ⟨p, hp, u, rfl⟩ := Nat.exists_prime_and_dvd ht1
    have hpm : p ∣ m := ⟨g.natDegree * u, by rw [ht]; ring⟩
    refine h2 p hp hpm g hg hgf ((key _).1 ⟨u, ?_⟩)
    rw [ht, show g.natDegree * (p * u) = g.natDegree * u * p by ring, Nat.mul_div_cancel _ hp.pos]

theorem test_sound (F : Nat) (red : Nat → Nat → Nat) (h : Reds (P F) red) (m : Nat) (hm : 0 < m)
    (hdeg : (P F).natDegree = m) (hodd : F.testBit 0 = true)
    (ht : test (levels 8 layout8) (levels 4 layout4) red F m = true) : Irreducible (P F) := by
  rw [test] at ht
  cases he : exps m with
  | none => rw [he] at ht; cases ht
  | some ds =>
    rw [he] at ht
    have ht : visit (levels 8 layout8) (levels 4 layout4) red (ones 2187) F m ds 0 2 = true := ht
    obtain ⟨h1, h2⟩ := exps_sound m hm ds he
    obtain ⟨h3, h4⟩ := visit_sound F red h m ds 0 2 ht (Nat.zero_le m) h1 (by rw [P_two]; simp)
    refine rabin _ m hm hdeg h3 fun p hp hpm g hg hgf => h4 _ (h2 p hp hpm) g hg.prime (fun hX => ?_) hgf
    -- `X` is no factor, because the constant coefficient is not zero
    have hXg : X ∣ g := (hg.dvd_symm irreducible_X hX)
    have := X_dvd_iff.1 (dvd_trans hXg hgf)
    rw [coeff_P, hodd] at this
    exact one_ne_zero this

end Ecgen.Irred
