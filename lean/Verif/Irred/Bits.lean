import Verif.Irred.Check
import Mathlib.Tactic.Ring
import Mathlib.Algebra.Ring.GeomSum

/-!
# The bits that `spread` moves
-/

namespace Ecgen.Irred

theorem force_eq {α : Type} (a : Nat) (k : Nat → α) : force a k = k a := by cases a <;> rfl

/-- bits of a sum without carries -/
theorem testBit_add_disjoint (i : Nat) : ∀ u v : Nat, (∀ j, ¬ (u.testBit j = true ∧ v.testBit j = true)) →
    (u + v).testBit i = (u.testBit i || v.testBit i) := by
  induction i with
  | zero =>
    intro u v h
    have h0 := h 0
    simp only [Nat.testBit_zero, decide_eq_true_eq] at *
    rw [← Bool.decide_or]
    exact decide_eq_decide.2 (by omega)
  | succ i ih =>
    intro u v h
    have h0 := h 0
    simp only [Nat.testBit_zero, decide_eq_true_eq] at h0
    rw [Nat.testBit_add_one, Nat.testBit_add_one, Nat.testBit_add_one, show (u + v) / 2 = u / 2 + v / 2 by omega]
    refine ih _ _ fun j hj => h (j + 1) ?_
    rwa [Nat.testBit_add_one, Nat.testBit_add_one]

theorem ones_eq (c : Nat) : ones c = 2 ^ c - 1 := rfl

theorem rep_eq (s n : Nat) (hs : 0 < s) : rep s n = ∑ k ∈ Finset.range n, 2 ^ (s * k) := by
  have h1 : (2 : Nat) ≤ 2 ^ s := by
    calc 2 = 2 ^ 1 := rfl
      _ ≤ 2 ^ s := Nat.pow_le_pow_right (by decide) hs
  have := Nat.geomSum_eq h1 n
  simp only [← pow_mul] at this
  rw [this]
  rfl

theorem rep_succ (s n : Nat) (hs : 0 < s) : rep s (n + 1) = rep s n + 2 ^ (s * n) := by
  rw [rep_eq _ _ hs, rep_eq _ _ hs, Finset.sum_range_succ]

theorem rep_zero (s : Nat) (hs : 0 < s) : rep s 0 = 0 := by rw [rep_eq _ _ hs]; rfl

/-- position of the quotient and the remainder -/
theorem div_mod_unique (i d j t : Nat) (h : i = d * j + t) (ht : t < d) : i / d = j ∧ i % d = t := by
  subst h
  have hd : 0 < d := by omega
  rw [Nat.mul_add_div hd, Nat.mul_add_mod, Nat.div_eq_of_lt ht, Nat.mod_eq_of_lt ht]
  exact ⟨rfl, rfl⟩

/-- `n` copies of a number of at most `s` bits -/
theorem testBit_copies (x s : Nat) (hs : 0 < s) (hx : x < 2 ^ s) (n i : Nat) :
    (x * rep s n).testBit i = (decide (i / s < n) && x.testBit (i % s)) := by
  induction n generalizing i with
  | zero => rw [rep_zero _ hs]; simp
  | succ n ih =>
    have e : (x * 2 ^ (s * n)).testBit i = (decide (i / s = n) && x.testBit (i % s)) := by
      rw [← Nat.shiftLeft_eq, Nat.testBit_shiftLeft]
      rcases Nat.lt_or_ge i (s * n) with h | h
      · rw [decide_eq_false (by omega)]
        have : i / s < n := Nat.div_lt_of_lt_mul h
        rw [decide_eq_false (show ¬ i / s = n by omega)]
        rfl
      · rw [decide_eq_true h]
        rcases Nat.lt_or_ge (i - s * n) s with h' | h'
        · obtain ⟨e1, e2⟩ := div_mod_unique i s n (i - s * n) (by omega) h'
          rw [e1, e2, decide_eq_true rfl]
        · have hn : ¬ i / s = n := by
            intro hn
            have := Nat.div_add_mod i s
            have := Nat.mod_lt i hs
            rw [hn] at *
            omega
          rw [decide_eq_false hn, Nat.testBit_lt_two_pow (lt_of_lt_of_le hx (Nat.pow_le_pow_right (by decide) h'))]
          rfl
    rw [rep_succ _ _ hs, Nat.mul_add, testBit_add_disjoint, ih, e]
    · rcases Nat.lt_trichotomy (i / s) n with h | h | h
      · rw [decide_eq_true h, decide_eq_false (show ¬ i / s = n by omega), decide_eq_true (show i / s < n + 1 by omega)]
        simp
      · rw [decide_eq_true h, decide_eq_false (show ¬ i / s < n by omega), decide_eq_true (show i / s < n + 1 by omega)]
        simp
      · rw [decide_eq_false (show ¬ i / s = n by omega), decide_eq_false (show ¬ i / s < n by omega),
          decide_eq_false (show ¬ i / s < n + 1 by omega)]
        simp
    · rintro j ⟨h1, h2⟩
      rw [ih] at h1
      rw [← Nat.shiftLeft_eq, Nat.testBit_shiftLeft] at h2
      simp only [Bool.and_eq_true, decide_eq_true_eq] at h1 h2
      have := (Nat.le_div_iff_mul_le hs).2 (by rw [Nat.mul_comm]; exact h2.1 : n * s ≤ j)
      omega

/-- the bits of `a` in blocks of `b`, at distance `F b` -/
def Spaced (F b a x : Nat) : Prop :=
  ∀ i, x.testBit i = (decide (i % (F * b) < b) && a.testBit (i / (F * b) * b + i % (F * b)))

theorem spaced_start (F b a : Nat) (hF : 0 < F) (hb : 0 < b) (ha : a < 2 ^ b) : Spaced F b a a := by
  intro i
  have hd : 0 < F * b := Nat.mul_pos hF hb
  have hbd : b ≤ F * b := Nat.le_mul_of_pos_left b hF
  rcases Nat.lt_or_ge i b with h | h
  · have hi : i < F * b := lt_of_lt_of_le h hbd
    rw [Nat.div_eq_of_lt hi, Nat.mod_eq_of_lt hi, decide_eq_true h]
    simp
  · rw [Nat.testBit_lt_two_pow (lt_of_lt_of_le ha (Nat.pow_le_pow_right (by decide) h))]
    rcases Nat.lt_or_ge i (F * b) with hi | hi
    · rw [Nat.mod_eq_of_lt hi, decide_eq_false (by omega)]
      rfl
    · have h1 : 1 ≤ i / (F * b) := (Nat.le_div_iff_mul_le hd).2 (by omega)
      have h2 : b ≤ i / (F * b) * b + i % (F * b) := le_trans (Nat.le_mul_of_pos_left b h1) (Nat.le_add_right _ _)
      rw [Nat.testBit_lt_two_pow (lt_of_lt_of_le ha (Nat.pow_le_pow_right (by decide) h2))]
      simp

/-- the copies made by the multiplication -/
theorem testBit_mul_rep (F c r a x : Nat) (hc : 0 < c) (hr : r + 1 ≤ F) (hr0 : 0 < r) (hx : Spaced F (r * c) a x) (n : Nat)
    (hn : n ≤ r) (i : Nat) :
    (x * rep ((F - 1) * c) n).testBit i =
      (decide (i % (F * (r * c)) / ((F - 1) * c) < n) &&
        (decide (i % (F * (r * c)) % ((F - 1) * c) < r * c) &&
          a.testBit (i / (F * (r * c)) * (r * c) + i % (F * (r * c)) % ((F - 1) * c)))) := by
  obtain ⟨G, rfl⟩ : ∃ G, F = G + 1 := ⟨F - 1, by omega⟩
  simp only [Nat.add_sub_cancel]
  have hs : 0 < G * c := Nat.mul_pos (by omega) hc
  have hrs : r * c ≤ G * c := Nat.mul_le_mul_right c (by omega)
  have hd : 0 < (G + 1) * (r * c) := Nat.mul_pos (by omega) (Nat.mul_pos hr0 hc)
  induction n generalizing i with
  | zero => rw [rep_zero _ hs]; simp
  | succ n ih =>
    replace ih := ih (by omega)
    have hfit : G * c * n + r * c ≤ (G + 1) * (r * c) := by
      have h1 : G * c * n ≤ G * c * (r - 1) := Nat.mul_le_mul_left _ (by omega)
      have h2 : G * c * (r - 1) + G * c = G * c * r := by
        rw [← Nat.mul_succ, Nat.succ_eq_add_one, Nat.sub_add_cancel hr0]
      have h3 : (G + 1) * (r * c) = G * c * r + r * c := by ring
      omega
    -- the new copy
    have e : (x * 2 ^ (G * c * n)).testBit i =
        (decide (i % ((G + 1) * (r * c)) / (G * c) = n) &&
          (decide (i % ((G + 1) * (r * c)) % (G * c) < r * c) &&
            a.testBit (i / ((G + 1) * (r * c)) * (r * c) + i % ((G + 1) * (r * c)) % (G * c)))) := by
      rw [← Nat.shiftLeft_eq, Nat.testBit_shiftLeft]
      by_cases h : G * c * n ≤ i ∧ (i - G * c * n) % ((G + 1) * (r * c)) < r * c
      · obtain ⟨h1, h2⟩ := h
        have hi : i = (G + 1) * (r * c) * ((i - G * c * n) / ((G + 1) * (r * c))) +
            (G * c * n + (i - G * c * n) % ((G + 1) * (r * c))) := by
          have := Nat.div_add_mod (i - G * c * n) ((G + 1) * (r * c))
          omega
        obtain ⟨e1, e2⟩ := div_mod_unique i _ _ _ hi (by omega)
        obtain ⟨e3, e4⟩ := div_mod_unique (G * c * n + (i - G * c * n) % ((G + 1) * (r * c))) (G * c) n
          ((i - G * c * n) % ((G + 1) * (r * c))) rfl (by omega)
        rw [decide_eq_true h1, hx, e1, e2, e3, e4, decide_eq_true h2, decide_eq_true rfl]
      · have hL : (decide (i ≥ G * c * n) && x.testBit (i - G * c * n)) = false := by
          rw [hx]
          by_cases h1 : G * c * n ≤ i
          · rw [decide_eq_false (show ¬ (i - G * c * n) % ((G + 1) * (r * c)) < r * c from fun h2 => h ⟨h1, h2⟩)]
            simp
          · rw [decide_eq_false (show ¬ i ≥ G * c * n from h1)]
            rfl
        rw [hL]
        by_cases h1 : i % ((G + 1) * (r * c)) / (G * c) = n
        · by_cases h2 : i % ((G + 1) * (r * c)) % (G * c) < r * c
          · exfalso
            apply h
            have h3 := Nat.div_add_mod (i % ((G + 1) * (r * c))) (G * c)
            rw [h1] at h3
            have h4 := Nat.div_add_mod i ((G + 1) * (r * c))
            obtain ⟨-, e2⟩ := div_mod_unique (i - G * c * n) ((G + 1) * (r * c)) (i / ((G + 1) * (r * c)))
              (i % ((G + 1) * (r * c)) % (G * c)) (by omega) (by omega)
            exact ⟨by omega, by rw [e2]; exact h2⟩
          · rw [decide_eq_false h2]; simp
        · rw [decide_eq_false h1]; rfl
    have e' : ∀ j, ¬ ((x * rep (G * c) n).testBit j = true ∧ (x * 2 ^ (G * c * n)).testBit j = true) := by
      rintro j ⟨h1, h2⟩
      rw [ih] at h1
      rw [← Nat.shiftLeft_eq, Nat.testBit_shiftLeft, hx] at h2
      simp only [Bool.and_eq_true, decide_eq_true_eq] at h1 h2
      obtain ⟨h3, h4, -⟩ := h2
      have hi : j = (G + 1) * (r * c) * ((j - G * c * n) / ((G + 1) * (r * c))) +
          (G * c * n + (j - G * c * n) % ((G + 1) * (r * c))) := by
        have := Nat.div_add_mod (j - G * c * n) ((G + 1) * (r * c))
        omega
      obtain ⟨e1, e2⟩ := div_mod_unique j _ _ _ hi (by omega)
      obtain ⟨e3, -⟩ := div_mod_unique (G * c * n + (j - G * c * n) % ((G + 1) * (r * c))) (G * c) n
        ((j - G * c * n) % ((G + 1) * (r * c))) rfl (by omega)
      rw [e2, e3] at h1
      omega
    rw [rep_succ _ _ hs, Nat.mul_add, testBit_add_disjoint _ _ _ e', ih, e]
    rcases Nat.lt_trichotomy (i % ((G + 1) * (r * c)) / (G * c)) n with h | h | h
    · rw [decide_eq_true h, decide_eq_false (show ¬ _ = n by omega), decide_eq_true (show _ < n + 1 by omega)]
      simp
    · rw [decide_eq_true h, decide_eq_false (show ¬ _ < n by omega), decide_eq_true (show _ < n + 1 by omega)]
      simp
    · rw [decide_eq_false (show ¬ _ = n by omega), decide_eq_false (show ¬ _ < n by omega),
        decide_eq_false (show ¬ _ < n + 1 by omega)]
      simp

/-- the mask -/
theorem testBit_mask (F c T i : Nat) (hF : 0 < F) (hc : 0 < c) :
    (ones c * rep (F * c) T).testBit i = (decide (i / (F * c) < T) && decide (i % (F * c) < c)) := by
  have hlt : ones c < 2 ^ (F * c) :=
    lt_of_lt_of_le (by rw [ones_eq]; have := Nat.two_pow_pos c; omega)
      (Nat.pow_le_pow_right (by decide) (Nat.le_mul_of_pos_left c hF))
  rw [testBit_copies _ _ (Nat.mul_pos hF hc) hlt, ones_eq, Nat.testBit_two_pow_sub_one]

/-- one step of `spread` -/
theorem spaced_step (F c r T a x : Nat) (hc : 0 < c) (hr : r + 1 ≤ F) (hr0 : 0 < r) (ha : a < 2 ^ (T * c))
    (hx : Spaced F (r * c) a x) :
    Spaced F c a ((x * rep ((F - 1) * c) r) &&& (ones c * rep (F * c) T)) := by
  intro i
  have hd : 0 < F * c := Nat.mul_pos (by omega) hc
  rw [Nat.testBit_and, testBit_mask F c T i (by omega) hc, testBit_mul_rep F c r a x hc hr hr0 hx r (le_refl r)]
  by_cases hw : i % (F * c) < c
  · by_cases hT : i / (F * c) < T
    · -- `i = F c u + w`, `u = r j + v`
      have h1 := Nat.div_add_mod i (F * c)
      have h2 := Nat.div_add_mod (i / (F * c)) r
      have hv := Nat.mod_lt (i / (F * c)) hr0
      generalize i % (F * c) = w at *
      generalize i / (F * c) = u at *
      generalize u / r = j at *
      generalize u % r = v at *
      obtain ⟨G, rfl⟩ : ∃ G, F = G + 1 := ⟨F - 1, by omega⟩
      simp only [Nat.add_sub_cancel]
      have hvw : v * c + w < r * c := by
        have : (v + 1) * c ≤ r * c := Nat.mul_le_mul_right c hv
        rw [Nat.succ_mul] at this
        omega
      have hrG : r * c ≤ G * c := Nat.mul_le_mul_right c (by omega)
      have hfit : (G + 1) * c * v + w < (G + 1) * (r * c) := by
        have : (G + 1) * c * (v + 1) ≤ (G + 1) * c * r := Nat.mul_le_mul_left _ hv
        have e : (G + 1) * (r * c) = (G + 1) * c * r := by ring
        have e' : (G + 1) * c * (v + 1) = (G + 1) * c * v + (G + 1) * c := by ring
        have : c ≤ (G + 1) * c := Nat.le_mul_of_pos_left c (by omega)
        omega
      obtain ⟨e1, e2⟩ := div_mod_unique i ((G + 1) * (r * c)) j ((G + 1) * c * v + w)
        (by rw [← h1, ← h2]; ring) hfit
      obtain ⟨e3, e4⟩ := div_mod_unique ((G + 1) * c * v + w) (G * c) v (v * c + w) (by ring) (by omega)
      rw [e1, e2, e3, e4, decide_eq_true hv, decide_eq_true hvw, decide_eq_true hT, decide_eq_true hw,
        show j * (r * c) + (v * c + w) = u * c + w by rw [← h2]; ring]
      simp
    · have hle : T * c ≤ i / (F * c) * c + i % (F * c) :=
        le_trans (Nat.mul_le_mul_right c (by omega)) (Nat.le_add_right _ _)
      rw [decide_eq_false hT, Nat.testBit_lt_two_pow (lt_of_lt_of_le ha (Nat.pow_le_pow_right (by decide) hle))]
      simp
  · rw [decide_eq_false hw]
    simp

/-- the layouts that `spread` may use, from blocks of `b` bits down to single bits -/
def Layout (F n : Nat) : Nat → List (Nat × Nat × Nat) → Prop
  | b, [] => b = 1
  | b, (c, r, T) :: l => 0 < c ∧ r + 1 ≤ F ∧ 0 < r ∧ n ≤ T * c ∧ b = r * c ∧ Layout F n c l

theorem spread_spaced (F n a : Nat) (ha : a < 2 ^ n) (l : List (Nat × Nat × Nat)) :
    ∀ b x, Layout F n b l → Spaced F b a x → Spaced F 1 a (spread (levels F l) x) := by
  induction l with
  | nil => intro b x h hx; cases h; exact hx
  | cons p l ih =>
    obtain ⟨c, r, T⟩ := p
    rintro b x ⟨hc, hr, hr0, hT, rfl, hl⟩ hx
    have e : levels F ((c, r, T) :: l) = (rep ((F - 1) * c) r, ones c * rep (F * c) T) :: levels F l := by
      simp only [levels, force_eq]
      rfl
    rw [e]
    exact ih c _ hl (spaced_step F c r T a x hc hr hr0 (lt_of_lt_of_le ha (Nat.pow_le_pow_right (by decide) hT)) hx)

theorem layout8_ok : Layout 8 2187 2401 layout8 := by simp [Layout, layout8]
theorem layout4_ok : Layout 4 2187 2187 layout4 := by simp [Layout, layout4]

set_option exponentiation.threshold 2500 in
theorem spread8 (a : Nat) (ha : a < 2 ^ 2187) (i : Nat) :
    (spread (levels 8 layout8) a).testBit i = (decide (i % 8 = 0) && a.testBit (i / 8)) := by
  have := spread_spaced 8 2187 a ha layout8 2401 a layout8_ok
    (spaced_start 8 2401 a (by decide) (by decide) (lt_of_lt_of_le ha (Nat.pow_le_pow_right (i := 2187) (j := 2401) (by decide) (by decide)))) i
  rw [this]
  by_cases h : i % 8 = 0
  · simp [h]
  · simp [h]

theorem spread4 (a : Nat) (ha : a < 2 ^ 2187) (i : Nat) :
    (spread (levels 4 layout4) a).testBit i = (decide (i % 4 = 0) && a.testBit (i / 4)) := by
  have := spread_spaced 4 2187 a ha layout4 2187 a layout4_ok (spaced_start 4 2187 a (by decide) (by decide) ha) i
  rw [this]
  by_cases h : i % 4 = 0
  · simp [h]
  · simp [h]

end Ecgen.Irred
