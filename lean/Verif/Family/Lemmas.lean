import Verif.Family.Tables
import Verif.Family.Spec
import Mathlib.RingTheory.Polynomial.Cyclotomic.Expand
import Mathlib.Tactic.FieldSimp
import Mathlib.Tactic.NormNum
import Mathlib.Tactic.Linarith

namespace Ecgen.Family

open LP Polynomial

/-- the seed with parameter `w` -/
def seedOf : Fam → Int → Int
  | .BLS12, w => 3 * w + 1
  | .BLS24, w => 3 * w + 1
  | _, w => w

/-! ### the tables against the model -/

theorem nz_seed (f : Fam) (w : Int) : nz f (seedOf f w : ℤ) = ((ev (linW f) w : ℤ) : ℚ) := by
  cases f <;> simp only [nz, seedOf, linW, ev_cons, ev_nil] <;> push_cast <;> ring

theorem pz_num (f : Fam) (n : Int) : (denP f : ℚ) * pz f n = ((ev (numP f) n : ℤ) : ℚ) := by
  cases f <;> simp only [pz, denP, numP, ev_cons, ev_nil] <;> push_cast <;> ring

theorem rz_num (f : Fam) (n : Int) : (denR f : ℚ) * rz f n = ((ev (numR f) n : ℤ) : ℚ) := by
  cases f <;> simp only [rz, denR, numR, ev_cons, ev_nil] <;> push_cast <;> ring

theorem tz_num (f : Fam) (n : Int) : (denT f : ℚ) * trace f n = ((ev (numT f) n : ℤ) : ℚ) := by
  cases f <;> simp only [trace, denT, numT, ev_cons, ev_nil] <;> push_cast <;> ring

theorem tabP (f : Fam) : eqv (comp (numP f) (linW f)) (scale (denP f) (PW f)) = true := by
  cases f <;> decide +kernel

theorem tabR (f : Fam) : eqv (comp (numR f) (linW f)) (scale (denR f) (RW f)) = true := by
  cases f <;> decide +kernel

theorem tabT (f : Fam) : eqv (comp (numT f) (linW f)) (scale (denT f) (TW f)) = true := by
  cases f <;> decide +kernel

theorem denP_ne (f : Fam) : (denP f : ℚ) ≠ 0 := by cases f <;> norm_num [denP]
theorem denR_ne (f : Fam) : (denR f : ℚ) ≠ 0 := by cases f <;> norm_num [denR]
theorem denT_ne (f : Fam) : (denT f : ℚ) ≠ 0 := by cases f <;> norm_num [denT]

theorem link (num lin W : List Int) (den w : Int) (x : ℚ) (hd : (den : ℚ) ≠ 0)
    (h1 : (den : ℚ) * x = ((ev num (ev lin w) : ℤ) : ℚ))
    (h2 : eqv (comp num lin) (scale den W) = true) : x = ((ev W w : ℤ) : ℚ) := by
  have := ev_eqv _ _ h2 w
  rw [ev_comp, ev_scale] at this
  rw [this] at h1
  push_cast at h1
  exact mul_left_cancel₀ hd h1

theorem pz_eq (f : Fam) (w : Int) : pz f (nz f (seedOf f w : ℤ)) = ((ev (PW f) w : ℤ) : ℚ) := by
  rw [nz_seed]
  exact link _ _ _ _ _ _ (denP_ne f) (pz_num f _) (tabP f)

theorem rz_eq (f : Fam) (w : Int) : rz f (nz f (seedOf f w : ℤ)) = ((ev (RW f) w : ℤ) : ℚ) := by
  rw [nz_seed]
  exact link _ _ _ _ _ _ (denR_ne f) (rz_num f _) (tabR f)

theorem trace_eq (f : Fam) (w : Int) : trace f (nz f (seedOf f w : ℤ)) = ((ev (TW f) w : ℤ) : ℚ) := by
  rw [nz_seed]
  exact link _ _ _ _ _ _ (denT_ne f) (tz_num f _) (tabT f)

/-! ### identities in `w` -/

/-- coefficients of the cyclotomic polynomial of the family -/
def cycL : Fam → List Int
  | .BN => [1, 0, -1, 0, 1]
  | .BLS12 => [1, 0, -1, 0, 1]
  | .BLS24 => [1, 0, 0, 0, -1, 0, 0, 0, 1]
  | .KSS16 => [1, 0, 0, 0, 0, 0, 0, 0, 1]
  | .KSS18 => [1, 0, 0, -1, 0, 0, 1]
  | .KSS36 => [1, 0, 0, 0, 0, 0, -1, 0, 0, 0, 0, 0, 1]
  | .KSS40 => [1, 0, 0, 0, -1, 0, 0, 0, 1, 0, 0, 0, -1, 0, 0, 0, 1]

theorem cyc12 : cyclotomic 12 ℤ = X ^ 4 - X ^ 2 + 1 := by
  have h := cyclotomic_expand_eq_cyclotomic (p := 2) (n := 6) Nat.prime_two (by norm_num) ℤ
  rw [cyclotomic_six] at h
  rw [show (12 : ℕ) = 6 * 2 by norm_num, ← h]
  simp only [map_add, map_sub, map_pow, expand_X, map_one]
  ring

theorem cyc24 : cyclotomic 24 ℤ = X ^ 8 - X ^ 4 + 1 := by
  have h := cyclotomic_expand_eq_cyclotomic (p := 2) (n := 12) Nat.prime_two (by norm_num) ℤ
  rw [cyc12] at h
  rw [show (24 : ℕ) = 12 * 2 by norm_num, ← h]
  simp only [map_add, map_sub, map_pow, expand_X, map_one]
  ring

theorem cyc18 : cyclotomic 18 ℤ = X ^ 6 - X ^ 3 + 1 := by
  have h := cyclotomic_expand_eq_cyclotomic (p := 3) (n := 6) Nat.prime_three (by norm_num) ℤ
  rw [cyclotomic_six] at h
  rw [show (18 : ℕ) = 6 * 3 by norm_num, ← h]
  simp only [map_add, map_sub, map_pow, expand_X, map_one]
  ring

theorem cyc36 : cyclotomic 36 ℤ = X ^ 12 - X ^ 6 + 1 := by
  have h := cyclotomic_expand_eq_cyclotomic (p := 2) (n := 18) Nat.prime_two (by norm_num) ℤ
  rw [cyc18] at h
  rw [show (36 : ℕ) = 18 * 2 by norm_num, ← h]
  simp only [map_add, map_sub, map_pow, expand_X, map_one]
  ring

theorem cyc16 : cyclotomic 16 ℤ = X ^ 8 + 1 := by
  have h2 := cyclotomic_expand_eq_cyclotomic (p := 2) (n := 2) Nat.prime_two (by norm_num) ℤ
  have h4 := cyclotomic_expand_eq_cyclotomic (p := 2) (n := 4) Nat.prime_two (by norm_num) ℤ
  have h8 := cyclotomic_expand_eq_cyclotomic (p := 2) (n := 8) Nat.prime_two (by norm_num) ℤ
  rw [cyclotomic_two] at h2
  rw [show (16 : ℕ) = 8 * 2 by norm_num, ← h8, show (8 : ℕ) = 4 * 2 by norm_num, ← h4,
    show (4 : ℕ) = 2 * 2 by norm_num, ← h2]
  simp only [map_add, map_pow, expand_X, map_one]
  ring

theorem cyc10 : cyclotomic 10 ℤ = X ^ 4 - X ^ 3 + X ^ 2 - X + 1 := by
  have : Fact (Nat.Prime 5) := ⟨Nat.prime_five⟩
  have h := cyclotomic_expand_eq_cyclotomic_mul (p := 2) (n := 5) Nat.prime_two (by norm_num) ℤ
  have h5 : cyclotomic 5 ℤ = X ^ 4 + X ^ 3 + X ^ 2 + X + 1 := by
    rw [cyclotomic_prime]
    simp only [Finset.sum_range_succ, Finset.sum_range_zero]
    ring
  have hne : cyclotomic 5 ℤ ≠ 0 := cyclotomic_ne_zero 5 ℤ
  apply mul_right_cancel₀ hne
  rw [show (10 : ℕ) = 5 * 2 by norm_num, ← h, h5]
  simp only [map_add, map_pow, expand_X, map_one]
  ring

theorem cyc40 : cyclotomic 40 ℤ = X ^ 16 - X ^ 12 + X ^ 8 - X ^ 4 + 1 := by
  have h2 := cyclotomic_expand_eq_cyclotomic (p := 2) (n := 10) Nat.prime_two (by norm_num) ℤ
  have h4 := cyclotomic_expand_eq_cyclotomic (p := 2) (n := 20) Nat.prime_two (by norm_num) ℤ
  rw [cyc10] at h2
  rw [show (40 : ℕ) = 20 * 2 by norm_num, ← h4, show (20 : ℕ) = 10 * 2 by norm_num, ← h2]
  simp only [map_add, map_sub, map_pow, expand_X, map_one]
  ring

theorem cyc_eval (f : Fam) (x : Int) : (cyclotomic (degree f) ℤ).eval x = ev (cycL f) x := by
  cases f <;> simp only [degree, cycL, cyc12, cyc16, cyc18, cyc24, cyc36, cyc40, eval_add, eval_sub,
    eval_pow, eval_X, eval_one, ev_cons, ev_nil] <;> ring

/-- `Φ_k(t - 1)` in `w` -/
def cycW (f : Fam) : List Int := comp (cycL f) (add [-1] (TW f))

/-- `p + 1 - t` in `w` -/
def cardW (f : Fam) : List Int := trim (add (add (PW f) [1]) (scale (-1) (TW f)))

theorem idSub (f : Fam) : eqv (add (add (PW f) [1]) (scale (-1) (TW f)))
    (mul (RW f) (div (cardW f) (RW f))) = true := by
  cases f <;> decide +kernel

theorem idCyc (f : Fam) : eqv (cycW f) (mul (RW f) (div (trim (cycW f)) (RW f))) = true := by
  cases f <;> decide +kernel

theorem idCM (f : Fam) : eqv (scale 4 (PW f))
    (add (mul (TW f) (TW f)) (scale (-dStore f) (mul (SW f) (SW f)))) = true := by
  cases f <;> decide +kernel

theorem sub_w (f : Fam) (w : Int) : ev (RW f) w ∣ ev (PW f) w + 1 - ev (TW f) w := by
  have h := ev_eqv _ _ (idSub f) w
  rw [ev_mul, ev_add, ev_add, ev_scale] at h
  refine ⟨_, Eq.trans ?_ h⟩
  simp; ring

theorem cyc_w (f : Fam) (w : Int) : ev (RW f) w ∣ (cyclotomic (degree f) ℤ).eval (ev (TW f) w - 1) := by
  have h := ev_eqv _ _ (idCyc f) w
  rw [ev_mul, cycW, ev_comp, ev_add] at h
  rw [cyc_eval]
  refine ⟨_, Eq.trans ?_ h⟩
  congr 1
  simp; ring

theorem cm_w (f : Fam) (w : Int) :
    4 * ev (PW f) w - ev (TW f) w ^ 2 = -dStore f * ev (SW f) w ^ 2 := by
  have h := ev_eqv _ _ (idCM f) w
  rw [ev_scale, ev_add, ev_mul, ev_scale, ev_mul] at h
  linarith [h]

/-! ### bounds -/

theorem pos_right (L : List Int) (a : Int) (h : posL (comp L [a, 1]) = true) (w : Int) (hw : a ≤ w) :
    0 < ev L w := by
  have := ev_posL _ h (w - a) (by omega)
  rw [ev_comp] at this
  simpa using this

theorem pos_left (L : List Int) (a : Int) (h : posL (comp L [a, -1]) = true) (w : Int) (hw : w ≤ a) :
    0 < ev L w := by
  have := ev_posL _ h (a - w) (by omega)
  rw [ev_comp] at this
  have e : ev [a, -1] (a - w) = w := by simp
  rwa [e] at this

theorem deg_right (f : Fam) : posL (comp (add (RW f) [-(degree f : Int)]) [1, 1]) = true := by
  cases f <;> decide +kernel

theorem deg_left (f : Fam) : posL (comp (add (RW f) [-(degree f : Int)]) [-1, -1]) = true := by
  cases f <;> decide +kernel

theorem deg_zero (f : Fam) : ev (RW f) 0 = 1 ∨ (degree f : Int) < ev (RW f) 0 := by
  cases f <;> decide +kernel

/-- the subgroup order exceeds the embedding degree -/
theorem deg_lt (f : Fam) (w : Int) (h : ev (RW f) w ≠ 1) : (degree f : Int) < ev (RW f) w := by
  rcases (show 1 ≤ w ∨ w ≤ -1 ∨ w = 0 by omega) with hw | hw | hw
  · have := pos_right _ _ (deg_right f) w hw
    rw [ev_add] at this
    simp at this; omega
  · have := pos_left _ _ (deg_left f) w hw
    rw [ev_add] at this
    simp at this; omega
  · subst hw
    rcases deg_zero f with h0 | h0
    · exact absurd h0 h
    · exact h0

/-- `r² - 16 p` in `w` -/
def gapW (f : Fam) : List Int := add (mul (RW f) (RW f)) (scale (-16) (PW f))

theorem gap_right (f : Fam) : posL (comp (gapW f) [1, 1]) = true := by
  cases f <;> decide +kernel

theorem gap_left (f : Fam) : posL (comp (gapW f) [-2, -1]) = true := by
  cases f <;> decide +kernel

theorem gap_mid (f : Fam) : f ≠ .BN → f ≠ .BLS12 → 0 < ev (gapW f) (-1) := by
  cases f <;> decide +kernel

theorem gap_zero (f : Fam) : ev (RW f) 0 = 1 ∨ ev (RW f) 0 = 22249 ∨ 0 < ev (gapW f) 0 := by
  cases f <;> decide +kernel

end Ecgen.Family
