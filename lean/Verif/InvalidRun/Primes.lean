import Verif.InvalidRun.Model
import Mathlib.NumberTheory.Chebyshev
import Mathlib.Tactic.Linarith

/-!
# The primes of a run
-/

namespace Ecgen.InvalidRun

open Invalid

/-! ## The budget does not matter -/

theorem primesLoop_more (np : Nat → Nat) (bound : Int) (upper : Nat) (k : Nat) : ∀ (fuel last : Nat) (product : Int) (acc l : List Nat),
    primesLoop np bound upper fuel last product acc = some l → primesLoop np bound upper (fuel + k) last product acc = some l := by
  intro fuel
  induction fuel with
  | zero => intro last product acc l h; cases h
  | succ fuel ih =>
    intro last product acc l h
    rw [Nat.succ_add_eq_add_succ, Nat.add_succ]
    rw [primesLoop] at h ⊢
    split
    · rename_i hc
      rw [if_pos hc] at h
      simp only at h ⊢
      split
      · rename_i hd
        rw [if_pos hd] at h
        exact h
      · rename_i hd
        rw [if_neg hd] at h
        exact ih _ _ _ _ h
    · rename_i hc
      rw [if_neg hc] at h
      exact h

theorem primes_unique {np : Nat → Nat} {order : Nat} {range : Option (List Char)} {f1 f2 : Nat} {l1 l2 : List Nat}
    (h1 : invalidPrimes np order range f1 = some l1) (h2 : invalidPrimes np order range f2 = some l2) : l1 = l2 := by
  unfold invalidPrimes at h1 h2
  have e1 := primesLoop_more _ _ _ f2 _ _ _ _ _ h1
  have e2 := primesLoop_more _ _ _ f1 _ _ _ _ _ h2
  rw [Nat.add_comm] at e1
  exact Option.some.inj (e1.symm.trans e2)

/-! ## The product of the primes is large -/

open Chebyshev in
theorem primorial_large : 2 ^ (2 ^ 61) ≤ primorial (2 ^ 62) := by
  have h := theta_ge (2 ^ 62)
  rw [theta_eq_log_primorial] at h
  have hfl : ⌊((2 ^ 62 : Nat) : ℝ)⌋₊ = 2 ^ 62 := Nat.floor_natCast _
  have hpos : (0 : ℝ) < primorial (2 ^ 62) := by exact_mod_cast primorial_pos _
  have hl2 : 0 < Real.log 2 := Real.log_pos (by norm_num)
  have hs : √((2 ^ 62 : Nat) : ℝ) = 2 ^ 31 := by
    rw [show ((2 ^ 62 : Nat) : ℝ) = (2 ^ 31) ^ 2 by norm_num]
    exact Real.sqrt_sq (by positivity)
  have hl : Real.log ((2 ^ 62 : Nat) : ℝ) = 62 * Real.log 2 := by
    rw [show ((2 ^ 62 : Nat) : ℝ) = 2 ^ 62 by norm_num, Real.log_pow]
    norm_num
  have hl' : Real.log (((2 ^ 62 : Nat) : ℝ) + 1) ≤ 63 * Real.log 2 := by
    rw [show (63 : ℝ) * Real.log 2 = Real.log (2 ^ 63) by rw [Real.log_pow]; norm_num]
    exact Real.log_le_log (by positivity) (by norm_num)
  have key : ((2 ^ 61 : Nat) : ℝ) * Real.log 2 ≤ Real.log (primorial (2 ^ 62)) := by
    rw [hfl, hs, hl] at h
    refine le_trans ?_ h
    have e : ((2 ^ 62 : Nat) : ℝ) = 4611686018427387904 := by norm_num
    have e' : ((2 ^ 61 : Nat) : ℝ) = 2305843009213693952 := by norm_num
    rw [e] at hl' ⊢
    rw [e']
    norm_num1 at hl' ⊢
    nlinarith
  generalize (2 ^ 61 : Nat) = N at key ⊢
  rw [← Real.log_pow] at key
  have := (Real.log_le_log_iff (by positivity) hpos).1 key
  exact_mod_cast this

theorem order_small {bits o : Nat} (hb : bits < 2 ^ 59) (ho : o ≤ 2 ^ (bits + 2)) : o ^ 2 < primorial (2 ^ 62) := by
  refine lt_of_lt_of_le ?_ primorial_large
  calc o ^ 2 ≤ (2 ^ (bits + 2)) ^ 2 := Nat.pow_le_pow_left ho 2
    _ = 2 ^ ((bits + 2) * 2) := (pow_mul _ _ _).symm
    _ < 2 ^ (2 ^ 61) := Nat.pow_lt_pow_right (by omega) (by omega)

/-! ## The primes are those asked for -/

theorem selected {np : Nat → Nat} (hnp : NextSpec np) {bits o fuel : Nat} {range : Option (List Char)} {qs : List Nat} (hm : Meant bits range) (h0 : 0 < o)
    (ho : o ≤ 2 ^ (bits + 2)) (h : invalidPrimes np o range fuel = some qs) : Selected range o qs where
  product hr := by
    subst hr
    obtain ⟨f, l, h1, ⟨n, init, e, h2, h3, h4⟩, -⟩ := no_range_partial np hnp o h0 (order_small hm ho)
    obtain rfl := primes_unique h h1
    exact ⟨init, n, e, h2, by exact_mod_cast h3, fun r m hr => by exact_mod_cast h4 r m hr⟩
  single s hr hs := by
    subst hr
    obtain ⟨f, p, h1, h2⟩ := single_partial np hnp o s hs.1 hs.2.1 hs.2.2
    obtain rfl := primes_unique h h1
    exact ⟨p, rfl, h2⟩
  range s t hr hs ht := by
    subst hr
    obtain ⟨f, l, h1, h2⟩ := range_partial np hnp o s t hs.1 ht.1 hs.2.1 hs.2.2 ht.2.1 ht.2.2
    obtain rfl := primes_unique h h1
    exact h2

theorem selected_primes {bits o : Nat} {range : Option (List Char)} {qs : List Nat} (hm : Meant bits range) (h : Selected range o qs) :
    qs.Pairwise (· < ·) ∧ ∀ q ∈ qs, q.Prime := by
  cases range with
  | none =>
    obtain ⟨-, n, -, ⟨h1, h2⟩, -⟩ := h.product rfl
    exact ⟨h1, fun q hq => ((h2 q).1 hq).1⟩
  | some r =>
    rcases hm with hm | ⟨s, t, rfl, h1, h2⟩
    · obtain ⟨q, rfl, h1, -⟩ := h.single r rfl hm
      exact ⟨List.pairwise_singleton _ _, fun p hp => (List.mem_singleton.1 hp) ▸ h1⟩
    · obtain ⟨h3, h4⟩ := h.range s t rfl h1 h2
      exact ⟨h3, fun q hq => ((h4 q).1 hq).1⟩

end Ecgen.InvalidRun
