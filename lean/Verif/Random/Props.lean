import Verif.Random.Model
import Mathlib.Data.Nat.Size
import Mathlib.Data.Nat.Prime.Basic
import Mathlib.Tactic.Linarith

/-!
C52: random integers, primes and ranges.
-/

namespace Ecgen.Random

theorem range_bits (bits : Nat) (h : 1 ≤ bits) :
    int2n ((bits : Int) - 1) = ((2 ^ (bits - 1) : Nat) : Int) ∧ int2n bits = ((2 ^ bits : Nat) : Int) ∧ 2 ^ (bits - 1) ≤ 2 ^ bits := by
  unfold int2n
  refine ⟨?_, ?_, Nat.pow_le_pow_right (by omega) (by omega)⟩
  · rw [if_neg (by omega)]
    have : ((bits : Int) - 1).toNat = bits - 1 := by omega
    rw [this]; push_cast; rfl
  · rw [if_neg (by omega), Int.toNat_natCast]; push_cast; rfl

/-- the answers that are always the number asked, where possible -/
def always (v : Int) : Draws := fun _ a b => if a ≤ v ∧ v ≤ b then v else a

theorem always_contract (v : Int) : Contract (always v) := by
  intro k a b hab
  unfold always
  split <;> omega

/-- **C52** a random integer of a bit size is within the documented range, and every number of it can come out -/
theorem randomInt_range (bits : Nat) (h : 1 ≤ bits) (v : Int) :
    (∃ d, Contract d ∧ randomInt d bits = some v) ↔ ((2 ^ (bits - 1) : Nat) : Int) ≤ v ∧ v ≤ ((2 ^ bits : Nat) : Int) := by
  obtain ⟨ha, hb, hle⟩ := range_bits bits h
  unfold randomInt
  rw [ha, hb]
  have hle' : ((2 ^ (bits - 1) : Nat) : Int) ≤ ((2 ^ bits : Nat) : Int) := by exact_mod_cast hle
  constructor
  · rintro ⟨d, hd, e⟩
    rw [draw, if_pos hle'] at e
    cases e
    exact hd 0 _ _ hle'
  · intro hv
    exact ⟨always v, always_contract v, by rw [draw, if_pos hle', always, if_pos hv]⟩

/-- C52 is false for "sized": the upper end of the range, of one bit more, is possible; the ANSI seed of 160 bits can have 161 -/
theorem randomInt_size_false (bits : Nat) (h : 1 ≤ bits) :
    ∃ d, Contract d ∧ ∃ v : Nat, randomInt d bits = some (v : Int) ∧ v.size = bits + 1 := by
  obtain ⟨d, hd, e⟩ := (randomInt_range bits h ((2 ^ bits : Nat) : Int)).2
    ⟨by exact_mod_cast (range_bits bits h).2.2, Int.le_refl _⟩
  exact ⟨d, hd, 2 ^ bits, e, Nat.size_pow⟩

theorem primeLoop_some (d : Draws) (isprime : Int → Bool) (a b p : Int) (hd : Contract d) : ∀ fuel k, primeLoop d isprime a b fuel k = some p →
    isprime p = true ∧ a ≤ p ∧ p ≤ b := by
  intro fuel
  induction fuel with
  | zero => intro k h; cases h
  | succ fuel ih =>
    intro k h
    rw [primeLoop] at h
    obtain ⟨q, hq, h⟩ := Option.bind_eq_some_iff.1 h
    by_cases hp : isprime q = true
    · rw [if_pos hp] at h
      cases h
      unfold draw at hq
      split at hq
      · rename_i hab
        cases hq
        exact ⟨hp, hd k a b hab⟩
      · cases hq
    · rw [if_neg hp] at h
      exact ih _ h

theorem size_of_range (bits p : Nat) (h : 1 ≤ bits) (hl : 2 ^ (bits - 1) ≤ p) (hu : p < 2 ^ bits) : p.size = bits := by
  have h1 := Nat.size_le.2 hu
  have h2 := Nat.lt_size.2 hl
  omega

/-- **C52** a random prime of a bit size is prime, within the documented range, and for sizes from 2 bits on has exactly that many bits -/
theorem randomPrime_correct (d : Draws) (isprime : Int → Bool) (fuel bits : Nat) (h : 1 ≤ bits) (hd : Contract d) (hi : Decides isprime)
    (p : Int) (e : randomPrime d isprime fuel bits = some p) :
    ∃ q : Nat, p = q ∧ q.Prime ∧ 2 ^ (bits - 1) ≤ q ∧ q ≤ 2 ^ bits ∧ (2 ≤ bits → q.size = bits) := by
  obtain ⟨ha, hb, hle⟩ := range_bits bits h
  unfold randomPrime at e
  rw [ha, hb] at e
  obtain ⟨hp, h1, h2⟩ := primeLoop_some d isprime _ _ p hd fuel 0 e
  obtain ⟨h0, hprime⟩ := (hi p).1 hp
  obtain ⟨q, rfl⟩ := Int.eq_ofNat_of_zero_le h0
  rw [Int.toNat_natCast] at hprime
  have h1' : 2 ^ (bits - 1) ≤ q := by exact_mod_cast h1
  have h2' : q ≤ 2 ^ bits := by exact_mod_cast h2
  refine ⟨q, rfl, hprime, h1', h2', fun h2b => ?_⟩
  refine size_of_range bits q h h1' (lt_of_le_of_ne h2' ?_)
  rintro rfl
  exact Nat.Prime.not_prime_pow h2b hprime

/-- **C52** the loop ends exactly when a prime is drawn, and gives the first one drawn; every prime of the range can come out -/
theorem randomPrime_ends (d : Draws) (isprime : Int → Bool) (bits : Nat) (h : 1 ≤ bits) (p : Int) :
    (∃ fuel, randomPrime d isprime fuel bits = some p) ↔
      ∃ k, d k ((2 ^ (bits - 1) : Nat) : Int) ((2 ^ bits : Nat) : Int) = p ∧ isprime p = true ∧
        ∀ j < k, isprime (d j ((2 ^ (bits - 1) : Nat) : Int) ((2 ^ bits : Nat) : Int)) = false := by
  obtain ⟨ha, hb, hle⟩ := range_bits bits h
  have hle' : ((2 ^ (bits - 1) : Nat) : Int) ≤ ((2 ^ bits : Nat) : Int) := by exact_mod_cast hle
  unfold randomPrime
  rw [ha, hb]
  generalize ((2 ^ (bits - 1) : Nat) : Int) = a at hle'
  generalize ((2 ^ bits : Nat) : Int) = b at hle'
  have key : ∀ fuel s, primeLoop d isprime a b fuel s = some p →
      ∃ k, s ≤ k ∧ d k a b = p ∧ isprime p = true ∧ ∀ j, s ≤ j → j < k → isprime (d j a b) = false := by
    intro fuel
    induction fuel with
    | zero => intro s e; cases e
    | succ fuel ih =>
      intro s e
      rw [primeLoop, draw, if_pos hle', Option.bind_some] at e
      by_cases hp : isprime (d s a b) = true
      · rw [if_pos hp] at e
        cases e
        exact ⟨s, Nat.le_refl _, rfl, hp, fun j h1 h2 => by omega⟩
      · rw [if_neg hp] at e
        obtain ⟨k, hk, h1, h2, h3⟩ := ih _ e
        refine ⟨k, by omega, h1, h2, fun j hj1 hj2 => ?_⟩
        by_cases hjs : j = s
        · subst hjs; simpa using hp
        · exact h3 j (by omega) hj2
  have back : ∀ n s k, k = s + n → d k a b = p → isprime p = true → (∀ j, s ≤ j → j < k → isprime (d j a b) = false) →
      primeLoop d isprime a b (n + 1) s = some p := by
    intro n
    induction n with
    | zero =>
      intro s k hk h1 h2 _
      have : k = s := by omega
      subst this
      rw [primeLoop, draw, if_pos hle', Option.bind_some, h1, if_pos h2]
    | succ n ih =>
      intro s k hk h1 h2 h3
      rw [primeLoop, draw, if_pos hle', Option.bind_some, h3 s (by omega) (by omega), if_neg (by simp)]
      exact ih (s + 1) k (by omega) h1 h2 fun j hj1 hj2 => h3 j (by omega) hj2
  constructor
  · rintro ⟨fuel, e⟩
    obtain ⟨k, _, h1, h2, h3⟩ := key fuel 0 e
    exact ⟨k, h1, h2, fun j hj => h3 j (by omega) hj⟩
  · rintro ⟨k, h1, h2, h3⟩
    exact ⟨k + 1, back k 0 k (by omega) h1 h2 fun j _ hj => h3 j hj⟩

theorem randomPrime_onto (isprime : Int → Bool) (hi : Decides isprime) (bits q : Nat) (h : 1 ≤ bits) (hq : q.Prime) (hl : 2 ^ (bits - 1) ≤ q)
    (hu : q ≤ 2 ^ bits) : ∃ d, Contract d ∧ ∃ fuel, randomPrime d isprime fuel bits = some (q : Int) := by
  refine ⟨always q, always_contract q, (randomPrime_ends _ _ bits h q).2 ⟨0, ?_, (hi q).2 ⟨by omega, by simpa using hq⟩, by simp⟩⟩
  rw [always, if_pos]
  exact ⟨by exact_mod_cast hl, by exact_mod_cast hu⟩

/-- C52 is false for one bit: the only prime of the range is 2, of two bits -/
theorem randomPrime_one_false (d : Draws) (isprime : Int → Bool) (fuel : Nat) (hd : Contract d) (hi : Decides isprime) (p : Int)
    (e : randomPrime d isprime fuel 1 = some p) : p = 2 ∧ (2 : Nat).size ≠ 1 := by
  obtain ⟨q, rfl, hq, _, hu, _⟩ := randomPrime_correct d isprime fuel 1 (Nat.le_refl _) hd hi p e
  have : q ≤ 2 := by simpa using hu
  have := hq.two_le
  have hq2 : q = 2 := by omega
  subst hq2
  refine ⟨rfl, ?_⟩
  have : (2 : Nat).size = 2 := size_of_range 2 2 (by omega) (by decide) (by decide)
  omega

/-- **C52** a random number of a range is at least the lower and below the upper bound, and every such number can come out; for an empty range
it is the lower bound, and for bounds the wrong way round there is an error -/
theorem randomRange_correct (lower upper v : Int) :
    (∃ d, Contract d ∧ randomRange d lower upper = some v) ↔ (lower ≤ v ∧ v < upper) ∨ (lower = upper ∧ v = lower) := by
  unfold randomRange draw
  constructor
  · rintro ⟨d, hd, e⟩
    split at e
    · rename_i h; cases e; exact Or.inr ⟨h, rfl⟩
    · split at e
      · rename_i h1 h2
        cases e
        have := hd 0 lower (upper - 1) h2
        left; omega
      · cases e
  · rintro (⟨h1, h2⟩ | ⟨h1, h2⟩)
    · refine ⟨always v, always_contract v, ?_⟩
      rw [if_neg (by omega), if_pos (by omega), always, if_pos (by omega)]
    · exact ⟨always v, always_contract v, by rw [if_pos h1, h2]⟩

/-- **C52** a random element of a prime field is any of 0, ..., p - 1 -/
theorem randomFieldElement_correct (p v : Int) (hp : 0 < p) :
    (∃ d, Contract d ∧ randomFieldElement d p = some v) ↔ 0 ≤ v ∧ v < p := by
  unfold randomFieldElement draw
  have h0 : 0 ≤ p - 1 := by omega
  simp only [if_pos h0]
  constructor
  · rintro ⟨d, hd, e⟩
    cases e
    have := hd 0 0 (p - 1) (by omega)
    omega
  · intro h
    exact ⟨always v, always_contract v, by rw [always, if_pos (by omega)]⟩

/-- a case of all the hypotheses: the 5 bit prime 23, drawn after the composite 21 -/
def someDraws : Draws := fun k a b => if a ≤ 21 ∧ 21 ≤ b ∧ k = 0 then 21 else if a ≤ 23 ∧ 23 ≤ b then 23 else a

theorem someDraws_met : Contract someDraws ∧ Decides (fun p => decide (0 ≤ p ∧ p.toNat.Prime)) ∧
    randomPrime someDraws (fun p => decide (0 ≤ p ∧ p.toNat.Prime)) 3 5 = some 23 ∧ randomInt someDraws 5 = some 21 := by
  refine ⟨?_, ?_, by decide +kernel, by decide +kernel⟩
  · intro k a b hab
    unfold someDraws
    split
    · omega
    · split <;> omega
  · intro p; simp

end Ecgen.Random
