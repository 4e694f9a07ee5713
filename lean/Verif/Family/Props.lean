import Verif.Family.Lemmas
import Mathlib.FieldTheory.Finite.Basic
import Mathlib.RingTheory.Polynomial.Cyclotomic.Roots
import Mathlib.Tactic.NormNum.Prime

/-!
# Pairing families (C23, C24, C55)
-/

namespace Ecgen.Family

open LP Polynomial

theorem asInt_cast (x : Int) : asInt (x : ℚ) = some x := by simp [asInt]

theorem asInt_some {x : ℚ} {i : Int} (h : asInt x = some i) : x = (i : ℚ) := by
  unfold asInt at h
  by_cases hd : x.den = 1
  · rw [if_pos hd, Option.some.injEq] at h
    rw [← h]
    exact (Rat.coe_int_num_of_den_eq_one hd).symm
  · rw [if_neg hd] at h; cases h

/-! ## C23 -/

/-- seeds for which the BLS field polynomial is an integer -/
theorem bls_class (f : Fam) (hf : f = .BLS12 ∨ f = .BLS24) (z P : Int) (h : pz f (nz f z) = (P : ℚ)) :
    z % 3 = 1 := by
  have h3 : ((3 * P : ℤ) : ℚ) = ((ev (numP f) z : ℤ) : ℚ) := by
    rw [← pz_num f z]
    rcases hf with rfl | rfl <;> simp only [nz] at h <;> rw [h] <;> simp [denP]
  have h3 : 3 * P = ev (numP f) z := by exact_mod_cast h3
  by_contra hne
  obtain ⟨u, hu⟩ : ∃ u, z = 3 * u ∨ z = 3 * u + 2 := ⟨z / 3, by omega⟩
  rcases hf with rfl | rfl
  · rcases hu with rfl | rfl
    · have e := ev_eqv (comp (numP .BLS12) [0, 3])
        (add [1] (scale 3 (div (trim (add [-1] (comp (numP .BLS12) [0, 3]))) [3]))) (by decide +kernel) u
      rw [ev_comp, ev_add, ev_scale] at e
      simp only [ev_cons, ev_nil, mul_zero, add_zero, zero_add] at e
      rw [mul_comm u 3] at e
      rw [e] at h3
      omega
    · have e := ev_eqv (comp (numP .BLS12) [2, 3])
        (add [1] (scale 3 (div (trim (add [-1] (comp (numP .BLS12) [2, 3]))) [3]))) (by decide +kernel) u
      rw [ev_comp, ev_add, ev_scale] at e
      simp only [ev_cons, ev_nil, mul_zero, add_zero] at e
      rw [show 2 + u * 3 = 3 * u + 2 by ring] at e
      rw [e] at h3
      omega
  · rcases hu with rfl | rfl
    · have e := ev_eqv (comp (numP .BLS24) [0, 3])
        (add [1] (scale 3 (div (trim (add [-1] (comp (numP .BLS24) [0, 3]))) [3]))) (by decide +kernel) u
      rw [ev_comp, ev_add, ev_scale] at e
      simp only [ev_cons, ev_nil, mul_zero, add_zero, zero_add] at e
      rw [mul_comm u 3] at e
      rw [e] at h3
      omega
    · have e := ev_eqv (comp (numP .BLS24) [2, 3])
        (add [1] (scale 3 (div (trim (add [-1] (comp (numP .BLS24) [2, 3]))) [3]))) (by decide +kernel) u
      rw [ev_comp, ev_add, ev_scale] at e
      simp only [ev_cons, ev_nil, mul_zero, add_zero] at e
      rw [show 2 + u * 3 = 3 * u + 2 by ring] at e
      rw [e] at h3
      omega

/-- every seed with an integral field polynomial has a parameter -/
theorem seed_param (f : Fam) (z P : Int) (h : pz f (nz f z) = (P : ℚ)) : ∃ w, z = seedOf f w := by
  cases f with
  | BLS12 =>
    have := bls_class .BLS12 (Or.inl rfl) z P h
    exact ⟨z / 3, by simp only [seedOf]; omega⟩
  | BLS24 =>
    have := bls_class .BLS24 (Or.inr rfl) z P h
    exact ⟨z / 3, by simp only [seedOf]; omega⟩
  | _ => exact ⟨z, rfl⟩

/-- what an accepted seed gives -/
theorem genField_some (isprime : Int → Bool) (hp : IsPrimeSpec isprime) (f : Fam) (z p : Int) :
    genField isprime f z = some p ↔
      pz f (nz f z) = (p : ℚ) ∧ 0 < p ∧ p.natAbs.Prime ∧
        ∃ r : Int, rz f (nz f z) = (r : ℚ) ∧ 0 < r ∧ r.natAbs.Prime := by
  unfold genField
  simp only
  constructor
  · intro h
    cases h1 : asInt (pz f (nz f z)) with
    | none => rw [h1] at h; cases h
    | some P =>
      rw [h1] at h
      simp only at h
      cases hP : isprime P with
      | false => rw [hP] at h; simp at h
      | true =>
        rw [hP] at h
        simp only [Bool.not_true, Bool.false_eq_true, if_false] at h
        cases h2 : asInt (rz f (nz f z)) with
        | none => rw [h2] at h; cases h
        | some R =>
          rw [h2] at h
          simp only at h
          cases hR : isprime R with
          | false => rw [hR] at h; simp at h
          | true =>
            rw [hR] at h
            simp only [Bool.not_true, Bool.false_eq_true, if_false, Option.some.injEq] at h
            subst h
            have hP' := (hp P).1 hP
            have hR' := (hp R).1 hR
            exact ⟨asInt_some h1, hP'.1, hP'.2, R, asInt_some h2, hR'.1, hR'.2⟩
  · rintro ⟨h1, h2, h3, r, h4, h5, h6⟩
    rw [h1, h4, asInt_cast, asInt_cast]
    have hP := (hp p).2 ⟨h2, h3⟩
    have hR := (hp r).2 ⟨h5, h6⟩
    simp [hP, hR]

/-- C23: whenever the tool accepts a seed, `p` and `r` are primes, the trace of the family is an integer
and the family's identities hold: `r | p+1-t`, `r | Φ_k(t-1)`, `r | p^k-1`, `4p-t² = |D|·s²`. -/
theorem family_identities (isprime : Int → Bool) (hp : IsPrimeSpec isprime) (f : Fam) (z p : Int)
    (h : genField isprime f z = some p) :
    ∃ r t : Int, rz f (nz f z) = (r : ℚ) ∧ trace f (nz f z) = (t : ℚ) ∧ p.natAbs.Prime ∧
      r.natAbs.Prime ∧ Identities p r t (degree f) (-dStore f) := by
  obtain ⟨h1, _, h3, r, h4, _, h6⟩ := (genField_some isprime hp f z p).1 h
  obtain ⟨w, rfl⟩ := seed_param f z p h1
  have e1 := pz_eq f w
  have e2 := rz_eq f w
  rw [h1] at e1
  rw [h4] at e2
  have e1 : p = ev (PW f) w := by exact_mod_cast e1
  have e2 : r = ev (RW f) w := by exact_mod_cast e2
  subst e1 e2
  refine ⟨_, ev (TW f) w, h4, trace_eq f w, h3, h6, ⟨sub_w f w, cyc_w f w, ?_, ev (SW f) w, cm_w f w⟩⟩
  have hd : (cyclotomic (degree f) ℤ).eval (ev (TW f) w - 1) ∣ (ev (TW f) w - 1) ^ degree f - 1 := by
    have := cyclotomic.dvd_X_pow_sub_one (degree f) ℤ
    have := eval_dvd (x := ev (TW f) w - 1) this
    simpa using this
  have h8 := dvd_trans (cyc_w f w) hd
  have h9 : ev (RW f) w ∣ ev (PW f) w - (ev (TW f) w - 1) := by
    have := sub_w f w
    rwa [show ev (PW f) w + 1 - ev (TW f) w = ev (PW f) w - (ev (TW f) w - 1) by ring] at this
  have h10 := dvd_trans h9 (sub_dvd_pow_sub_pow (ev (PW f) w) (ev (TW f) w - 1) (degree f))
  have := dvd_add h10 h8
  rwa [sub_add_sub_cancel] at this

/-- C23: the embedding degree is exactly the family's: `p` has multiplicative order `k` modulo `r`. -/
theorem family_embedding (isprime : Int → Bool) (hp : IsPrimeSpec isprime) (f : Fam) (z p : Int)
    (h : genField isprime f z = some p) :
    ∃ r : ℕ, rz f (nz f z) = (r : ℚ) ∧ r.Prime ∧ orderOf ((p : ℤ) : ZMod r) = degree f := by
  obtain ⟨h1, _, h3, r, h4, h5, h6⟩ := (genField_some isprime hp f z p).1 h
  obtain ⟨w, rfl⟩ := seed_param f z p h1
  have e1 := pz_eq f w
  have e2 := rz_eq f w
  rw [h1] at e1
  rw [h4] at e2
  have e1 : p = ev (PW f) w := by exact_mod_cast e1
  have e2 : r = ev (RW f) w := by exact_mod_cast e2
  obtain ⟨n, rfl⟩ : ∃ n : ℕ, r = n := ⟨r.natAbs, by omega⟩
  have hn : n.Prime := by simpa using h6
  refine ⟨n, by rw [h4]; norm_cast, hn, ?_⟩
  have : Fact n.Prime := ⟨hn⟩
  have hdeg := deg_lt f w (by
    rw [← e2]
    have := hn.one_lt
    omega)
  rw [← e2] at hdeg
  have hkpos : 0 < degree f := by cases f <;> decide
  have hNZ : NeZero ((degree f : ℕ) : ZMod n) := by
    refine ⟨fun h0 => ?_⟩
    rw [ZMod.natCast_eq_zero_iff] at h0
    have := Nat.le_of_dvd hkpos h0
    omega
  have hpt : ((p : ℤ) : ZMod n) = ((ev (TW f) w - 1 : ℤ) : ZMod n) := by
    rw [ZMod.intCast_eq_intCast_iff_dvd_sub]
    have hd := sub_w f w
    rw [← e1, ← e2] at hd
    have := (dvd_neg).2 hd
    rwa [show -(p + 1 - ev (TW f) w) = ev (TW f) w - 1 - p by ring] at this
  have hroot : IsRoot (cyclotomic (degree f) (ZMod n)) ((p : ℤ) : ZMod n) := by
    rw [hpt, ← map_cyclotomic_int, IsRoot.def, eval_intCast_map]
    show (((cyclotomic (degree f) ℤ).eval (ev (TW f) w - 1) : ℤ) : ZMod n) = 0
    rw [ZMod.intCast_zmod_eq_zero_iff_dvd]
    have := cyc_w f w
    rwa [← e2] at this
  exact ((isRoot_cyclotomic_iff.1 hroot).eq_orderOf).symm

/-- C23: integrality is never what rejects a seed of the BN and KSS families, and for BLS exactly the
seeds that are 1 modulo 3 are integral. -/
theorem family_integral (f : Fam) (z : Int) :
    (∃ P : Int, pz f (nz f z) = (P : ℚ)) ↔ ((f = .BLS12 ∨ f = .BLS24) → z % 3 = 1) := by
  constructor
  · rintro ⟨P, hP⟩ hf
    exact bls_class f hf z P hP
  · intro h
    have : ∃ w, z = seedOf f w := by
      cases f with
      | BLS12 => exact ⟨z / 3, by have := h (Or.inl rfl); simp only [seedOf]; omega⟩
      | BLS24 => exact ⟨z / 3, by have := h (Or.inr rfl); simp only [seedOf]; omega⟩
      | _ => exact ⟨z, rfl⟩
    obtain ⟨w, rfl⟩ := this
    exact ⟨_, pz_eq f w⟩

/-- C23 for the trace polynomials stored in the code, except BN. -/
theorem stored_trace_partial (f : Fam) (hf : f ≠ .BN) (x : ℚ) : tz f x = trace f x := by
  cases f <;> first | exact absurd rfl hf | rfl

/-- C23 is false for the trace stored for BN (`6z+1` instead of `6z²+1`): for every seed other than 0 and
1, `r` does not divide `p+1-t`. -/
theorem stored_trace_bn_false (z : Int) (h0 : z ≠ 0) (h1 : z ≠ 1) :
    ∃ p r t : Int, pz .BN (nz .BN z) = (p : ℚ) ∧ rz .BN (nz .BN z) = (r : ℚ) ∧
      tz .BN (nz .BN z) = (t : ℚ) ∧ ¬ r ∣ p + 1 - t := by
  refine ⟨36 * z ^ 4 + 36 * z ^ 3 + 24 * z ^ 2 + 6 * z + 1,
    36 * z ^ 4 + 36 * z ^ 3 + 18 * z ^ 2 + 6 * z + 1, 6 * z + 1, ?_, ?_, ?_, ?_⟩
  · simp only [pz, nz]; push_cast; ring
  · simp only [rz, nz]; push_cast; ring
  · simp only [tz, nz]; push_cast; ring
  · intro hd
    have hd2 : 36 * z ^ 4 + 36 * z ^ 3 + 18 * z ^ 2 + 6 * z + 1 ∣ 6 * z * (z - 1) := by
      have := dvd_sub hd (dvd_refl _)
      rwa [show 36 * z ^ 4 + 36 * z ^ 3 + 24 * z ^ 2 + 6 * z + 1 + 1 - (6 * z + 1) -
        (36 * z ^ 4 + 36 * z ^ 3 + 18 * z ^ 2 + 6 * z + 1) = 6 * z * (z - 1) by ring] at this
    have hpos : 0 < 6 * z * (z - 1) := by
      rcases (show 2 ≤ z ∨ z ≤ -1 by omega) with h | h <;> nlinarith
    have hle := Int.le_of_dvd hpos hd2
    have hL : 0 < ev [1, 12, 12, 36, 36] z := by
      rcases (show 0 ≤ z ∨ z ≤ -1 by omega) with h | h
      · exact ev_posL _ (by decide +kernel) z h
      · exact pos_left _ (-1) (by decide +kernel) z h
    simp only [ev_cons, ev_nil] at hL
    nlinarith

-- a seed the tool accepts: BN with z = 1 gives p = 103, r = 97
example (isprime : Int → Bool) (hp : IsPrimeSpec isprime) : genField isprime .BN 1 = some 103 := by
  rw [genField_some isprime hp]
  exact ⟨by norm_num [pz, nz], by norm_num, by norm_num, 97, by norm_num [rz, nz], by norm_num, by norm_num⟩

-- BLS12 with z = -5 (w = -2) is integral
example : pz .BLS12 (nz .BLS12 (-5)) = ((7207 : ℤ) : ℚ) := by norm_num [pz, nz]

/-! ## C55 -/

theorem hasse_unique (p r t N : Int) (hr : 0 < r) (hgap : 16 * p < r ^ 2) (ht : t ^ 2 ≤ 4 * p)
    (hN : (p + 1 - N) ^ 2 ≤ 4 * p) (h1 : r ∣ p + 1 - t) (h2 : r ∣ N) : N = p + 1 - t := by
  have hd : r ∣ N - (p + 1 - t) := dvd_sub h2 h1
  by_contra hne
  have hne' : N - (p + 1 - t) ≠ 0 := fun h => hne (by omega)
  have hle := Int.le_of_dvd (abs_pos.2 hne') ((dvd_abs _ _).2 hd)
  have hsq : r ^ 2 ≤ (N - (p + 1 - t)) ^ 2 := by
    rw [← sq_abs (N - (p + 1 - t))]
    exact pow_le_pow_left₀ hr.le hle 2
  have h4 : (N - (p + 1 - t)) ^ 2 ≤ 16 * p := by
    have : (N - (p + 1 - t)) = t - (p + 1 - N) := by ring
    rw [this]
    nlinarith [sq_nonneg (t + (p + 1 - N))]
  omega

/-- C55: an accepted curve of a pairing family has exactly `p+1-t` points, `t` the trace of the family: the
tool only checks that `r` divides the number of points, but Hasse's bound leaves a single multiple of
`r`. The exceptions are BN with z = -1 and BLS12 with z = -2. -/
theorem family_order (isprime : Int → Bool) (hp : IsPrimeSpec isprime) (f : Fam) (z p card N : Int)
    (h : genField isprime f z = some p) (hN : genOrder f z card = some N)
    (hasse : (p + 1 - card) ^ 2 ≤ 4 * p) (hbn : ¬ (f = .BN ∧ z = -1)) (hbls : ¬ (f = .BLS12 ∧ z = -2)) :
    ∃ t : Int, trace f (nz f z) = (t : ℚ) ∧ N = p + 1 - t := by
  obtain ⟨h1, _, h3, r, h4, h5, h6⟩ := (genField_some isprime hp f z p).1 h
  unfold genOrder at hN
  rw [h4, asInt_cast] at hN
  simp only at hN
  by_cases hdv : r ∣ card
  · rw [if_pos hdv, Option.some.injEq] at hN
    subst hN
    obtain ⟨w, rfl⟩ := seed_param f z p h1
    have e1 := pz_eq f w
    have e2 := rz_eq f w
    rw [h1] at e1
    rw [h4] at e2
    have e1 : p = ev (PW f) w := by exact_mod_cast e1
    have e2 : r = ev (RW f) w := by exact_mod_cast e2
    refine ⟨ev (TW f) w, trace_eq f w, ?_⟩
    have hsub := sub_w f w
    have hcm := cm_w f w
    rw [← e1] at hcm
    rw [← e1, ← e2] at hsub
    have hD : 0 ≤ -dStore f := by cases f <;> decide
    have ht : ev (TW f) w ^ 2 ≤ 4 * p := by
      have := mul_nonneg hD (sq_nonneg (ev (SW f) w))
      linarith
    refine hasse_unique p r _ card h5 ?_ ht hasse hsub hdv
    have hgap : 0 < ev (gapW f) w := by
      rcases (show 1 ≤ w ∨ w ≤ -2 ∨ w = -1 ∨ w = 0 by omega) with hw | hw | hw | hw
      · exact pos_right _ _ (gap_right f) w hw
      · exact pos_left _ _ (gap_left f) w hw
      · subst hw
        apply gap_mid
        · rintro rfl; exact hbn ⟨rfl, rfl⟩
        · rintro rfl; exact hbls ⟨rfl, rfl⟩
      · subst hw
        rcases gap_zero f with hz | hz | hz
        · rw [hz] at e2; subst e2; exact absurd h6 (by norm_num)
        · rw [hz] at e2; subst e2; exact absurd h6 (by norm_num)
        · exact hz
    rw [gapW, ev_add, ev_mul, ev_scale, ← e1, ← e2] at hgap
    linarith
  · rw [if_neg hdv] at hN; cases hN

/-- C55: both exceptions are real as far as the tool's test goes: with z = -1 the BN test also admits 26
points over GF(19) (the family has 13), and with z = -2 the BLS12 test also admits 26 points over GF(37)
(the family has 39). -/
theorem family_order_exceptions (isprime : Int → Bool) (hp : IsPrimeSpec isprime) :
    (genField isprime .BN (-1) = some 19 ∧ genOrder .BN (-1) 26 = some 26 ∧
      ((19 : Int) + 1 - 26) ^ 2 ≤ 4 * 19 ∧ trace .BN (nz .BN (-1 : ℤ)) = ((7 : ℤ) : ℚ)) ∧
    (genField isprime .BLS12 (-2) = some 37 ∧ genOrder .BLS12 (-2) 26 = some 26 ∧
      ((37 : Int) + 1 - 26) ^ 2 ≤ 4 * 37 ∧ trace .BLS12 (nz .BLS12 (-2 : ℤ)) = ((-1 : ℤ) : ℚ)) := by
  refine ⟨⟨?_, ?_, by norm_num, by norm_num [trace, nz]⟩, ⟨?_, ?_, by norm_num, by norm_num [trace, nz]⟩⟩
  · rw [genField_some isprime hp]
    exact ⟨by norm_num [pz, nz], by norm_num, by norm_num, 13, by norm_num [rz, nz], by norm_num,
      by norm_num⟩
  · have : rz .BN (nz .BN ((-1 : ℤ) : ℚ)) = ((13 : ℤ) : ℚ) := by norm_num [rz, nz]
    unfold genOrder
    rw [this, asInt_cast]
    decide
  · rw [genField_some isprime hp]
    exact ⟨by norm_num [pz, nz], by norm_num, by norm_num, 13, by norm_num [rz, nz], by norm_num,
      by norm_num⟩
  · have : rz .BLS12 (nz .BLS12 ((-2 : ℤ) : ℚ)) = ((13 : ℤ) : ℚ) := by norm_num [rz, nz]
    unfold genOrder
    rw [this, asInt_cast]
    decide

end Ecgen.Family
