import Verif.Cm.Model
import Verif.Count.Lemmas
import Mathlib.Tactic.NormNum.Prime
import Mathlib.Tactic.NormNum.LegendreSymbol
import Mathlib.Tactic.IntervalCases

/-!
# C34, C36, C37, C38, C59: twists, supersingular and anomalous curves
-/

namespace Ecgen.Cm

open Ecgen.Count

/-! ### C34 -/

section
variable {F : Type*} [Field F] [Fintype F] [DecidableEq F]

/-- **C34**: when the recorded order is the number of points of the curve, the order recorded for the twist is the number of
points of the twist, and both add up to `2q + 2`. -/
theorem twist_order (hF : ringChar F ≠ 2) (T : F) (hT : ¬ IsSquare T) (c : Curve F)
    (ho : c.order = some (card c.a c.b : Int)) :
    (twistRand (Fintype.card F) T c).order =
      some (card (twistRand (Fintype.card F) T c).a (twistRand (Fintype.card F) T c).b : Int) ∧
    card c.a c.b + card (twistRand (Fintype.card F) T c).a (twistRand (Fintype.card F) T c).b = 2 * Fintype.card F + 2 := by
  have h := card_twist hF c.a c.b T hT
  simp only [twistRand, ho]
  refine ⟨?_, h⟩
  congr 1
  omega

/-- **C34** over binary fields -/
theorem twist_order_binary [CharP F 2] (T : F) (hT : ∀ z : F, z ^ 2 + z ≠ T) (c : Curve F)
    (ho : c.order = some (card2 c.a c.b : Int)) :
    (twistRand2 (Fintype.card F) T c).order =
      some (card2 (twistRand2 (Fintype.card F) T c).a (twistRand2 (Fintype.card F) T c).b : Int) ∧
    card2 c.a c.b + card2 (twistRand2 (Fintype.card F) T c).a (twistRand2 (Fintype.card F) T c).b =
      2 * Fintype.card F + 2 := by
  have h := card2_twist c.a c.b T hT
  simp only [twistRand2, ho]
  refine ⟨?_, h⟩
  congr 1
  omega

omit [Fintype F] [DecidableEq F] in
/-- a wrong recorded order gives a wrong twist order: the formula is right only for the true order -/
theorem twist_order_wrong (q : Nat) (T : F) (c : Curve F) (n m : Int) (ho : c.order = some n) (hn : n ≠ m) :
    (twistRand q T c).order ≠ some (2 * q + 2 - m) := by
  simp only [twistRand, ho, ne_eq, Option.some.injEq]
  omega

end

/-! ### C36 -/

theorem ringChar_ne_two (p : Nat) [Fact p.Prime] (hp : p ≠ 2) : ringChar (ZMod p) ≠ 2 := by
  rw [ZMod.ringChar_zmod_n]; exact hp

/-- **C36**: the curve constructed for a prime `p ≡ 3 mod 4`, and for an odd prime `p ≡ 2 mod 3` that is `1 mod 4`, has the
number of points that is reported. -/
theorem supersingular_order (nextprime : Nat → Nat) (p fuel : Nat) [Fact p.Prime] (hf : 0 < fuel) (hp : p ≠ 2)
    (h : p % 4 = 3 ∨ p % 3 = 2) :
    ∃ a b : Int, superEquation nextprime p fuel = some (.curve a b) ∧
      card (a : ZMod p) (b : ZMod p) = superOrder p ∧ (p % 4 = 3 → (a : ZMod p) = -1 ∧ b = 0) ∧
      (p % 4 ≠ 3 → a = 0 ∧ b = 1) := by
  have hF := ringChar_ne_two p hp
  have hc : Fintype.card (ZMod p) = p := ZMod.card p
  unfold superEquation superOrder
  rw [if_neg hp]
  by_cases h4 : p % 4 = 3
  · rw [if_pos h4]
    refine ⟨(p : Int) - 1, 0, rfl, ?_, fun _ => ⟨by push_cast; simp, rfl⟩, fun h => absurd h4 h⟩
    have hm : ¬ IsSquare (-1 : ZMod p) := by
      rw [ZMod.exists_sq_eq_neg_one_iff]
      omega
    have := card_odd hF hm (((p : Int) - 1 : Int) : ZMod p)
    rw [hc] at this
    simpa using this
  · rw [if_neg h4]
    have h3 : p % 3 = 2 := h.resolve_left h4
    have hs : superSearch nextprime p fuel 3 = some 3 := by
      obtain ⟨f, rfl⟩ : ∃ f, fuel = f + 1 := ⟨fuel - 1, by omega⟩
      rw [superSearch, if_pos]
      refine ⟨by norm_num, ?_⟩
      rw [jacobiSym.mod_left]
      have : ((p : Int) % ((3 : Nat) : Int)) = 2 := by omega
      rw [this]
      norm_num
    rw [hs]
    refine ⟨0, 1, rfl, ?_, fun h => absurd h h4, fun _ => ⟨rfl, rfl⟩⟩
    have := card_cubes hF (cube_bijective (by rw [hc]; exact h3)) (1 : ZMod p)
    rw [hc] at this
    simpa using this

/-- beyond C36: the loop over `q` stops only at a `q ≡ 3 mod 4` for which `p` has symbol -1; the remaining branch is
reached only for `p ≡ 1 mod 12` (and `p = 3` never) -/
theorem supersingular_root_branch (nextprime : Nat → Nat) (p fuel : Nat) [Fact p.Prime] (q : Nat)
    (h : superEquation nextprime p fuel = some (.root q)) :
    p % 12 = 1 ∧ q % 4 = 3 ∧ jacobiSym (p : Int) q = -1 ∧ q ≠ 3 := by
  have hp := Fact.out (p := p.Prime)
  have key : ∀ (fuel q0 q : Nat), superSearch nextprime p fuel q0 = some q → q % 4 = 3 ∧ jacobiSym (p : Int) q = -1 := by
    intro fuel
    induction fuel with
    | zero => intro q0 q h; simp [superSearch] at h
    | succ f ih =>
      intro q0 q h
      rw [superSearch] at h
      split at h
      · rename_i hh; obtain rfl := Option.some.inj h; exact hh
      · exact ih _ _ h
  unfold superEquation at h
  split at h
  · simp at h
  rename_i h2
  split at h
  · simp at h
  rename_i h4
  cases hs : superSearch nextprime p fuel 3 with
  | none => rw [hs] at h; simp at h
  | some q' =>
    rw [hs] at h
    simp only at h
    split at h
    · simp at h
    · rename_i hq
      simp only [Option.some.injEq, SuperEq.root.injEq] at h
      subst h
      refine ⟨?_, (key _ _ _ hs).1, (key _ _ _ hs).2, hq⟩
      have hodd : p % 2 = 1 := by
        rcases hp.eq_two_or_odd with h | h
        · exact absurd h h2
        · exact h
      have h3 : p % 3 ≠ 2 := by
        intro h3
        have hjs : jacobiSym (p : Int) 3 = -1 := by
          rw [jacobiSym.mod_left]
          have : ((p : Int) % ((3 : Nat) : Int)) = 2 := by omega
          rw [this]
          norm_num
        cases fuel with
        | zero => simp [superSearch] at hs
        | succ f =>
          rw [superSearch, if_pos ⟨by norm_num, hjs⟩] at hs
          exact hq (Option.some.inj hs).symm
      have h30 : p % 3 ≠ 0 := by
        intro h30
        have : p = 3 := ((Nat.prime_dvd_prime_iff_eq Nat.prime_three hp).1 (Nat.dvd_of_mod_eq_zero h30)).symm
        omega
      omega

/-! ### C37 -/

/-- the j-invariant of `y² = x³ + a x + b`, in multiplied form: `j · (4a³ + 27b²) = 1728 · 4a³` with a non-zero
discriminant determines `j` -/
def HasJ {F : Type*} [Field F] (a b j : F) : Prop :=
  4 * a ^ 3 + 27 * b ^ 2 ≠ 0 ∧ j * (4 * a ^ 3 + 27 * b ^ 2) = 1728 * (4 * a ^ 3)

theorem six_ne {F : Type*} [Field F] (h2 : (2 : F) ≠ 0) (h3 : (3 : F) ≠ 0) :
    (108 : F) ≠ 0 ∧ (1728 : F) ≠ 0 ∧ (27 : F) ≠ 0 ∧ (4 : F) ≠ 0 := by
  refine ⟨?_, ?_, ?_, ?_⟩
  · rw [show (108 : F) = 2 ^ 2 * 3 ^ 3 by norm_num]; exact mul_ne_zero (pow_ne_zero _ h2) (pow_ne_zero _ h3)
  · rw [show (1728 : F) = 2 ^ 6 * 3 ^ 3 by norm_num]; exact mul_ne_zero (pow_ne_zero _ h2) (pow_ne_zero _ h3)
  · rw [show (27 : F) = 3 ^ 3 by norm_num]; exact pow_ne_zero _ h3
  · rw [show (4 : F) = 2 ^ 2 by norm_num]; exact pow_ne_zero _ h2

/-- **C37**, anomalous construction: for every twisting factor the curve is non-singular with the given j-invariant -/
theorem anomalous_j {F : Type*} [Field F] (h2 : (2 : F) ≠ 0) (h3 : (3 : F) ≠ 0) (j c : F) (hc : c ≠ 0) (hj : j ≠ 0)
    (hj' : j ≠ 1728) : HasJ (anomalousCoeffs j c).1 (anomalousCoeffs j c).2 j := by
  obtain ⟨n108, n1728, n27, n4⟩ := six_ne h2 h3
  have hd : (1728 : F) - j ≠ 0 := sub_ne_zero.2 (Ne.symm hj')
  have key : 4 * (anomalousCoeffs j c).1 ^ 3 + 27 * (anomalousCoeffs j c).2 ^ 2 =
      108 * 1728 * c ^ 6 * j ^ 2 / (1728 - j) ^ 3 := by
    simp only [anomalousCoeffs]
    field_simp
    ring
  constructor
  · rw [key]
    exact div_ne_zero (mul_ne_zero (mul_ne_zero (mul_ne_zero n108 n1728) (pow_ne_zero _ hc)) (pow_ne_zero _ hj))
      (pow_ne_zero _ hd)
  · rw [key]
    simp only [anomalousCoeffs]
    field_simp
    ring

/-- **C37**, supersingular construction -/
theorem supersingular_j {F : Type*} [Field F] (h2 : (2 : F) ≠ 0) (h3 : (3 : F) ≠ 0) (j : F) (hj : j ≠ 0)
    (hj' : j ≠ 1728) : HasJ (superCoeffs j).1 (superCoeffs j).2 j := by
  obtain ⟨n108, n1728, n27, n4⟩ := six_ne h2 h3
  have hd : (1728 : F) - j ≠ 0 := sub_ne_zero.2 (Ne.symm hj')
  have n16 : (16 : F) ≠ 0 := by rw [show (16 : F) = 4 * 4 by norm_num]; exact mul_ne_zero n4 n4
  have key : 4 * (superCoeffs j).1 ^ 3 + 27 * (superCoeffs j).2 ^ 2 =
      27 * 27 * 27 * 1728 * j ^ 2 / (16 * (1728 - j) ^ 3) := by
    simp only [superCoeffs]
    rw [eq_div_iff (mul_ne_zero n16 (pow_ne_zero _ hd))]
    have e1 : 27 * j / (4 * (1728 - j)) * (4 * (1728 - j)) = 27 * j := div_mul_cancel₀ _ (mul_ne_zero n4 hd)
    generalize 27 * j / (4 * (1728 - j)) = a at e1
    linear_combination ((a * (4 * (1728 - j))) ^ 2 + a * (4 * (1728 - j)) * (27 * j) + (27 * j) ^ 2 +
      27 * (1728 - j) * (a * (4 * (1728 - j)) + 27 * j)) * e1
  constructor
  · rw [key]
    exact div_ne_zero (mul_ne_zero (mul_ne_zero (mul_ne_zero (mul_ne_zero n27 n27) n27) n1728) (pow_ne_zero _ hj))
      (mul_ne_zero n16 (pow_ne_zero _ hd))
  · rw [key]
    simp only [superCoeffs]
    field_simp
    ring

/-- **C37**: the twist of a curve keeps the j-invariant -/
theorem twist_j {F : Type*} [Field F] (q : Nat) (T : F) (hT : T ≠ 0) (c : Curve F) (j : F) (h : HasJ c.a c.b j) :
    HasJ (twistRand q T c).a (twistRand q T c).b j := by
  have e : 4 * (twistRand q T c).a ^ 3 + 27 * (twistRand q T c).b ^ 2 = T ^ 6 * (4 * c.a ^ 3 + 27 * c.b ^ 2) := by
    simp only [twistRand]; ring
  constructor
  · rw [e]; exact mul_ne_zero (pow_ne_zero _ hT) h.1
  · rw [e]
    have e2 : (1728 : F) * (4 * (twistRand q T c).a ^ 3) = T ^ 6 * (1728 * (4 * c.a ^ 3)) := by
      simp only [twistRand]; ring
    rw [e2, ← h.2]
    ring

/-- the j-invariant is determined -/
theorem hasJ_unique {F : Type*} [Field F] {a b j j' : F} (h : HasJ a b j) (h' : HasJ a b j') : j = j' :=
  mul_right_cancel₀ h.1 (h.2.trans h'.2.symm)

/-- the cases excluded from C37 do go wrong: for `j = 0` both constructions give the singular curve `y² = x³` -/
theorem j_zero_singular {F : Type*} [Field F] (c : F) :
    anomalousCoeffs (0 : F) c = (0, 0) ∧ superCoeffs (0 : F) = (0, 0) := by
  simp [anomalousCoeffs, superCoeffs]

example : HasJ (F := ℚ) 3 2 864 := by unfold HasJ; norm_num

/-! ### C38 -/

/-- the rows that can be read -/
theorem table_rows (r : Disc) (h : some r ∈ discTable) : r.d ∈ [11, 19, 43, 163] := by
  have : ∀ o ∈ discTable, ∀ r, o = some r → r.d ∈ ([11, 19, 43, 163] : List Int) := by
    intro o ho r hr
    simp only [discTable, List.replicate, List.set, List.mem_cons, List.not_mem_nil, or_false] at ho
    rcases ho with rfl | rfl | rfl | rfl | rfl <;> simp at hr <;> subst hr <;> decide
  exact this _ h r rfl

/-- **C38**: every prime produced for a row satisfies the norm equation with trace 1, so that `p + 1 - 1 = p` is an admissible
order -/
theorem norm_equation (r : Disc) (h : some r ∈ discTable) (b : Int) :
    4 * anomalousP r.d b = 1 + r.d * (2 * b + 1) ^ 2 := by
  have hr := table_rows r h
  simp only [List.mem_cons, List.not_mem_nil, or_false] at hr
  unfold anomalousP
  have e11 : ((11 : Int) + 1).tdiv 4 = 3 := by decide
  have e19 : ((19 : Int) + 1).tdiv 4 = 5 := by decide
  have e43 : ((43 : Int) + 1).tdiv 4 = 11 := by decide
  have e163 : ((163 : Int) + 1).tdiv 4 = 41 := by decide
  rcases hr with e | e | e | e <;> rw [e]
  · rw [e11]; ring
  · rw [e19]; ring
  · rw [e43]; ring
  · rw [e163]; ring

/-- **C38**: both stages read the row with discriminant 163, which exists -/
theorem row_used : discTable[discIndex]? = some (some ⟨163, (-640320) ^ 3, 3717878010⟩) := by decide

theorem anomalousP_163 (b : Int) : anomalousP 163 b = 163 * (b * (b + 1)) + 41 := by
  unfold anomalousP
  have e163 : ((163 : Int) + 1).tdiv 4 = 41 := by decide
  rw [e163]; ring

theorem neg163_field (b : Int) (p : Nat) (h : (p : Int) = anomalousP 163 b) : 41 ≤ p := by
  have e : anomalousP 163 b = 163 * (b * (b + 1)) + 41 := anomalousP_163 b
  rw [e] at h
  have : 0 ≤ b * (b + 1) := by
    rcases le_or_gt 0 b with hb | hb
    · exact mul_nonneg hb (by omega)
    · exact mul_nonneg_of_nonpos_of_nonpos (by omega) (by omega)
  omega

/-- **C38**: although the field stage tests the symbol of the first row instead of the row in use, the symbol needed by the
equation stage never vanishes, so that no null pointer is used -/
theorem equation_never_null (b : Int) (p : Nat) (hp : p.Prime) (h : (p : Int) = anomalousP 163 b) :
    anomalousNull 3717878010 p = false := by
  have h41 := neg163_field b p h
  unfold anomalousNull
  rw [beq_eq_false_iff_ne]
  intro h0
  rw [jacobiSym.eq_zero_iff] at h0
  have hg : ¬ Int.gcd 3717878010 p = 1 := h0.2
  apply hg
  have hcop : Nat.Coprime p 3717878010 := by
    rw [Nat.Prime.coprime_iff_not_dvd hp]
    intro hd
    have e : (3717878010 : Nat) = 2 * 3 * 5 * 7 * 11 * 19 * 23 * 29 * 127 := by norm_num
    rw [e] at hd
    simp only [hp.dvd_mul] at hd
    have small : ∀ q : Nat, q.Prime → p ∣ q → p = q := fun q hq hd => (Nat.prime_dvd_prime_iff_eq hp hq).1 hd
    have h127 : p = 127 := by
      rcases hd with (((((((hd | hd) | hd) | hd) | hd) | hd) | hd) | hd) | hd
      · have := Nat.le_of_dvd (by norm_num) hd; omega
      · have := Nat.le_of_dvd (by norm_num) hd; omega
      · have := Nat.le_of_dvd (by norm_num) hd; omega
      · have := Nat.le_of_dvd (by norm_num) hd; omega
      · have := Nat.le_of_dvd (by norm_num) hd; omega
      · have := Nat.le_of_dvd (by norm_num) hd; omega
      · have := Nat.le_of_dvd (by norm_num) hd; omega
      · have := Nat.le_of_dvd (by norm_num) hd; omega
      · exact small 127 (by norm_num) hd
    have e2 : anomalousP 163 b = 163 * (b * (b + 1)) + 41 := anomalousP_163 b
    rw [e2, h127] at h
    omega
  have := hcop.symm
  exact_mod_cast this

instance : Fact (Nat.Prime 97) := ⟨by norm_num⟩

/-- the row for 43 holds a wrong j-invariant (`-1024³` instead of `-960³`): over the field with 97 elements, which its prime
formula produces for `b = 1`, no twisting factor gives a curve with 97 points. (The row is not in use.) -/
theorem row43_false :
    discTable[2]? = some (some ⟨43, (-1024) ^ 3, 70⟩) ∧ anomalousP 43 1 = 97 ∧
    ∀ c : ZMod 97, c ≠ 0 → ∀ k : ZMod 97, k * (1728 - (-1024) ^ 3) = (-1024) ^ 3 →
      card (3 * (c ^ 2 * k)) (2 * (c ^ 3 * k)) ≠ 97 := by
  refine ⟨by decide, by decide, ?_⟩
  intro c hc k hk
  have hF : ringChar (ZMod 97) ≠ 2 := ringChar_ne_two 97 (by norm_num)
  have hk56 : k = 56 := by revert k; decide
  subst hk56
  have h80 : card (3 * 56 : ZMod 97) (2 * 56) = 80 := by decide +kernel
  by_cases hs : IsSquare c
  · obtain ⟨d, rfl⟩ := hs
    have hd : d ≠ 0 := fun h => hc (by rw [h]; ring)
    have := card_iso hF (3 * 56 : ZMod 97) (2 * 56) d hd
    rw [h80] at this
    rw [show (3 : ZMod 97) * ((d * d) ^ 2 * 56) = 3 * 56 * d ^ 4 by ring,
      show (2 : ZMod 97) * ((d * d) ^ 3 * 56) = 2 * 56 * d ^ 6 by ring, this]
    decide
  · have := card_twist hF (3 * 56 : ZMod 97) (2 * 56) c hs
    rw [h80, ZMod.card] at this
    rw [show (3 : ZMod 97) * (c ^ 2 * 56) = 3 * 56 * c ^ 2 by ring,
      show (2 : ZMod 97) * (c ^ 3 * 56) = 2 * 56 * c ^ 3 by ring]
    omega

/-! ### C59 -/

/-- **C59**, what holds: the field prime is at most `2^bits` and misses `2^(bits-1)` by less than the discriminant. -/
theorem anomalous_size_partial (bits : Nat) (lo hi b : Int) (hb : Bounds 163 bits lo hi) (h1 : lo ≤ b) (h2 : b ≤ hi)
    (hbits : 7 ≤ bits) :
    2 ^ (bits - 1) - 163 < anomalousP 163 b ∧ anomalousP 163 b ≤ 2 ^ bits := by
  have e : anomalousP 163 b = 163 * (b * (b + 1)) + 41 := anomalousP_163 b
  have e41 : ((163 : Int) + 1).tdiv 4 = 41 := by decide
  have hlo := hb.lo_ge
  have hhi := hb.hi_le
  rw [e41] at hlo hhi
  have p1 : (64 : Int) ≤ 2 ^ (bits - 1) := by
    have : (2 : Int) ^ 6 ≤ 2 ^ (bits - 1) := pow_le_pow_right₀ (by norm_num) (by omega)
    simpa using this
  have p2 : (128 : Int) ≤ 2 ^ bits := by
    have : (2 : Int) ^ 7 ≤ 2 ^ bits := pow_le_pow_right₀ (by norm_num) (by omega)
    simpa using this
  generalize (2 : Int) ^ (bits - 1) = A at *
  generalize (2 : Int) ^ bits = B at *
  rw [Int.tdiv_eq_ediv_of_nonneg (by omega)] at hlo hhi
  have m1 : lo * (lo + 1) ≤ b * (b + 1) := by
    have := hb.lo0
    exact mul_le_mul h1 (by omega) (by omega) (by omega)
  have m2 : b * (b + 1) ≤ hi * (hi + 1) := by
    have := hb.lo0
    exact mul_le_mul h2 (by omega) (by omega) (by omega)
  rw [e]
  generalize b * (b + 1) = X at *
  generalize lo * (lo + 1) = Y at *
  generalize hi * (hi + 1) = Z at *
  omega

/-- **C59** is false: for 11 bits the bounds are 2 and 3, and `b = 2` gives the 10-bit prime 1019 -/
theorem anomalous_size_false : Bounds 163 11 2 3 ∧ Nat.Prime 1019 ∧ anomalousP 163 2 = 1019 ∧ (1019 : Nat) < 2 ^ (11 - 1) := by
  refine ⟨⟨by norm_num, by decide, ?_, by decide, ?_⟩, by norm_num, by decide, by norm_num⟩
  · intro b h0 h1
    have : ((2 : Int) ^ (11 - 1) - (163 + 1 : Int).tdiv 4).tdiv 163 = 6 := by decide
    rw [this]
    interval_cases b <;> norm_num
  · intro b h
    have : ((2 : Int) ^ 11 - (163 + 1 : Int).tdiv 4).tdiv 163 = 12 := by decide
    rw [this]
    nlinarith

end Ecgen.Cm
