import Verif.P1363.Model
import Mathlib.Tactic.Ring
import Mathlib.Tactic.Linarith
import Mathlib.Tactic.IntervalCases
import Mathlib.Tactic.Push
import Mathlib.Data.List.Nodup
import Mathlib.Algebra.Ring.Int.Parity

/-!
# The reduced forms of a discriminant (C39) and the class invariant indices (C61)
-/

namespace Ecgen.P1363

/-- a primitive reduced form of determinant `D` -/
structure Reduced (D : Nat) (f : Form) : Prop where
  det : f.A * f.C - f.B ^ 2 = D
  small : |2 * f.B| ≤ f.A
  order : f.A ≤ f.C
  primitive : ∀ k : Nat, (k : Int) ∣ f.A → (k : Int) ∣ 2 * f.B → (k : Int) ∣ f.C → k = 1
  boundary : |2 * f.B| = f.A ∨ f.A = f.C → 0 ≤ f.B

theorem mem_divisors (d k : Nat) (hd : 0 < d) : k ∈ divisors d ↔ k ∣ d := by
  unfold divisors
  rw [List.mem_filter, List.mem_range, Bool.and_eq_true, decide_eq_true_eq, decide_eq_true_eq]
  constructor
  · rintro ⟨_, _, h⟩; exact Nat.dvd_of_mod_eq_zero h
  · intro h
    exact ⟨Nat.lt_succ_of_le (Nat.le_of_dvd hd h), Nat.pos_of_dvd_of_pos h hd, Nat.mod_eq_zero_of_dvd h⟩

theorem divisors_nodup (d : Nat) : (divisors d).Nodup := List.Nodup.filter _ List.nodup_range

theorem gcd_iff (A B C : Nat) : Nat.gcd (Nat.gcd A (2 * B)) C = 1 ↔
    ∀ k : Nat, (k : Int) ∣ (A : Int) → (k : Int) ∣ 2 * (B : Int) → (k : Int) ∣ (C : Int) → k = 1 := by
  constructor
  · intro h k h1 h2 h3
    have h2 : (k : Int) ∣ ((2 * B : Nat) : Int) := by push_cast; exact h2
    rw [Int.natCast_dvd_natCast] at h1 h2 h3
    have := Nat.dvd_gcd (Nat.dvd_gcd h1 h2) h3
    rw [h] at this
    exact Nat.dvd_one.1 this
  · intro h
    apply h
    · exact Int.natCast_dvd_natCast.2 ((Nat.gcd_dvd_left _ _).trans (Nat.gcd_dvd_left _ _))
    · have := Int.natCast_dvd_natCast.2 ((Nat.gcd_dvd_left (Nat.gcd A (2 * B)) C).trans (Nat.gcd_dvd_right A (2 * B)))
      push_cast at this
      exact_mod_cast this
    · exact Int.natCast_dvd_natCast.2 (Nat.gcd_dvd_right _ _)

/-- the forms written for one `B`, exactly -/
theorem mem_atB (D B : Nat) (hD : 0 < D) (f : Form) :
    f ∈ atB D B ↔ ∃ A C : Nat, A * C = D + B * B ∧ 2 * B ≤ A ∧ A ≤ C ∧ Nat.gcd (Nat.gcd A (2 * B)) C = 1 ∧
      (f = ⟨A, B, C⟩ ∨ (0 < 2 * B ∧ 2 * B < A ∧ A < C ∧ f = ⟨A, -(B : Int), C⟩)) := by
  have hd : 0 < D + B * B := by omega
  unfold atB
  rw [List.mem_flatMap]
  constructor
  · rintro ⟨A, hA, h⟩
    rw [mem_divisors _ _ hd] at hA
    have hpos := Nat.pos_of_dvd_of_pos hA hd
    have hmul : A * ((D + B * B) / A) = D + B * B := Nat.mul_div_cancel' hA
    unfold atDivisor at h
    split at h
    · rename_i h1
      dsimp only at h
      split at h
      · rename_i h2
        refine ⟨A, (D + B * B) / A, hmul, h1.1, ?_, h2, ?_⟩
        · rw [Nat.le_div_iff_mul_le hpos]; exact h1.2
        · rw [List.mem_cons] at h
          rcases h with h | h
          · exact Or.inl h
          · split at h
            · rename_i h3
              rw [List.mem_singleton] at h
              exact Or.inr ⟨h3.1, h3.2.1, h3.2.2, h⟩
            · cases h
      · cases h
    · cases h
  · rintro ⟨A, C, hm, h1, h2, h3, h4⟩
    have hA : A ∣ D + B * B := ⟨C, hm.symm⟩
    have hpos := Nat.pos_of_dvd_of_pos hA hd
    have hC : (D + B * B) / A = C := by rw [← hm, Nat.mul_div_cancel_left _ hpos]
    refine ⟨A, (mem_divisors _ _ hd).2 hA, ?_⟩
    unfold atDivisor
    have : 2 * B ≤ A ∧ A * A ≤ D + B * B := ⟨h1, by rw [← hm]; exact Nat.mul_le_mul_left _ h2⟩
    rw [if_pos this]
    dsimp only
    rw [hC, if_pos h3, List.mem_cons]
    rcases h4 with h4 | ⟨g1, g2, g3, h4⟩
    · exact Or.inl h4
    · right
      rw [if_pos ⟨g1, g2, g3⟩, List.mem_singleton]
      exact h4

theorem bound_iff (D B : Nat) : B ≤ bound D ↔ 3 * (B * B) ≤ D := by
  unfold bound
  rw [Nat.le_sqrt, Nat.le_div_iff_mul_le (by norm_num), Nat.mul_comm]

/-- C39: the enumeration is complete and sound: it writes exactly the primitive reduced forms. -/
theorem mem_written (D : Nat) (hD : 0 < D) (f : Form) : f ∈ written D ↔ Reduced D f := by
  unfold written
  rw [List.mem_flatMap]
  constructor
  · rintro ⟨B, -, hf⟩
    rw [mem_atB D B hD] at hf
    obtain ⟨A, C, hm, h1, h2, h3, h4⟩ := hf
    have hm' : (A : Int) * C = D + B * B := by exact_mod_cast hm
    rw [gcd_iff] at h3
    rcases h4 with rfl | ⟨g1, g2, g3, rfl⟩
    · refine ⟨?_, ?_, ?_, h3, ?_⟩
      · simp only; rw [hm']; ring
      · simp only; rw [abs_of_nonneg (by omega)]; omega
      · simp only; omega
      · intro _; simp only; omega
    · refine ⟨?_, ?_, ?_, ?_, ?_⟩
      · simp only; rw [hm']; ring
      · simp only; rw [abs_le]; omega
      · simp only; omega
      · intro k a b c
        apply h3 k a _ c
        simp only [mul_neg, Int.dvd_neg] at b
        exact b
      · simp only
        intro h
        exfalso
        rcases h with h | h
        · rw [show 2 * -(B : Int) = -(2 * B) by ring, abs_neg, abs_of_nonneg (by omega)] at h
          omega
        · omega
  · intro h
    obtain ⟨A, B, C⟩ := f
    have h1 := h.det
    have h2 := h.small
    have h3 := h.order
    have h4 := h.primitive
    have h5 := h.boundary
    simp only at h1 h2 h3 h4 h5
    have hA : 0 ≤ A := (abs_nonneg _).trans h2
    obtain ⟨a, rfl⟩ := Int.eq_ofNat_of_zero_le hA
    obtain ⟨c, rfl⟩ := Int.eq_ofNat_of_zero_le (hA.trans h3)
    obtain ⟨b, hb⟩ : ∃ b : Nat, b = B.natAbs := ⟨_, rfl⟩
    have hbb : (b : Int) * b = B ^ 2 := by rw [hb, Int.natAbs_mul_self', pow_two]
    have hB : B = b ∨ B = -(b : Int) := by rw [hb]; omega
    have hsm : 2 * b ≤ a := by
      rcases hB with rfl | rfl
      · rw [abs_of_nonneg (by omega)] at h2; omega
      · rw [abs_le] at h2; omega
    have hdet : a * c = D + b * b := by
      have : (a : Int) * c = D + b * b := by rw [hbb]; linarith
      exact_mod_cast this
    have hac : a ≤ c := by omega
    refine ⟨b, ?_, ?_⟩
    · rw [List.mem_range, Nat.lt_succ_iff, bound_iff]
      have : (2 * b) * (2 * b) ≤ a * c := Nat.mul_le_mul hsm (hsm.trans hac)
      have e : (2 * b) * (2 * b) = 4 * (b * b) := by ring
      omega
    · rw [mem_atB D b hD]
      refine ⟨a, c, hdet, hsm, hac, ?_, ?_⟩
      · rw [gcd_iff]
        intro k x y z
        apply h4 k x _ z
        rcases hB with rfl | rfl
        · exact y
        · rw [mul_neg, Int.dvd_neg]; exact y
      · rcases hB with rfl | rfl
        · exact Or.inl rfl
        · by_cases hz : b = 0
          · subst hz; left; simp
          · right
            refine ⟨by omega, ?_, ?_, rfl⟩
            · by_contra hne
              have : |2 * -(b : Int)| = a := by
                rw [show 2 * -(b : Int) = -(2 * b) by ring, abs_neg, abs_of_nonneg (by omega)]; omega
              have := h5 (Or.inl this)
              omega
            · by_contra hne
              have := h5 (Or.inr (by omega))
              omega

theorem atDivisor_A (B d A : Nat) (f : Form) (h : f ∈ atDivisor B d A) :
    f.A = A ∧ (f.B = B ∨ f.B = -(B : Int)) := by
  unfold atDivisor at h
  split at h
  · dsimp only at h
    split at h
    · rw [List.mem_cons] at h
      rcases h with rfl | h
      · exact ⟨rfl, Or.inl rfl⟩
      · split at h
        · rw [List.mem_singleton] at h; subst h; exact ⟨rfl, Or.inr rfl⟩
        · cases h
    · cases h
  · cases h

theorem atDivisor_nodup (B d A : Nat) : (atDivisor B d A).Nodup := by
  unfold atDivisor
  split
  · dsimp only
    split
    · split
      · rename_i h
        rw [List.nodup_cons, List.mem_singleton]
        refine ⟨?_, List.nodup_singleton _⟩
        intro e
        have := congrArg Form.B e
        simp only at this
        omega
      · exact List.nodup_singleton _
    · exact List.nodup_nil
  · exact List.nodup_nil

/-- C39: no form is written twice. -/
theorem written_nodup (D : Nat) : (written D).Nodup := by
  unfold written
  rw [List.nodup_flatMap]
  constructor
  · intro B _
    unfold atB
    rw [List.nodup_flatMap]
    refine ⟨fun A _ => atDivisor_nodup _ _ _, ?_⟩
    refine List.Pairwise.imp ?_ (divisors_nodup _)
    intro A A' hne f h h'
    apply hne
    have := (atDivisor_A _ _ _ f h).1
    rw [(atDivisor_A _ _ _ f h').1] at this
    omega
  · refine List.Pairwise.imp ?_ List.nodup_range
    intro B B' hne f h h'
    apply hne
    unfold atB at h h'
    rw [List.mem_flatMap] at h h'
    obtain ⟨A, _, h⟩ := h
    obtain ⟨A', _, h'⟩ := h'
    have := (atDivisor_A _ _ _ f h).2
    have := (atDivisor_A _ _ _ f h').2
    omega

/-- C39: whenever the enumeration stays in its buffer it returns exactly the primitive reduced forms, each once. -/
theorem group_partial (D : Nat) (hD : 0 < D) (l : List Form) (h : group D = some l) :
    l.Nodup ∧ ∀ f, f ∈ l ↔ Reduced D f := by
  unfold group at h
  split at h
  · cases h
    exact ⟨written_nodup D, mem_written D hD⟩
  · cases h

/-- C39, the buffer: the principal form exists for every `D`, so with `D < 3` (an empty buffer) the first write is
already out of bounds. -/
theorem group_small_false (D : Nat) (hD : 0 < D) (h : D < 3) : group D = none := by
  have : D = 1 ∨ D = 2 := by omega
  rcases this with rfl | rfl <;> decide +kernel

/-- C39, the buffer: also for larger `D`, here 4 slots for 6 forms. -/
theorem group_26_false : group 26 = none ∧ (written 26).length = 6 ∧ 2 * bound 26 = 4 := by decide +kernel

/-- the discriminant of the test suite is one for which the buffer suffices -/
example : group 71 = some [⟨1, 0, 71⟩, ⟨3, 1, 24⟩, ⟨3, -1, 24⟩, ⟨8, 1, 9⟩, ⟨8, -1, 9⟩, ⟨5, 2, 15⟩, ⟨5, -2, 15⟩] := by
  decide +kernel

/-! ## Index functions -/

/-- the index table of IEEE P1363 A.13.2 for a form with determinant `D` -/
structure Indices where
  I : Nat
  J : Nat
  K : Nat
  L : Int

/-- the standard's table, clause by clause; it leaves `D = 0, 4 (mod 8)` out -/
def Standard (D : Nat) (f : Form) (x : Indices) : Prop :=
  ((D % 8 ∈ [1, 2, 6, 7] → x.I = 3) ∧ (D % 8 = 3 ∧ ¬ 3 ∣ D → x.I = 0) ∧ (D % 8 = 3 ∧ 3 ∣ D → x.I = 2) ∧
    (D % 8 = 5 → x.I = 6)) ∧
  ((Odd (f.A * f.C) → x.J = 0) ∧ (Even f.C → x.J = 1) ∧ (Even f.A → x.J = 2)) ∧
  ((D % 8 ∈ [1, 2, 6] → x.K = 2) ∧ (D % 8 ∈ [3, 7] → x.K = 1) ∧ (D % 8 = 5 → x.K = 4)) ∧
  ((Odd (f.A * f.C) ∨ (D % 8 = 5 ∧ Even f.C) → x.L = f.A - f.C + f.A ^ 2 * f.C) ∧
    (D % 8 ∈ [1, 2, 3, 6, 7] ∧ Even f.C → x.L = f.A + 2 * f.C - f.A * f.C ^ 2) ∧
    (D % 8 = 3 ∧ Even f.A → x.L = f.A - f.C + 5 * (f.A * f.C ^ 2)) ∧
    (D % 8 ∈ [1, 2, 5, 6, 7] ∧ Even f.A → x.L = f.A - f.C - f.A * f.C ^ 2))

theorem not_both_even (D : Nat) (f : Form) (h : Reduced D f) : ¬ (Even f.A ∧ Even f.C) := by
  rintro ⟨h1, h2⟩
  have := h.primitive 2 (even_iff_two_dvd.1 h1) (Dvd.intro _ rfl) (even_iff_two_dvd.1 h2)
  omega

/-- C61: for every reduced form and every `D` other than `0, 4, 5 (mod 8)` the indices follow the standard's table and
no error is raised. -/
theorem indices_partial (D : Nat) (f : Form) (h : Reduced D f) (h8 : D % 8 ∈ [1, 2, 3, 6, 7]) :
    ∃ x : Indices, I D = some x.I ∧ J f = some x.J ∧ K D = some x.K ∧ L D f = some x.L ∧ Standard D f x := by
  have hne := not_both_even D f h
  obtain ⟨A, B, C⟩ := f
  simp only [Int.even_iff] at hne
  have hodd : A * C % 2 = 1 ↔ A % 2 = 1 ∧ C % 2 = 1 := by
    rw [← Int.odd_iff, Int.odd_mul, Int.odd_iff, Int.odd_iff]
  simp only [I, J, K, L, Standard, Int.even_iff, Int.odd_iff, hodd, Nat.dvd_iff_mod_eq_zero]
  simp only [List.mem_cons, List.not_mem_nil, or_false] at h8
  rcases h8 with e | e | e | e | e <;> simp only [e] <;> by_cases h3 : D % 3 = 0 <;>
    rcases Int.emod_two_eq A with hA | hA <;> rcases Int.emod_two_eq C with hC | hC <;>
    simp [hA, hC, h3] at hne ⊢ <;> exact ⟨⟨_, _, _, _⟩, rfl, rfl, rfl, rfl, by simp⟩

/-- C61 is false for `D = 5 (mod 8)`: the code raises the Weber function to the power 5, the standard to the power 4.
`D = 5` with its principal form is such a case. -/
theorem indices_five_false (D : Nat) (f : Form) (h8 : D % 8 = 5) (x : Indices) (hK : K D = some x.K) :
    ¬ Standard D f x := by
  intro h
  have := h.2.2.1.2.2 h8
  unfold K at hK
  rw [h8] at hK
  simp only [Option.some.injEq] at hK
  omega

/-- for `D = 0, 4 (mod 8)` an error is raised -/
theorem indices_error (D : Nat) (h8 : D % 4 = 0) : I D = none ∧ K D = none := by
  have : D % 8 = 0 ∨ D % 8 = 4 := by omega
  unfold I K
  rcases this with e | e <;> rw [e] <;> exact ⟨rfl, rfl⟩

example : Reduced 5 ⟨1, 0, 5⟩ ∧ Reduced 71 ⟨8, -1, 9⟩ :=
  ⟨(mem_written 5 (by norm_num) _).1 (by decide +kernel), (mem_written 71 (by norm_num) _).1 (by decide +kernel)⟩

end Ecgen.P1363
