import Verif.Unsat.Props
import Verif.Koblitz.Weil
import Mathlib.LinearAlgebra.Matrix.Determinant.Basic
import Mathlib.LinearAlgebra.Matrix.Trace

/-!
# Divisors of the orders of Koblitz curves

Lemmas for C74: the number of points over a subfield divides the number of points, and the residues modulo 4.
-/

namespace Ecgen.Unsat
open Ecgen.Koblitz

/-- a matrix with the trace and the determinant of the Frobenius endomorphism -/
def frob (mu : Int) : Matrix (Fin 2) (Fin 2) Int := !![mu, -2; 1, 0]

theorem frob_sq (mu : Int) (B : Matrix (Fin 2) (Fin 2) Int) : (B * frob mu * frob mu).trace = mu * (B * frob mu).trace - 2 * B.trace := by
  simp only [frob, Matrix.trace, Matrix.diag, Matrix.mul_apply, Fin.sum_univ_two, Matrix.of_apply, Matrix.cons_val', Matrix.cons_val_zero,
    Matrix.cons_val_one, Matrix.cons_val_fin_one]
  ring

theorem trace_frob (mu : Int) (n : Nat) : (frob mu ^ n).trace = V mu n ∧ (frob mu ^ (n + 1)).trace = V mu (n + 1) := by
  induction n with
  | zero => exact ⟨by simp [V], by simp [V, frob, Matrix.trace, Fin.sum_univ_two]⟩
  | succ n ih =>
    refine ⟨ih.2, ?_⟩
    rw [pow_succ, pow_succ, frob_sq, ← pow_succ, ih.1, ih.2]
    rfl

theorem det_one_sub (A : Matrix (Fin 2) (Fin 2) Int) : (1 - A).det = 1 - A.trace + A.det := by
  simp [Matrix.det_fin_two, Matrix.trace, Fin.sum_univ_two]
  ring

theorem weil_det (m a : Nat) : weil m a = (1 - frob (if a = 1 then 1 else -1) ^ m).det := by
  rw [det_one_sub, (trace_frob _ m).1, Matrix.det_pow]
  have : (frob (if a = 1 then 1 else -1)).det = 2 := by simp [frob, Matrix.det_fin_two]
  rw [this, weil]
  ring

/-- the order over a subfield divides the order -/
theorem weil_dvd (d m a : Nat) (h : d ∣ m) : weil d a ∣ weil m a := by
  obtain ⟨e, rfl⟩ := h
  rw [weil_det, weil_det, pow_mul]
  have : (1 - (frob (if a = 1 then 1 else -1) ^ d)) ∣ 1 - (frob (if a = 1 then 1 else -1) ^ d) ^ e := one_sub_dvd_one_sub_pow _ _
  obtain ⟨B, hB⟩ := this
  rw [hB, Matrix.det_mul]
  exact dvd_mul_right _ _

theorem V_odd (m : Nat) : V (-1) (m + 1) % 2 = 1 ∧ V (-1) (m + 2) % 4 = 1 := by
  induction m with
  | zero => decide
  | succ m ih =>
    refine ⟨by have := ih.2; show V (-1) (m + 2) % 2 = 1; omega, ?_⟩
    show (-1 * V (-1) (m + 2) - 2 * V (-1) (m + 1)) % 4 = 1
    obtain ⟨h1, h2⟩ := ih
    omega

theorem pow_four (m : Nat) : (2 : Int) ^ (m + 2) % 4 = 0 := by
  rw [pow_add]
  omega

theorem weil_zero_four (m : Nat) (hm : 1 ≤ m) : weil m 0 % 4 = 0 := by
  rcases m with _ | _ | m
  · omega
  · decide
  · have h1 := (V_odd m).2
    have h2 := pow_four m
    show ((2 : Int) ^ (m + 2) + 1 - V (-1) (m + 2)) % 4 = 0
    omega

theorem weil_one_four (m : Nat) (hm : 1 ≤ m) : weil m 1 % 4 = if m % 2 = 0 then 0 else 2 := by
  rcases m with _ | _ | m
  · omega
  · decide
  · have h1 := (V_odd m).2
    have h2 := pow_four m
    have h3 := (V_neg 1 (m + 2)).1
    show ((2 : Int) ^ (m + 2) + 1 - V 1 (m + 2)) % 4 = _
    split
    · rename_i he
      rw [Even.neg_one_pow (Nat.even_iff.mpr he)] at h3
      omega
    · rename_i he
      rw [Odd.neg_one_pow (Nat.odd_iff.mpr (by omega))] at h3
      omega

end Ecgen.Unsat
