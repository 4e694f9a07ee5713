import Mathlib.Data.Nat.ModEq
import Mathlib.Tactic.Ring

/-!
# Modular powers for kernel evaluation
-/

namespace Ecgen

/-- `a^k mod m` by squaring, for `k < 2^fuel` -/
def powMod : Nat → Nat → Nat → Nat → Nat
  | 0, _, _, m => 1 % m
  | f + 1, a, k, m =>
    if k % 2 = 1 then a * powMod f (a * a % m) (k / 2) m % m else powMod f (a * a % m) (k / 2) m

theorem powMod_eq (f : Nat) : ∀ a k m : Nat, k < 2 ^ f → powMod f a k m = a ^ k % m := by
  induction f with
  | zero => intro a k m h; rw [Nat.pow_zero] at h; rw [powMod, Nat.lt_one_iff.1 h, Nat.pow_zero]
  | succ f ih =>
    intro a k m h
    have hk : k / 2 < 2 ^ f := by rw [Nat.pow_succ] at h; omega
    have e : (a * a % m) ^ (k / 2) % m = (a ^ (2 * (k / 2))) % m := by
      rw [← Nat.pow_mod, pow_mul, ← pow_two]
    rw [powMod, ih _ _ _ hk, e]
    split
    · rename_i h1
      rw [Nat.mul_mod_mod]
      congr 1
      conv_rhs => rw [show k = 2 * (k / 2) + 1 by omega]
      rw [pow_succ, mul_comm]
    · rename_i h1
      congr 2
      omega

end Ecgen
