import Verif.PowMod
import Mathlib.NumberTheory.LucasPrimality
import Mathlib.Data.Nat.Prime.Basic
import Mathlib.Algebra.BigOperators.Associated

/-!
# Primality certificates for kernel evaluation (Lucas)
-/

namespace Ecgen

/-- `g` generates the multiplicative group mod `p`, where `qs` are primes with `p - 1 ∣ (∏ qs)^k` -/
theorem prime_of_cert (p g f k : Nat) (qs : List Nat) (hp : 1 < p) (hf : p - 1 < 2 ^ f) (h1 : powMod f g (p - 1) p = 1)
    (hq : ∀ q ∈ qs, q.Prime ∧ powMod f g ((p - 1) / q) p ≠ 1) (hk : qs.prod ^ k % (p - 1) = 0) : p.Prime := by
  have key : ∀ n : Nat, n < 2 ^ f → ((g : ZMod p) ^ n = 1 ↔ powMod f g n p = 1) := by
    intro n h
    have e : (g : ZMod p) ^ n = ((g ^ n : Nat) : ZMod p) := by push_cast; rfl
    rw [e, ← Nat.cast_one, ZMod.natCast_eq_natCast_iff, Nat.ModEq, powMod_eq _ _ _ _ h, Nat.mod_eq_of_lt hp]
  refine lucas_primality p (g : ZMod p) ((key _ hf).2 h1) ?_
  intro q hqp hd
  have hmem : q ∈ qs := by
    have h2 : q ∣ qs.prod := hqp.dvd_of_dvd_pow (hd.trans (Nat.dvd_of_mod_eq_zero hk))
    obtain ⟨r, hr, hqr⟩ := (Prime.dvd_prod_iff (Nat.prime_iff.1 hqp)).1 h2
    rw [(Nat.prime_dvd_prime_iff_eq hqp (hq r hr).1).1 hqr]
    exact hr
  rw [Ne, key _ (lt_of_le_of_lt (Nat.div_le_self _ _) hf)]
  exact (hq q hmem).2

end Ecgen
