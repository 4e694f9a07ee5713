import Verif.Seeded.Model
import Verif.Order.Props
import Mathlib.Data.Nat.Prime.Infinite
import Mathlib.Data.ZMod.Coprime
import Mathlib.Data.Int.GCD

/-!
# Functions as PARI promises them
-/

namespace Ecgen.Seeded

open Whole Output

/-- the next prime -/
theorem next_exists : ∃ np, NextPrimeSpec np := by
  classical
  have h : ∀ x : Int, ∃ n : Nat, x ≤ n ∧ n.Prime := by
    intro x
    obtain ⟨n, h1, h2⟩ := Nat.exists_infinite_primes x.toNat
    exact ⟨n, by omega, h2⟩
  refine ⟨fun x => (Nat.find (h x) : Int), fun x => ⟨(Nat.find_spec (h x)).1, fun q hq hx => ?_⟩, fun x => ?_⟩
  · have := Nat.find_min' (h x) ⟨hx, hq⟩
    simp only
    exact_mod_cast this
  · have := (Nat.find_spec (h x)).2
    exact ⟨by simp only; exact_mod_cast this.pos, by simpa using this⟩

theorem prime_inv (p : Nat) (hp : p.Prime) (x : Int) : (∃ y : Int, x * y ≡ 1 [ZMOD p]) ↔ ¬ (p : Int) ∣ x := by
  constructor
  · rintro ⟨y, hy⟩ hd
    have h1 : (p : Int) ∣ x * y := Dvd.dvd.mul_right hd y
    have h2 : (p : Int) ∣ 1 := (Int.ModEq.dvd_iff hy).1 h1
    have := Int.eq_one_of_dvd_one (by omega) h2
    exact hp.one_lt.ne' (by exact_mod_cast this)
  · intro h
    have hc : Int.gcd x p = 1 := by
      rw [Int.gcd_comm]
      have : IsCoprime (p : Int) x := (Nat.prime_iff_prime_int.1 hp).coprime_iff_not_dvd.2 h
      exact Int.isCoprime_iff_gcd_eq_one.1 this
    refine ⟨Int.gcdA x p, ?_⟩
    have e := Int.gcd_eq_gcd_ab x p
    rw [hc] at e
    rw [Int.modEq_iff_dvd]
    exact ⟨Int.gcdB x p, by push_cast at e ⊢; linarith⟩

/-- the arithmetic modulo a prime -/
theorem fp_exists (p : Nat) (hp : p.Prime) : ∃ P, FpSpec p P := by
  classical
  have hroot : ∀ x : Int, (∃ y : Int, y ^ 2 ≡ x [ZMOD p]) → ∃ y : Int, y ^ 2 ≡ x [ZMOD p] ∧ 0 ≤ y ∧ y < p := by
    rintro x ⟨y, hy⟩
    have hp0 : (0 : Int) < p := by exact_mod_cast hp.pos
    exact ⟨y % p, ((Int.mod_modEq y p).pow 2).trans hy, Int.emod_nonneg _ (by omega), Int.emod_lt_of_pos _ hp0⟩
  refine ⟨{ invsafe := fun x => if h : ∃ y : Int, x * y ≡ 1 [ZMOD p] then some (Classical.choose h) else none
            issquare := fun x => decide (∃ y : Int, y ^ 2 ≡ x [ZMOD p])
            sqrt := fun x => if h : ∃ y : Int, y ^ 2 ≡ x [ZMOD p] then Classical.choose (hroot x h) else 0
            root4 := fun x => if h : ∃ y : Int, y ^ 4 ≡ x [ZMOD p] then some (Classical.choose h) else none }, ?_, ?_, ?_, ?_, ?_, ?_⟩
  · intro x y h
    simp only at h
    split at h
    · rename_i h'
      cases h
      exact Classical.choose_spec h'
    · cases h
  · intro x
    simp only [dite_eq_right_iff, reduceCtorEq, imp_false]
    rw [prime_inv p hp x, not_not]
  · intro x
    simp
  · intro x h
    have h' : ∃ y : Int, y ^ 2 ≡ x [ZMOD p] := by simpa using h
    simp only [dif_pos h']
    exact Classical.choose_spec (hroot x h')
  · intro x y h
    simp only at h
    split at h
    · rename_i h'
      cases h
      exact Classical.choose_spec h'
    · cases h
  · intro x
    simp only [dite_eq_right_iff, reduceCtorEq, imp_false]

open Classical in
/-- the second coordinates in order -/
noncomputable def ordinates (E : Crv) (x : Nat) : List (Carrier E.field) :=
  ((List.range (fieldSize E.field.1)).map (elem E.field)).filter fun y => decide (E.eqn.Nonsingular (elem E.field x) y)

theorem ordinates_spec (E : Crv) (x : Nat) : (ordinates E x).Nodup ∧ ∀ y, y ∈ ordinates E x ↔ E.eqn.Nonsingular (elem E.field x) y := by
  constructor
  · refine List.Nodup.filter _ (List.Nodup.map_on ?_ List.nodup_range)
    intro n hn k hk h
    exact elem_injective E.field n k (List.mem_range.1 hn) (List.mem_range.1 hk) h
  · intro y
    unfold ordinates
    rw [List.mem_filter, @decide_eq_true_iff _ (Classical.propDecidable _)]
    refine ⟨fun h => h.2, fun h => ⟨?_, h⟩⟩
    obtain ⟨n, h1, h2⟩ := elem_surjective E.field y
    exact List.mem_map.2 ⟨n, List.mem_range.2 h1, h2⟩

open Classical in
noncomputable def fpOps (p : Nat) : FpOps :=
  if h : p.Prime then Classical.choose (fp_exists p h) else ⟨fun _ => none, fun _ => false, id, fun _ => none⟩

/-- functions as PARI promises them -/
noncomputable def pari : Pari where
  isprime n := decide n.Prime
  fac := Classical.choose Subgroup.spec_inhabited
  card E := Nat.card E.Pt
  ord _ Q := addOrderOf Q
  nextprime := Classical.choose next_exists
  fp := fpOps
  zn := Classical.choose Order.zn_inhabited
  ordinate := ordinates

theorem fpOps_spec (p : Nat) (hp : p.Prime) : FpSpec p (fpOps p) := by
  unfold fpOps
  rw [dif_pos hp]
  exact Classical.choose_spec (fp_exists p hp)

theorem next_spec : NextPrimeSpec pari.nextprime := Classical.choose_spec next_exists

theorem pari_ok : pari.Ok where
  isprime n := by simp [pari]
  fac := Classical.choose_spec Subgroup.spec_inhabited
  card _ _ := rfl
  ord _ _ := rfl
  nextprime := next_spec.1
  fp := fpOps_spec
  zn := Classical.choose_spec Order.zn_inhabited
  ordinate E x _ := ordinates_spec E x

end Ecgen.Seeded
