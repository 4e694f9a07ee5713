import Verif.Brainpool.Props
import Verif.Sha1.Eval
import Mathlib.Tactic.NormNum.Prime
import Mathlib.Tactic.IntervalCases

/-!
# A seed whose number is itself an admissible prime (C18)
-/

namespace Ecgen.Brainpool

open Ecgen.Bits Ecgen.SeedSpec

/-- the seed `176` gives the number 131 for a field of 8 bits -/
theorem fieldInt_witness : Spec.fieldInt 8 176 = 131 := by
  unfold Spec.fieldInt Spec.findInteger H
  rw [Sha1.Eval.sha1_eq _ (by decide +kernel)]
  decide +kernel

/-- C18 fails for "at or after": the number 131 derived from the seed is a prime congruent 3 mod 4 with 8 bits, but the
program skips it and takes 139. -/
theorem field_at_false (junk : Byte) (np : Int → Int) (isprime : Int → Bool) (hnp : NextPrimeSpec np)
    (hip : IsPrimeSpec isprime) (b : Bits) (hb : Seed160 b 176) :
    Spec.fieldInt 8 176 = 131 ∧ Nat.Prime 131 ∧ 131 % 4 = 3 ∧ 2 ^ 7 ≤ 131 ∧ 131 < 2 ^ 8 ∧
    ∃ s', genField junk np isprime 8 3 ⟨b, false⟩ = some (some (139, s')) := by
  refine ⟨fieldInt_witness, by norm_num, by decide, by decide, by decide, ?_⟩
  have n1 : np 132 = 137 := by
    have h1 := (hnp.1 132).1
    have h2 := (hnp.1 132).2 137 (by norm_num) (by decide)
    have h3 := (hnp.2 132).2
    obtain ⟨n, hn⟩ : ∃ n : Nat, np 132 = n := ⟨(np 132).toNat, by omega⟩
    rw [hn] at h1 h2 h3 ⊢
    rw [Int.natAbs_natCast] at h3
    have h1' : 132 ≤ n := by omega
    have h2' : n ≤ 137 := by omega
    interval_cases n <;> first | rfl | (exfalso; revert h3; norm_num)
  have n2 : np 138 = 139 := by
    have h1 := (hnp.1 138).1
    have h2 := (hnp.1 138).2 139 (by norm_num) (by decide)
    have h3 := (hnp.2 138).2
    obtain ⟨n, hn⟩ : ∃ n : Nat, np 138 = n := ⟨(np 138).toNat, by omega⟩
    rw [hn] at h1 h2 h3 ⊢
    rw [Int.natAbs_natCast] at h3
    have h1' : 138 ≤ n := by omega
    have h2' : n ≤ 139 := by omega
    interval_cases n <;> first | rfl | (exfalso; revert h3; norm_num)
  have hpr : isprime 139 = true := (hip 139).2 ⟨by decide, by norm_num⟩
  unfold genField
  rw [loopN, fieldStep]
  simp only [applyFlag]
  rw [if_neg (by decide), Option.bind_some, hashI_spec junk hb _ _ (wOf_le 8).1, Option.map_some,
    fieldInt_eq 8 _ (by decide), fieldInt_witness, Option.bind_some]
  simp only
  rw [loopN, fieldStep]
  simp only [Nat.cast_ofNat]
  rw [show (131 + 1 : Int) = 132 from rfl, n1, if_pos (by decide), Option.bind_some]
  simp only
  rw [loopN, fieldStep]
  simp only
  rw [show (137 + 1 : Int) = 138 from rfl, n2, if_neg (by decide), if_neg (by decide), hpr]
  exact ⟨_, rfl⟩

/-- such a seed object exists -/
example : ∃ b, fromILen 176 160 = some b ∧ Seed160 b 176 := by
  exact fromILen_seed 176 (by decide)

end Ecgen.Brainpool
