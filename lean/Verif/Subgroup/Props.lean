import Verif.Subgroup.Lemmas
import Mathlib.Tactic.NormNum.Prime
import Mathlib.Tactic.FinCases
import Mathlib.Algebra.BigOperators.Group.Finset.Basic

/-!
# C28: lists of subgroup orders
-/

namespace Ecgen.Subgroup

/-- the list of primes: exactly the prime divisors, ascending and each once, for every `n ≥ 1` -/
theorem primes_spec (isprime : Nat → Bool) (hip : ∀ n, isprime n = true ↔ n.Prime)
    (fac : Nat → List (Nat × Nat)) (hf : FactorSpec fac) (n : Nat) (hn : 0 < n) :
    (primes isprime fac n).Pairwise (· < ·) ∧ ∀ d, d ∈ primes isprime fac n ↔ d.Prime ∧ d ∣ n := by
  unfold primes
  split
  · rename_i h
    have hp := (hip n).1 h
    refine ⟨List.pairwise_singleton _ _, fun d => ?_⟩
    rw [List.mem_singleton]
    constructor
    · rintro rfl; exact ⟨hp, Nat.dvd_refl _⟩
    · rintro ⟨h1, h2⟩; exact (Nat.prime_dvd_prime_iff_eq h1 hp).1 h2
  · refine ⟨(hf n hn).2.1, fun d => ?_⟩
    have hperm := divisors_perm fac hf n hn
    rw [← Nat.mem_primeFactorsList (by omega), ← hperm.mem_iff]
    unfold divisors
    rw [List.mem_map, List.mem_flatMap]
    constructor
    · rintro ⟨pe, h1, rfl⟩
      exact ⟨pe, h1, List.mem_replicate.2 ⟨((hf n hn).1 pe h1).2.ne', rfl⟩⟩
    · rintro ⟨pe, h1, h2⟩
      exact ⟨pe, h1, (List.mem_replicate.1 h2).2.symm⟩

/-- the full list: exactly the divisors above one, ascending and each once, for every `n ≥ 2` with fewer than 63 prime
factors counted with multiplicity -/
theorem all_spec_partial (isprime : Nat → Bool) (hip : ∀ n, isprime n = true ↔ n.Prime)
    (fac : Nat → List (Nat × Nat)) (hf : FactorSpec fac) (n : Nat) (hn : 2 ≤ n)
    (h63 : n.primeFactorsList.length < 63) :
    ∃ l, all isprime fac n = some (some l) ∧ l.Pairwise (· < ·) ∧ ∀ d, d ∈ l ↔ 1 < d ∧ d ∣ n := by
  unfold all
  split
  · rename_i h
    have hp := (hip n).1 h
    refine ⟨[n], rfl, List.pairwise_singleton _ _, fun d => ?_⟩
    rw [List.mem_singleton]
    constructor
    · rintro rfl; exact ⟨by omega, Nat.dvd_refl _⟩
    · rintro ⟨h1, h2⟩
      rcases (Nat.dvd_prime hp).1 h2 with h3 | h3
      · omega
      · exact h3
  · have hperm := divisors_perm fac hf n (by omega)
    have hlen := hperm.length_eq
    have hpos := (length_pos_iff n (by omega)).2 (by omega)
    refine ⟨_, twoN_eq _ 0 (by omega) (by omega) (by omega), gtoset_sorted _, fun d => ?_⟩
    rw [mem_gtoset, mem_kept _ n 0 d (by omega) hperm]
    constructor
    · rintro ⟨h1, h2, -⟩
      exact ⟨(length_pos_iff d (Nat.pos_of_dvd_of_pos h1 (by omega))).1 h2, h1⟩
    · rintro ⟨h1, h2⟩
      have := (length_pos_iff d (by omega)).2 h1
      exact ⟨h2, this, this⟩

/-- the list of non-primes: exactly the composite divisors, ascending and each once, under the same bound; for a prime
`n` there is no list (NULL), which is right since there are no composite divisors -/
theorem nonprime_spec_partial (isprime : Nat → Bool) (hip : ∀ n, isprime n = true ↔ n.Prime)
    (fac : Nat → List (Nat × Nat)) (hf : FactorSpec fac) (n : Nat) (hn : 1 ≤ n)
    (h63 : n.primeFactorsList.length < 63) :
    (nonprime isprime fac n = some none ∧ n.Prime ∧ ∀ d, d ∣ n → 1 < d → d.Prime) ∨
    ∃ l, nonprime isprime fac n = some (some l) ∧ l.Pairwise (· < ·) ∧
      ∀ d, d ∈ l ↔ 1 < d ∧ ¬ d.Prime ∧ d ∣ n := by
  unfold nonprime
  split
  · rename_i h
    have hp := (hip n).1 h
    refine Or.inl ⟨rfl, hp, fun d h1 h2 => ?_⟩
    rcases (Nat.dvd_prime hp).1 h1 with h3 | h3
    · omega
    · exact h3 ▸ hp
  · rename_i h
    have hnp : ¬ n.Prime := fun hh => h ((hip n).2 hh)
    have hperm := divisors_perm fac hf n (by omega)
    have hlen := hperm.length_eq
    have hne : n.primeFactorsList.length ≠ 1 := fun e => hnp ((length_one_iff n).1 e)
    refine Or.inr ⟨_, twoN_eq _ 1 (by omega) (by omega) (by omega), gtoset_sorted _, fun d => ?_⟩
    rw [mem_gtoset, mem_kept _ n 1 d (by omega) hperm]
    constructor
    · rintro ⟨h1, h2, h3⟩
      refine ⟨(length_pos_iff d (Nat.pos_of_dvd_of_pos h1 (by omega))).1 h2, fun hp => ?_, h1⟩
      rw [(length_one_iff d).2 hp] at h3; omega
    · rintro ⟨h1, h2, h3⟩
      have h4 := (length_pos_iff d (by omega)).2 h1
      have h5 : d.primeFactorsList.length ≠ 1 := fun e => h2 ((length_one_iff d).1 e)
      exact ⟨h3, h4, by omega⟩

/-- The bound on the number of prime factors is needed: for `2^63` both lists end in an error. -/
theorem many_factors_false (isprime : Nat → Bool) (hip : ∀ n, isprime n = true ↔ n.Prime)
    (fac : Nat → List (Nat × Nat)) (hf : FactorSpec fac) :
    all isprime fac (2 ^ 63) = none ∧ nonprime isprime fac (2 ^ 63) = none := by
  have hperm := divisors_perm fac hf (2 ^ 63) (Nat.two_pow_pos 63)
  have hlen := hperm.length_eq
  rw [Nat.Prime.primeFactorsList_pow Nat.prime_two, List.length_replicate] at hlen
  have hnp : isprime (2 ^ 63) = false := by
    cases h : isprime (2 ^ 63)
    · rfl
    · exact absurd ((hip _).1 h) (Nat.Prime.not_prime_pow (by decide))
  unfold all nonprime twoN
  rw [hnp]
  simp only [hlen]
  exact ⟨rfl, rfl⟩

/-- For the trivial group there is no full list (NULL); `points_gen_allgroups` then reads through the null pointer. -/
theorem trivial_group (isprime : Nat → Bool) (hip : ∀ n, isprime n = true ↔ n.Prime)
    (fac : Nat → List (Nat × Nat)) (hf : FactorSpec fac) : all isprime fac 1 = some none := by
  have hlen := (divisors_perm fac hf 1 (by decide)).length_eq
  rw [Nat.primeFactorsList_one, List.length_nil] at hlen
  have hnp : isprime 1 = false := by
    cases h : isprime 1
    · rfl
    · exact absurd ((hip _).1 h) Nat.not_prime_one
  unfold all twoN
  rw [hnp]
  simp only [hlen]
  rfl

/-! ### Examples -/

/-- a factorisation function and a primality test exist -/
theorem spec_inhabited : ∃ fac, FactorSpec fac := by
  refine ⟨fun n => (n.primeFactorsList.dedup).map fun p => (p, n.primeFactorsList.count p), fun n hn => ⟨?_, ?_, ?_⟩⟩
  · intro pe h
    rw [List.mem_map] at h
    obtain ⟨p, hp, rfl⟩ := h
    rw [List.mem_dedup] at hp
    exact ⟨Nat.prime_of_mem_primeFactorsList hp, List.count_pos_iff.2 hp⟩
  · rw [List.map_map]
    have : (Prod.fst ∘ fun p => (p, n.primeFactorsList.count p)) = id := rfl
    rw [this, List.map_id]
    have h1 : n.primeFactorsList.dedup.Pairwise (· ≤ ·) :=
      (Nat.primeFactorsList_sorted n).pairwise.sublist (List.dedup_sublist _)
    have h2 : n.primeFactorsList.dedup.Pairwise (· ≠ ·) := List.nodup_dedup _
    exact (h1.and h2).imp (fun {a b} h => by omega)
  · rw [List.map_map]
    have h := Finset.prod_list_count n.primeFactorsList
    rw [Nat.prod_primeFactorsList (by omega), show n.primeFactorsList.toFinset = n.primeFactorsList.dedup.toFinset by ext; simp,
       List.prod_toFinset _ (List.nodup_dedup _)] at h
    exact h.symm

example : divisors [(2, 2), (3, 1)] = [2, 2, 3] := by decide
example : twoN [2, 2, 3] 0 = some (some [2, 3, 4, 6, 12]) := by decide +kernel
example : twoN [2, 2, 3] 1 = some (some [4, 6, 12]) := by decide +kernel
example : (12 : Nat).primeFactorsList.length < 63 := by
  have := (Nat.primeFactorsList_unique (n := 12) (l := [2, 2, 3]) (by decide)
    (by intro p hp; fin_cases hp <;> norm_num)).length_eq
  simp at this; omega

end Ecgen.Subgroup
