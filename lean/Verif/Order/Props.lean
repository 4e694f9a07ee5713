import Verif.Order.Model
import Verif.Subgroup.Props
import Mathlib.Algebra.Squarefree.Basic
import Mathlib.FieldTheory.Finite.Basic

/-!
# C20, C32, C40 (embedding degree): order filters and security checks
-/

namespace Ecgen.Order

open Ecgen.Subgroup (FactorSpec)

/-! ### C32 -/

/-- C32, prime filter -/
theorem prime_filter (isprime : Nat → Bool) (hip : ∀ n, isprime n = true ↔ n.Prime) (n sea : Nat) (hs : SeaSpec sea n) :
    (∀ m, genPrime isprime sea = some m → m = n) ∧ ((genPrime isprime sea).isSome ↔ n.Prime) := by
  unfold genPrime
  rcases hs with rfl | ⟨rfl, hn⟩
  · by_cases h : sea.Prime
    · have h0 := h.pos
      rw [if_neg (by rw [(hip sea).2 h]; simp; omega)]
      exact ⟨by simp, by simp [h]⟩
    · have : isprime sea = false := by
        cases e : isprime sea
        · rfl
        · exact absurd ((hip sea).1 e) h
      rw [if_pos (by simp [this])]
      exact ⟨by simp, by simp [h]⟩
  · rw [if_pos (Or.inl rfl)]
    exact ⟨by simp, by simp [hn]⟩

/-- C32, cofactor filter -/
theorem cofactor_filter (isprime : Nat → Bool) (hip : ∀ n, isprime n = true ↔ n.Prime) (k n : Nat) (hn : 0 < n) :
    (∀ m, genCofactor isprime k n = some m → m = n) ∧
    ((genCofactor isprime k n).isSome ↔ ∃ q : Nat, q.Prime ∧ n = k * q) := by
  unfold genCofactor
  by_cases hk : k ∣ n
  · have hk0 : 0 < k := Nat.pos_of_dvd_of_pos hk hn
    rw [if_neg (not_not.2 hk)]
    by_cases h : (n / k).Prime
    · rw [(hip _).2 h]
      exact ⟨by simp, by simp only [Bool.not_true, Bool.false_eq_true, if_false, Option.isSome_some, true_iff]
                         exact ⟨n / k, h, (Nat.mul_div_cancel' hk).symm⟩⟩
    · have : isprime (n / k) = false := by
        cases e : isprime (n / k)
        · rfl
        · exact absurd ((hip _).1 e) h
      rw [this]
      refine ⟨by simp, ?_⟩
      simp only [Bool.not_false, if_true, Option.isSome_none, Bool.false_eq_true, false_iff]
      rintro ⟨q, hq, rfl⟩
      rw [Nat.mul_div_cancel_left _ hk0] at h
      exact h hq
  · rw [if_pos hk]
    refine ⟨by simp, ?_⟩
    simp only [Option.isSome_none, Bool.false_eq_true, false_iff]
    rintro ⟨q, -, rfl⟩
    exact hk (Dvd.intro q rfl)

theorem mem_fac (fac : Nat → List (Nat × Nat)) (hf : FactorSpec fac) (n : Nat) (hn : 0 < n) (q : Nat) :
    (∃ pe ∈ fac n, pe.1 = q) ↔ q.Prime ∧ q ∣ n := by
  have h := (Subgroup.primes_spec (fun _ => false) · fac hf n hn)
  have hperm := Subgroup.divisors_perm fac hf n hn
  rw [← Nat.mem_primeFactorsList (by omega), ← hperm.mem_iff]
  unfold Subgroup.divisors
  rw [List.mem_flatMap]
  constructor
  · rintro ⟨pe, h1, rfl⟩
    exact ⟨pe, h1, List.mem_replicate.2 ⟨((hf n hn).1 pe h1).2.ne', rfl⟩⟩
  · rintro ⟨pe, h1, h2⟩
    exact ⟨pe, h1, (List.mem_replicate.1 h2).2.symm⟩

/-- C32, smooth filter: exactly the orders all of whose prime factors have at most `bound` bits -/
theorem smooth_filter (fac : Nat → List (Nat × Nat)) (hf : FactorSpec fac) (bound n : Nat) (hn : 0 < n) :
    (∀ m, genSmooth fac bound n = some m → m = n) ∧
    ((genSmooth fac bound n).isSome ↔ ∀ q : Nat, q.Prime → q ∣ n → q < 2 ^ bound) := by
  unfold genSmooth
  have key : ((fac n).any fun pe => decide (pe.1.size > bound)) = true ↔ ∃ q : Nat, q.Prime ∧ q ∣ n ∧ 2 ^ bound ≤ q := by
    rw [List.any_eq_true]
    constructor
    · rintro ⟨pe, h1, h2⟩
      have := (mem_fac fac hf n hn pe.1).1 ⟨pe, h1, rfl⟩
      exact ⟨pe.1, this.1, this.2, Nat.lt_size.1 (by simpa using h2)⟩
    · rintro ⟨q, h1, h2, h3⟩
      obtain ⟨pe, h4, rfl⟩ := (mem_fac fac hf n hn q).2 ⟨h1, h2⟩
      exact ⟨pe, h4, by simpa using Nat.lt_size.2 h3⟩
  split
  · rename_i h
    refine ⟨by simp, ?_⟩
    obtain ⟨q, h1, h2, h3⟩ := key.1 h
    simp only [Option.isSome_none, Bool.false_eq_true, false_iff]
    intro hall
    have := hall q h1 h2
    omega
  · rename_i h
    refine ⟨by simp, ?_⟩
    simp only [Option.isSome_some, true_iff]
    intro q h1 h2
    by_contra h3
    exact h (key.2 ⟨q, h1, h2, by omega⟩)

/-- the Pohlig-Hellman check accepts exactly the orders with a prime factor above the bound (order at least two) -/
theorem pohlig_hellman (fac : Nat → List (Nat × Nat)) (hf : FactorSpec fac) (minf n : Nat) (hn : 2 ≤ n) :
    ∃ b, checkPohligHellman fac minf n = some b ∧ (b = true ↔ ∃ q : Nat, q.Prime ∧ q ∣ n ∧ minf < q) := by
  unfold checkPohligHellman
  have hfac := hf n (by omega)
  cases h : (fac n).getLast? with
  | none =>
    exfalso
    rw [List.getLast?_eq_none_iff] at h
    have := hfac.2.2
    rw [h] at this
    simp at this
    omega
  | some pe =>
    refine ⟨_, rfl, ?_⟩
    have hmem : pe ∈ fac n := List.mem_of_getLast? h
    have hmax : ∀ pe' ∈ fac n, pe'.1 ≤ pe.1 := by
      obtain ⟨l, hl⟩ : ∃ l, fac n = l ++ [pe] := by
        obtain ⟨l, hl⟩ := List.getLast?_eq_some_iff.1 h
        exact ⟨l, hl⟩
      intro pe' h'
      rw [hl] at h'
      rcases List.mem_append.1 h' with h' | h'
      · have hs := hfac.2.1
        rw [hl, List.map_append, List.pairwise_append] at hs
        exact (hs.2.2 pe'.1 (List.mem_map_of_mem h') pe.1 (by simp)).le
      · rw [List.mem_singleton.1 h']
    simp only [Bool.not_eq_true', decide_eq_false_iff_not, Nat.not_le]
    constructor
    · intro hlt
      have := (mem_fac fac hf n (by omega) pe.1).1 ⟨pe, hmem, rfl⟩
      exact ⟨pe.1, this.1, this.2, hlt⟩
    · rintro ⟨q, h1, h2, h3⟩
      obtain ⟨pe', h4, rfl⟩ := (mem_fac fac hf n (by omega) q).2 ⟨h1, h2⟩
      have := hmax pe' h4
      omega

/-- the discriminant check over prime fields accepts exactly the curves whose square-free discriminant part is above the
bound; `D f² = t² - 4q` determines it up to the sign of `f` -/
theorem discriminant_check (core : Int → Int) (hc : CoreSpec core) (q mind n : Nat)
    (hne : ((q : Int) + 1 - n) ^ 2 - 4 * q ≠ 0) :
    ∃ D f : Int, ((q : Int) + 1 - n) ^ 2 - 4 * q = D * f ^ 2 ∧ Squarefree D ∧
      (checkDiscriminant core false q mind n = true ↔ mind < D.natAbs) := by
  obtain ⟨⟨f, hf⟩, hs⟩ := hc _ hne
  refine ⟨_, f, hf, hs, ?_⟩
  unfold checkDiscriminant
  have e : -((n : Int) - (q + 1)) = (q : Int) + 1 - n := by omega
  simp only [Bool.false_eq_true, if_false, e, Bool.not_eq_true', decide_eq_false_iff_not, Nat.not_le]

/-! ### C40, embedding degree -/

/-- the embedding degree is the least positive `k` with `n ∣ p^k - 1`; 0 stands for `n = p` -/
theorem embedding_spec (zn : Nat → Nat → Nat) (hz : ZnSpec zn) (p n : Nat) (hn : 0 < n)
    (hc : p = n ∨ Nat.Coprime p n) :
    (p = n ∧ embedding zn p n = 0) ∨
    (p ≠ n ∧ 0 < embedding zn p n ∧ n ∣ p ^ embedding zn p n - 1 ∧
      ∀ j, 0 < j → j < embedding zn p n → ¬ n ∣ p ^ j - 1) := by
  unfold embedding
  by_cases h : p = n
  · exact Or.inl ⟨h, by rw [if_pos h]⟩
  · rw [if_neg h]
    exact Or.inr ⟨h, hz p n hn (hc.resolve_left h)⟩

/-! ### C20 -/

/-- the bound of the embedding check, for any list of generators: accepted exactly when every generator order `n` differs
from `p` and divides none of `p^k - 1` for `1 ≤ k ≤ bound` -/
theorem embedding_bound (zn : Nat → Nat → Nat) (hz : ZnSpec zn) (p bound n : Nat) (hn : 0 < n)
    (hc : p = n ∨ Nat.Coprime p n) :
    bound < embedding zn p n ↔ p ≠ n ∧ ∀ k, 1 ≤ k → k ≤ bound → ¬ n ∣ p ^ k - 1 := by
  rcases embedding_spec zn hz p n hn hc with ⟨h1, h2⟩ | ⟨h1, h2, h3, h4⟩
  · rw [h2]; simp [h1]
  · constructor
    · intro h
      exact ⟨h1, fun k hk1 hk2 => h4 k (by omega) (by omega)⟩
    · rintro ⟨-, h⟩
      by_contra hlt
      exact h _ h2 (by omega) h3

/-- C20: a Brainpool or NUMS curve (a single generator, of order `n`) passes the generator checks exactly when `n ≠ p` and
`n ∤ p^k - 1` for all `k` up to `(n-1)/100` -/
theorem gens_checks (zn : Nat → Nat → Nat) (hz : ZnSpec zn) (p n : Nat) (hn : 0 < n)
    (hc : p = n ∨ Nat.Coprime p n) :
    (checkAnomalous false p [n] = true ∧ checkGens zn p n = true) ↔
      p ≠ n ∧ ∀ k, 1 ≤ k → k ≤ (n - 1) / 100 → ¬ n ∣ p ^ k - 1 := by
  unfold checkAnomalous checkGens
  simp only [Bool.false_eq_true, if_false, List.all_cons, List.all_nil, Bool.and_true, Bool.not_eq_true',
    beq_eq_false_iff_ne, ne_eq, decide_eq_false_iff_not, Nat.not_le]
  rw [embedding_bound zn hz p _ n hn hc]
  constructor
  · rintro ⟨_, h⟩; exact h
  · intro h; exact ⟨h.1, h⟩

/-- the same for prime orders, where the coprimality is automatic -/
theorem gens_checks_prime (zn : Nat → Nat → Nat) (hz : ZnSpec zn) (p n : Nat) (hp : p.Prime) (hn : n.Prime) :
    (checkAnomalous false p [n] = true ∧ checkGens zn p n = true) ↔
      p ≠ n ∧ ∀ k, 1 ≤ k → k ≤ (n - 1) / 100 → ¬ n ∣ p ^ k - 1 := by
  refine gens_checks zn hz p n hn.pos ?_
  by_cases h : p = n
  · exact Or.inl h
  · exact Or.inr ((Nat.coprime_primes hp hn).2 h)

/-- the general embedding check for a list of generators -/
theorem embedding_check (zn : Nat → Nat → Nat) (hz : ZnSpec zn) (p mind : Nat) (orders : List Nat)
    (ho : ∀ n ∈ orders, 0 < n ∧ (p = n ∨ Nat.Coprime p n)) :
    checkEmbedding zn false p mind orders = true ↔
      ∀ n ∈ orders, p ≠ n ∧ ∀ k, 1 ≤ k → k ≤ mind → ¬ n ∣ p ^ k - 1 := by
  unfold checkEmbedding
  simp only [Bool.false_eq_true, if_false, List.all_eq_true, Bool.not_eq_true', decide_eq_false_iff_not, Nat.not_le]
  constructor
  · intro h n hn
    exact (embedding_bound zn hz p mind n (ho n hn).1 (ho n hn).2).1 (h n hn)
  · intro h n hn
    exact (embedding_bound zn hz p mind n (ho n hn).1 (ho n hn).2).2 (h n hn)

/-- The additional Brainpool order check asks for an order below the field prime. -/
theorem brainpool_order (p n : Nat) : checkOrder p n = true ↔ n < p := by simp [checkOrder]

/-! ### Examples -/

/-- the contract of `znorder` can be met -/
theorem zn_inhabited : ∃ zn, ZnSpec zn := by
  classical
  have h : ∀ p n : Nat, ∃ k, 0 < n → Nat.Coprime p n →
      0 < k ∧ n ∣ p ^ k - 1 ∧ ∀ j, 0 < j → j < k → ¬ n ∣ p ^ j - 1 := by
    intro p n
    by_cases hn : 0 < n ∧ Nat.Coprime p n
    · obtain ⟨h0, hc⟩ := hn
      have hex : ∃ k, 0 < k ∧ n ∣ p ^ k - 1 := by
        refine ⟨Nat.totient n, Nat.totient_pos.2 h0, ?_⟩
        have hm := Nat.ModEq.pow_totient hc
        rcases Nat.eq_zero_or_pos (p ^ Nat.totient n) with hz | hz
        · rw [hz]; exact Dvd.intro 0 rfl
        · exact (Nat.modEq_iff_dvd' hz).1 hm.symm
      refine ⟨Nat.find hex, fun _ _ => ⟨(Nat.find_spec hex).1, (Nat.find_spec hex).2, fun j h1 h2 h3 => ?_⟩⟩
      exact Nat.find_min hex h2 ⟨h1, h3⟩
    · exact ⟨0, fun a b => absurd ⟨a, b⟩ hn⟩
  choose zn hzn using h
  exact ⟨zn, fun p n => hzn p n⟩

example : ∃ q : Nat, q.Prime ∧ (12 : Nat) = 4 * q := ⟨3, Nat.prime_three, rfl⟩
example : SeaSpec 7 7 := Or.inl rfl
example : ¬ (7 : Nat) ∣ 10 ^ 1 - 1 ∧ (7 : Nat) ∣ 10 ^ 6 - 1 := by decide
example : ((101 : Int) + 1 - 97) ^ 2 - 4 * 101 ≠ 0 := by decide

end Ecgen.Order
