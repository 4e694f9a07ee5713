import Verif.Subgroup.Model
import Mathlib.Data.Nat.Factors
import Mathlib.Data.List.Dedup
import Mathlib.Algebra.BigOperators.Group.List.Basic

/-!
# Lemmas for C28
-/

namespace Ecgen.Subgroup

open List

/-! ### Selections -/

/-- the elements at the positions of the one bits -/
def pick : List Nat → Nat → List Nat
  | [], _ => []
  | x :: l, c => if c % 2 = 1 then x :: pick l (c / 2) else pick l (c / 2)

theorem and_pow (c i : Nat) : (c &&& 2 ^ i ≠ 0) ↔ c.testBit i = true := by
  constructor
  · intro h
    by_contra hc
    apply h
    apply Nat.eq_of_testBit_eq
    intro j
    rw [Nat.testBit_and, Nat.testBit_two_pow]
    by_cases e : i = j
    · subst e; simp at hc; simp [hc]
    · simp [e]
  · intro h h0
    have := congrArg (Nat.testBit · i) h0
    simp [Nat.testBit_and, h] at this

theorem foldl_pick (l : List Nat) : ∀ (c : Nat) (a : Nat × Nat),
    (List.range l.length).foldl
      (fun r bit => if c &&& 2 ^ bit ≠ 0 then (r.1 * l.getD bit 0, r.2 + 1) else r) a =
    (a.1 * (pick l c).prod, a.2 + (pick l c).length) := by
  induction l with
  | nil => intro c a; simp [pick]
  | cons x l ih =>
    intro c a
    rw [List.length_cons, List.range_succ_eq_map, List.foldl_cons, List.foldl_map]
    have e : ∀ (r : Nat × Nat) (bit : Nat),
        (if c &&& 2 ^ (Nat.succ bit) ≠ 0 then (r.1 * (x :: l).getD (Nat.succ bit) 0, r.2 + 1) else r) =
        (if c / 2 &&& 2 ^ bit ≠ 0 then (r.1 * l.getD bit 0, r.2 + 1) else r) := by
      intro r bit
      have : (c &&& 2 ^ (Nat.succ bit) ≠ 0) ↔ (c / 2 &&& 2 ^ bit ≠ 0) := by
        rw [and_pow, and_pow, Nat.testBit_succ]
      simp only [this, List.getD_cons_succ]
    simp only [e]
    rw [ih]
    rw [pick]
    have h0 : (c &&& 2 ^ 0 ≠ 0) ↔ c % 2 = 1 := by
      rw [and_pow, Nat.testBit_zero]; simp
    by_cases h : c % 2 = 1
    · rw [if_pos (h0.2 h), if_pos h, List.getD_cons_zero, List.prod_cons, List.length_cons, Nat.mul_assoc]
      rw [Prod.mk.injEq]; exact ⟨rfl, by omega⟩
    · rw [if_neg (fun hh => h (h0.1 hh)), if_neg h]

theorem select_eq (l : List Nat) (c : Nat) : select l c = ((pick l c).prod, (pick l c).length) := by
  unfold select
  rw [foldl_pick]
  simp

theorem pick_sublist (l : List Nat) : ∀ c, pick l c <+ l := by
  induction l with
  | nil => intro c; simp [pick]
  | cons x l ih =>
    intro c
    rw [pick]
    split
    · exact (ih _).cons_cons x
    · exact (ih _).cons x

theorem exists_pick {l s : List Nat} (h : s <+ l) : ∃ c, c < 2 ^ l.length ∧ pick l c = s := by
  induction h with
  | slnil => exact ⟨0, by simp, rfl⟩
  | @cons s l x _ ih =>
    obtain ⟨c, hc, e⟩ := ih
    refine ⟨2 * c, by rw [List.length_cons, Nat.pow_succ]; omega, ?_⟩
    rw [pick, if_neg (by omega), show 2 * c / 2 = c by omega, e]
  | @cons_cons s l x _ ih =>
    obtain ⟨c, hc, e⟩ := ih
    refine ⟨2 * c + 1, by rw [List.length_cons, Nat.pow_succ]; omega, ?_⟩
    rw [pick, if_pos (by omega), show (2 * c + 1) / 2 = c by omega, e]

theorem pick_zero (l : List Nat) : pick l 0 = [] := by
  induction l with
  | nil => rfl
  | cons x l ih => simp [pick, ih]

/-! ### Counting the selections with more than `minBits` elements -/

/-- number of `c < 2^n` with at most one bit -/
theorem length_pick_le_one (l : List Nat) : ∀ c, c < 2 ^ l.length →
    ((pick l c).length ≤ 1 ↔ c = 0 ∨ ∃ i < l.length, c = 2 ^ i) := by
  induction l with
  | nil => intro c hc; simp at hc; simp [pick, hc]
  | cons x l ih =>
    intro c hc
    rw [List.length_cons, Nat.pow_succ] at hc
    rw [pick]
    have hd := ih (c / 2) (by omega)
    by_cases h : c % 2 = 1
    · rw [if_pos h, List.length_cons]
      have hz : (pick l (c / 2)).length = 0 ↔ c / 2 = 0 := by
        constructor
        · intro h0
          rcases (hd.1 (by omega)) with h1 | ⟨i, hi, h1⟩
          · exact h1
          · exfalso
            have : ∀ (l : List Nat) (i : Nat), i < l.length → (pick l (2 ^ i)).length = 1 := by
              intro l
              induction l with
              | nil => intro i hi; simp at hi
              | cons y l ih =>
                intro i hi
                cases i with
                | zero => simp [pick, pick_zero]
                | succ i =>
                  rw [pick, if_neg (by rw [Nat.pow_succ]; omega), Nat.pow_succ, Nat.mul_div_cancel _ (by decide)]
                  exact ih i (by simpa using hi)
            rw [h1, this l i hi] at h0
            omega
        · intro h0; rw [h0, pick_zero]; rfl
      constructor
      · intro h1
        have : c / 2 = 0 := hz.1 (by omega)
        exact Or.inr ⟨0, by simp, by omega⟩
      · rintro (h1 | ⟨i, hi, h1⟩)
        · omega
        · cases i with
          | zero => have : c / 2 = 0 := by omega
                    have := hz.2 this; omega
          | succ i => rw [Nat.pow_succ] at h1; omega
    · rw [if_neg h, hd]
      constructor
      · rintro (h1 | ⟨i, hi, h1⟩)
        · left; omega
        · right; exact ⟨i + 1, by simpa using hi, by rw [Nat.pow_succ]; omega⟩
      · rintro (h1 | ⟨i, hi, h1⟩)
        · left; omega
        · cases i with
          | zero => omega
          | succ i => right; exact ⟨i, by simpa using hi, by rw [Nat.pow_succ] at h1; omega⟩

/-- the products kept by the loop -/
def kept (l : List Nat) (minBits m : Nat) : List Nat :=
  ((List.range m).filter fun c => decide ((pick l (c + 1)).length > minBits)).map fun c => (pick l (c + 1)).prod

theorem kept_succ (l : List Nat) (minBits m : Nat) :
    kept l minBits (m + 1) = kept l minBits m ++
      (if (pick l (m + 1)).length > minBits then [(pick l (m + 1)).prod] else []) := by
  unfold kept
  rw [List.range_succ, List.filter_append, List.map_append]
  congr 1
  by_cases h : (pick l (m + 1)).length > minBits <;> simp [h]

theorem kept_length_mono (l : List Nat) (minBits : Nat) {a b : Nat} (h : a ≤ b) :
    (kept l minBits a).length ≤ (kept l minBits b).length := by
  induction h with
  | refl => exact Nat.le_refl _
  | step _ ih => rw [kept_succ, List.length_append]; omega

/-- without a lower bound every non-empty selection is kept -/
theorem kept_length_zero (l : List Nat) : (kept l 0 (2 ^ l.length - 1)).length = 2 ^ l.length - 1 := by
  unfold kept
  rw [List.length_map, List.filter_eq_self.2, List.length_range]
  intro c hc
  rw [List.mem_range] at hc
  simp only [decide_eq_true_eq]
  by_contra h
  rw [Nat.not_lt, Nat.le_zero, List.length_eq_zero_iff] at h
  have : ∀ (l : List Nat) (c : Nat), c < 2 ^ l.length → pick l c = [] → c = 0 := by
    intro l
    induction l with
    | nil => intro c hc _; simp at hc; exact hc
    | cons x l ih =>
      intro c hc he
      rw [List.length_cons, Nat.pow_succ] at hc
      rw [pick] at he
      split at he
      · simp at he
      · have := ih (c / 2) (by omega) he; omega
  have := this l (c + 1) (by omega) h
  omega

theorem countP_powers (n : Nat) :
    ((List.range (2 ^ n - 1)).filter fun c => decide (∃ i < n, c + 1 = 2 ^ i)).length = n := by
  have h : ((List.range (2 ^ n - 1)).filter fun c => decide (∃ i < n, c + 1 = 2 ^ i)) ~
      (List.range n).map fun i => 2 ^ i - 1 := by
    apply (List.perm_ext_iff_of_nodup _ _).2
    · intro a
      simp only [List.mem_filter, List.mem_range, decide_eq_true_eq, List.mem_map]
      constructor
      · rintro ⟨_, i, hi, e⟩
        exact ⟨i, hi, by omega⟩
      · rintro ⟨i, hi, e⟩
        have h1 : 2 ^ i < 2 ^ n := Nat.pow_lt_pow_right (by decide) hi
        have h2 : 0 < 2 ^ i := Nat.two_pow_pos i
        exact ⟨by omega, i, hi, by omega⟩
    · exact List.nodup_range.filter _
    · apply List.Nodup.map_on _ List.nodup_range
      intro x _ y _ e
      have h1 : 0 < 2 ^ x := Nat.two_pow_pos x
      have h2 : 0 < 2 ^ y := Nat.two_pow_pos y
      exact Nat.pow_right_injective (Nat.le_refl 2) (show 2 ^ x = 2 ^ y by omega)
  rw [h.length_eq, List.length_map, List.length_range]

/-- with lower bound one the selections of a single prime are dropped -/
theorem kept_length_one (l : List Nat) : (kept l 1 (2 ^ l.length - 1)).length = 2 ^ l.length - 1 - l.length := by
  unfold kept
  rw [List.length_map]
  have hs := List.length_eq_length_filter_add (l := List.range (2 ^ l.length - 1))
    (fun c => decide (∃ i < l.length, c + 1 = 2 ^ i))
  rw [List.length_range, countP_powers] at hs
  have : (List.range (2 ^ l.length - 1)).filter (fun c => decide ((pick l (c + 1)).length > 1)) =
      (List.range (2 ^ l.length - 1)).filter (fun c => !decide (∃ i < l.length, c + 1 = 2 ^ i)) := by
    apply List.filter_congr
    intro c hc
    rw [List.mem_range] at hc
    have := length_pick_le_one l (c + 1) (by omega)
    rw [← decide_not]
    apply decide_eq_decide.2
    rw [gt_iff_lt, ← Nat.not_le, this]
    simp
  rw [this]
  omega

/-- the loop fills the vector exactly: no entry is missing and none is written outside -/
theorem loop_kept (l : List Nat) (minBits size : Nat) (m : Nat) (h : (kept l minBits m).length ≤ size) :
    forN (fill l minBits size) m [] = some (kept l minBits m) := by
  induction m with
  | zero => rfl
  | succ m ih =>
    have hm := kept_length_mono l minBits (Nat.le_succ m)
    rw [forN, ih (by rw [Nat.succ_eq_add_one] at hm; omega), Option.bind_some, fill, select_eq]
    simp only
    rw [kept_succ] at h ⊢
    rw [List.length_append] at h
    split
    · rename_i h1
      rw [if_pos h1, List.length_singleton] at h
      rw [if_pos (by omega)]
    · rw [List.append_nil]

theorem mem_gtoset (l : List Nat) (x : Nat) : x ∈ gtoset l ↔ x ∈ l := by
  unfold gtoset
  rw [List.mem_dedup, (List.perm_insertionSort _ _).mem_iff]

theorem gtoset_sorted (l : List Nat) : (gtoset l).Pairwise (· < ·) := by
  have h1 : (l.insertionSort (· ≤ ·)).dedup.Pairwise (· ≤ ·) :=
    (List.pairwise_insertionSort (· ≤ ·) l).sublist (List.dedup_sublist _)
  have h2 : (l.insertionSort (· ≤ ·)).dedup.Pairwise (· ≠ ·) := List.nodup_dedup _
  exact (h1.and h2).imp (fun {a b} h => by omega)

theorem twoN_eq (l : List Nat) (minBits : Nat) (hm : minBits ≤ 1) (hn : l.length ≠ minBits) (h63 : l.length < 63) :
    twoN l minBits = some (some (gtoset (kept l minBits (2 ^ l.length - 1)))) := by
  unfold twoN
  rw [if_neg hn, if_neg (by omega)]
  have hlen : (kept l minBits (2 ^ l.length - 1)).length = 2 ^ l.length - minBits * l.length - 1 := by
    rcases Nat.le_one_iff_eq_zero_or_eq_one.1 hm with rfl | rfl
    · rw [kept_length_zero]; omega
    · rw [kept_length_one]; omega
  simp only
  rw [loop_kept _ _ _ _ (by omega), Option.map_some, hlen, Nat.sub_self, List.replicate_zero, List.append_nil]

/-! ### The list of prime factors with multiplicity -/

theorem divisors_prime (l : List (Nat × Nat)) (h : ∀ pe ∈ l, pe.1.Prime ∧ 0 < pe.2) :
    ∀ p ∈ divisors l, p.Prime := by
  intro p hp
  unfold divisors at hp
  rw [List.mem_flatMap] at hp
  obtain ⟨pe, h1, h2⟩ := hp
  rw [(List.mem_replicate.1 h2).2]
  exact (h pe h1).1

theorem divisors_prod (l : List (Nat × Nat)) : (divisors l).prod = (l.map fun pe => pe.1 ^ pe.2).prod := by
  induction l with
  | nil => rfl
  | cons a l ih =>
    unfold divisors at ih ⊢
    rw [List.flatMap_cons, List.prod_append, ih, List.prod_replicate, List.map_cons, List.prod_cons]

theorem divisors_perm (fac : Nat → List (Nat × Nat)) (hf : FactorSpec fac) (n : Nat) (hn : 0 < n) :
    divisors (fac n) ~ n.primeFactorsList := by
  apply Nat.primeFactorsList_unique
  · rw [divisors_prod]; exact (hf n hn).2.2
  · exact divisors_prime _ (hf n hn).1

theorem mem_kept (l : List Nat) (n minBits d : Nat) (hn : 0 < n) (hl : l ~ n.primeFactorsList) :
    d ∈ kept l minBits (2 ^ l.length - 1) ↔ d ∣ n ∧ 0 < d.primeFactorsList.length ∧
      minBits < d.primeFactorsList.length := by
  have hprime : ∀ s, s <+ l → ∀ p ∈ s, p.Prime := fun s hs p hp =>
    Nat.prime_of_mem_primeFactorsList (hl.mem_iff.1 (hs.subset hp))
  unfold kept
  rw [List.mem_map]
  constructor
  · rintro ⟨c, hc, rfl⟩
    rw [List.mem_filter, List.mem_range] at hc
    have hs := pick_sublist l (c + 1)
    have hp := Nat.primeFactorsList_unique (rfl : (pick l (c + 1)).prod = _) (hprime _ hs)
    refine ⟨?_, ?_, ?_⟩
    · have hn' : l.prod = n := by rw [hl.prod_eq, Nat.prod_primeFactorsList (by omega)]
      rw [← hn']
      exact hs.prod_dvd_prod
    · rw [← hp.length_eq]
      rcases Nat.eq_zero_or_pos (pick l (c + 1)).length with h0 | h0
      · exfalso
        have h1 := (length_pick_le_one l (c + 1) (by omega)).1 (by omega)
        rcases h1 with h1 | ⟨i, hi, h1⟩
        · omega
        · simpa [h0] using hc.2
      · exact h0
    · rw [← hp.length_eq]; simpa using hc.2
  · rintro ⟨h1, h2, h3⟩
    have hsub := Nat.primeFactorsList_sublist_of_dvd h1 (by omega)
    obtain ⟨s, hs1, hs2⟩ := List.exists_perm_sublist hsub hl.symm
    obtain ⟨c, hc, e⟩ := exists_pick hs2
    have hc0 : c ≠ 0 := by
      rintro rfl
      rw [pick_zero] at e
      rw [← hs1.length_eq, ← e] at h2
      simp at h2
    have hd : 0 < d := Nat.pos_of_ne_zero (by rintro rfl; simp at h2)
    refine ⟨c - 1, ?_, ?_⟩
    · rw [List.mem_filter, List.mem_range, show c - 1 + 1 = c by omega, e, hs1.length_eq]
      exact ⟨by omega, by simpa using h3⟩
    · show (pick l (c - 1 + 1)).prod = d
      rw [show c - 1 + 1 = c by omega, e, hs1.prod_eq, Nat.prod_primeFactorsList (by omega)]

theorem length_pos_iff (d : Nat) (hd : 0 < d) : 0 < d.primeFactorsList.length ↔ 1 < d := by
  rw [List.length_pos_iff, ne_eq, Nat.primeFactorsList_eq_nil]
  omega

theorem length_one_iff (d : Nat) : d.primeFactorsList.length = 1 ↔ d.Prime := by
  constructor
  · intro h
    obtain ⟨p, hp⟩ := List.length_eq_one_iff.1 h
    have h0 : d ≠ 0 := by rintro rfl; simp at h
    have e := Nat.prod_primeFactorsList h0
    rw [hp, List.prod_singleton] at e
    subst e
    exact Nat.prime_of_mem_primeFactorsList (n := p) (by rw [hp]; simp)
  · intro h; rw [Nat.primeFactorsList_prime h]; rfl

end Ecgen.Subgroup
