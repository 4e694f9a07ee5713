import Verif.Brainpool.Lemmas
import Mathlib.Data.Nat.Prime.Int

/-!
# Brainpool fields and equations (C18, C19)
-/

namespace Ecgen.Brainpool

open Ecgen.Bits Ecgen.SeedSpec

theorem wOf_le (L : Nat) : wOf L + 1 ≤ 160 ∧ wOf L ≤ 160 := by
  unfold wOf vOf; omega

theorem fieldInt_eq (L z : Nat) (hL : 1 ≤ L) : Spec.findInteger z (wOf L + 1) (vOf L) = Spec.fieldInt L z := by
  unfold Spec.fieldInt wOf vOf
  rw [show L - 160 * ((L - 1) / 160) - 1 + 1 = L - 160 * ((L - 1) / 160) by omega]

theorem coeffInt_eq (L z : Nat) : Spec.findInteger z (wOf L) (vOf L) = Spec.coeffInt L z := rfl

theorem coeffInt_mod (L z : Nat) : Spec.coeffInt L (z % 2 ^ 160) = Spec.coeffInt L z := findInteger_mod _ _ _
theorem fieldInt_mod (L z : Nat) : Spec.fieldInt L (z % 2 ^ 160) = Spec.fieldInt L z := findInteger_mod _ _ _

theorem seed_congr {s : Bits} {a b : Nat} (h : Seed160 s a) (e : a = b) : Seed160 s b := e ▸ h

/-- the value with which stage number `k` of the iteration starts -/
def pending (s : St) (n : Nat) : Prop := ∃ z, Seed160 s.seed z ∧ (z + s.upd.toNat) % 2 ^ 160 = n % 2 ^ 160

/-- why the seed number `i` of the iteration is rejected for the field -/
def FieldRej (np : Int → Int) (L z0 i : Nat) : Prop :=
  NextPrimeSpec np → ∀ p, Spec.IsNext (Spec.fieldInt L (z0 + i)) p → ¬ (2 ^ (L - 1) ≤ p ∧ p < 2 ^ L)

/-- loop invariant of `brainpool_gen_field` -/
def FieldInv (np : Int → Int) (L z0 : Nat) : St × Option Int → Prop
  | (s, none) => ∃ k, pending s (z0 + k) ∧ ∀ i < k, FieldRej np L z0 i
  | (s, some q) => ∃ k, Seed160 s.seed ((z0 + k) % 2 ^ 160) ∧ s.upd = false ∧ (∀ i < k, FieldRej np L z0 i) ∧
      (Spec.fieldInt L (z0 + k) : Int) ≤ q ∧
      ∀ r : Nat, r.Prime → r % 4 = 3 → Spec.fieldInt L (z0 + k) < r → q < r

theorem pending_update (junk : Byte) {s : Bits} {n k : Nat} (h : Seed160 s ((n + k) % 2 ^ 160)) :
    ∃ s', updateSeed junk s = some s' ∧ Seed160 s' ((n + (k + 1)) % 2 ^ 160) := by
  obtain ⟨s', h1, h2⟩ := updateSeed_spec junk h
  refine ⟨s', h1, seed_congr h2 ?_⟩
  rw [Nat.mod_add_mod]
  rfl

theorem applyFlag_pending (junk : Byte) (s : St) (n : Nat) (h : pending s n) :
    ∃ s', applyFlag junk s = some s' ∧ Seed160 s' (n % 2 ^ 160) := by
  obtain ⟨z, hz, he⟩ := h
  obtain ⟨s', h1, h2⟩ := applyFlag_spec junk s hz
  exact ⟨s', h1, seed_congr h2 he⟩

/-- one pass of the field loop keeps the invariant, never runs into undefined behaviour, and ends only with an acceptable
prime -/
theorem fieldStep_inv (junk : Byte) (np : Int → Int) (isprime : Int → Bool) (hnp : NextPrimeWeak np)
    (hip : IsPrimeSpec isprime) (L z0 : Nat) (hL : 1 ≤ L) (st : St × Option Int) (h : FieldInv np L z0 st) :
    (∃ st', fieldStep junk np isprime L st = some (.cont st') ∧ FieldInv np L z0 st') ∨
    (∃ p st', fieldStep junk np isprime L st = some (.done (p, st')) ∧
      ∃ (k pn : Nat), p = pn ∧ Spec.IsNext (Spec.fieldInt L (z0 + k)) pn ∧ 2 ^ (L - 1) ≤ pn ∧ pn < 2 ^ L ∧
        (∀ i < k, FieldRej np L z0 i) ∧ pending st' (z0 + k + 1)) := by
  obtain ⟨s, ph⟩ := st
  cases ph with
  | none =>
    obtain ⟨k, hp, hr⟩ := h
    obtain ⟨s', h1, h2⟩ := applyFlag_pending junk s _ hp
    left
    refine ⟨(⟨s', false⟩, some (Spec.fieldInt L (z0 + k) : Int)), ?_, k, h2, rfl, hr, Int.le_refl _, ?_⟩
    · unfold fieldStep
      dsimp only
      rw [h1, Option.bind_some, hashI_spec junk h2 _ _ (wOf_le L).1, Option.map_some, fieldInt_eq L _ hL,
        fieldInt_mod]
    · intro r _ _ hlt; exact Int.ofNat_lt.2 hlt
  | some q =>
    obtain ⟨k, hs, hu, hr, hq, hnone⟩ := h
    obtain ⟨hle, hskip⟩ := hnp (q + 1)
    have hq0 : 0 ≤ q := Int.le_trans (Int.natCast_nonneg _) hq
    obtain ⟨pn, hpn⟩ : ∃ pn : Nat, np (q + 1) = pn := ⟨(np (q + 1)).toNat, by omega⟩
    unfold fieldStep
    simp only [hpn] at hle hskip ⊢
    have hclt : Spec.fieldInt L (z0 + k) < pn := by omega
    obtain ⟨s', u1, u2⟩ := pending_update junk hs
    have hnext : pn % 4 = 3 → pn.Prime → Spec.IsNext (Spec.fieldInt L (z0 + k)) pn := by
      intro h4 hpr
      refine ⟨hpr, h4, hclt, ?_⟩
      intro r r1 r2 r3
      have := hnone r r1 r2 r3
      have := hskip r r1 (by omega)
      omega
    have hcont : (∀ i < k + 1, FieldRej np L z0 i) → FieldInv np L z0 (⟨s', s.upd⟩, none) := by
      intro hrej
      refine ⟨k + 1, ⟨_, u2, ?_⟩, hrej⟩
      rw [hu]
      show ((z0 + (k + 1)) % 2 ^ 160 + 0) % 2 ^ 160 = _
      rw [Nat.add_zero, Nat.mod_mod]
    have hrejk : (pn % 4 = 3 → NextPrimeSpec np → ¬ (2 ^ (L - 1) ≤ pn ∧ pn < 2 ^ L)) → pn % 4 = 3 →
        ∀ i < k + 1, FieldRej np L z0 i := by
      intro hbad h4 i hi
      by_cases hik : i = k
      · subst hik
        intro hst p' hp'
        have hpp : pn.Prime := by
          have := (hst.2 (q + 1)).2
          rw [hpn] at this
          simpa using this
        have hn := hnext h4 hpp
        have : p' = pn := Nat.le_antisymm (hp'.2.2.2 pn hpp h4 hclt) (hn.2.2.2 p' hp'.1 hp'.2.1 hp'.2.2.1)
        rw [this]
        exact hbad h4 hst
      · exact hr i (by omega)
    have hmod : ((pn : Int) % 4 = 3) ↔ pn % 4 = 3 := by omega
    have hc1 : ((2 : Int) ^ (L - 1)) = ((2 ^ (L - 1) : Nat) : Int) := by push_cast; rfl
    have hc2 : ((2 : Int) ^ L) = ((2 ^ L : Nat) : Int) := by push_cast; rfl
    by_cases h4 : (pn : Int) % 4 = 3
    · rw [if_neg (by simpa using h4)]
      rw [hmod] at h4
      by_cases hb : (pn : Int) ≤ 2 ^ (L - 1) - 1 ∨ (2 : Int) ^ L ≤ pn
      · rw [if_pos hb, u1]
        refine Or.inl ⟨_, rfl, hcont (hrejk (fun _ _ hh => ?_) h4)⟩
        rw [hc1, hc2] at hb
        have := hh.1; have := hh.2
        omega
      · rw [if_neg hb]
        rw [hc1, hc2] at hb
        have hb' : 2 ^ (L - 1) ≤ pn ∧ pn < 2 ^ L := by
          constructor
          · have := fun h => hb (Or.inl h); omega
          · have := fun h => hb (Or.inr h); omega
        cases hi : isprime pn with
        | false =>
          rw [if_pos (by rfl), u1]
          refine Or.inl ⟨_, rfl, hcont (hrejk (fun _ hst _ => ?_) h4)⟩
          have hpp := hst.2 (q + 1)
          rw [hpn] at hpp
          rw [(hip pn).2 hpp] at hi
          cases hi
        | true =>
          rw [if_neg (by simp)]
          right
          refine ⟨pn, _, rfl, k, pn, rfl, hnext h4 (by simpa using ((hip pn).1 hi).2), hb'.1, hb'.2, hr, ?_⟩
          refine ⟨_, hs, ?_⟩
          show ((z0 + k) % 2 ^ 160 + 1) % 2 ^ 160 = _
          rw [Nat.mod_add_mod]
    · rw [if_pos (by simpa using h4)]
      left
      refine ⟨_, rfl, k, hs, hu, hr, by omega, ?_⟩
      intro r r1 r2 r3
      have := hnone r r1 r2 r3
      have := hskip r r1 (by omega)
      have : pn ≠ r := by rintro rfl; exact h4 (hmod.2 r2)
      omega

/-- C18: a field prime accepted by Brainpool generation is the least prime congruent 3 mod 4 above the number derived
from the seed `z0 + k` (`z0` the pending seed), has exactly `L` bits, all seeds before were rejected because their prime has
another size, and the next stage starts with the following seed modulo `2^160`.
The loop is free of undefined behaviour. -/
theorem field_spec (junk : Byte) (np : Int → Int) (isprime : Int → Bool) (hnp : NextPrimeWeak np)
    (hip : IsPrimeSpec isprime) (L : Nat) (hL : 1 ≤ L) (s : St) (z0 : Nat) (hs : pending s z0) (fuel : Nat) :
    genField junk np isprime L fuel s = some none ∨
    ∃ (p k : Nat) (s' : St), genField junk np isprime L fuel s = some (some ((p : Int), s')) ∧
      Spec.IsNext (Spec.fieldInt L (z0 + k)) p ∧ 2 ^ (L - 1) ≤ p ∧ p < 2 ^ L ∧
      pending s' (z0 + k + 1) ∧
      (NextPrimeSpec np → ∀ i < k, ∀ p', Spec.IsNext (Spec.fieldInt L (z0 + i)) p' →
        ¬ (2 ^ (L - 1) ≤ p' ∧ p' < 2 ^ L)) := by
  rcases loopN_safe (f := fieldStep junk np isprime L) (FieldInv np L z0)
    (fun r => ∃ (k pn : Nat), r.1 = pn ∧ Spec.IsNext (Spec.fieldInt L (z0 + k)) pn ∧ 2 ^ (L - 1) ≤ pn ∧ pn < 2 ^ L ∧
        (∀ i < k, FieldRej np L z0 i) ∧ pending r.2 (z0 + k + 1))
    (fun st hst => by
      rcases fieldStep_inv junk np isprime hnp hip L z0 hL st hst with h | ⟨p, st', h1, h2⟩
      · exact Or.inl h
      · exact Or.inr ⟨(p, st'), h1, h2⟩) fuel (s, none)
    ⟨0, hs, by intro i hi; omega⟩ with h | ⟨⟨p, s'⟩, h, k, pn, e, h1, h2, h3, h4, h5⟩
  · exact Or.inl h
  · right
    simp only at e
    subst e
    exact ⟨pn, k, s', h, h1, h2, h3, h5, fun hst i hi => h4 i hi hst⟩

/-! ### Equations -/

theorem invsafe_root (p : Nat) (P : FpOps) (hP : FpSpec p P) (a : Nat) :
    (∃ am y, P.invsafe a = some am ∧ P.root4 (am * -3) = some y) → Spec.AOk p a := by
  rintro ⟨am, y, h1, h2⟩
  refine ⟨y, ?_⟩
  have e1 := hP.invsafe_some _ _ h1
  have e2 := hP.root4_some _ _ h2
  calc (a : Int) * y ^ 4 ≡ a * (am * -3) [ZMOD p] := Int.ModEq.mul_left _ e2
    _ = (a * am) * -3 := by ring
    _ ≡ 1 * -3 [ZMOD p] := Int.ModEq.mul_right _ e1
    _ = -3 := by ring

/-- conversely, if the inverse or the root is missing, `a` is not acceptable (`p` not dividing 3) -/
theorem not_AOk (p : Nat) (P : FpOps) (hP : FpSpec p P) (h3 : ¬ (p : Int) ∣ 3) (a : Nat)
    (h : P.invsafe a = none ∨ ∃ am, P.invsafe a = some am ∧ P.root4 (am * -3) = none) : ¬ Spec.AOk p a := by
  rintro ⟨z, hz⟩
  rcases h with h | ⟨am, h1, h2⟩
  · rw [hP.invsafe_none] at h
    have h0 : (a : Int) * z ^ 4 ≡ 0 [ZMOD p] := (Int.modEq_zero_iff_dvd.2 (Dvd.dvd.mul_right h _))
    have := hz.symm.trans h0
    rw [Int.modEq_zero_iff_dvd] at this
    exact h3 ((Int.dvd_neg).1 this)
  · rw [hP.root4_none] at h2
    apply h2
    refine ⟨z, ?_⟩
    have e1 := hP.invsafe_some _ _ h1
    calc z ^ 4 = 1 * z ^ 4 := by ring
      _ ≡ (a * am) * z ^ 4 [ZMOD p] := Int.ModEq.mul_right _ e1.symm
      _ = am * (a * z ^ 4) := by ring
      _ ≡ am * -3 [ZMOD p] := Int.ModEq.mul_left _ hz

theorem discZero_iff (p : Nat) (hp : p.Prime) (h2 : p ≠ 2) (a b : Nat) :
    discZero p a b = true ↔ ¬ Spec.NonSingular p a b := by
  unfold discZero Spec.NonSingular
  rw [Classical.not_not, beq_iff_eq, Int.modEq_zero_iff_dvd, ← Int.dvd_iff_emod_eq_zero]
  constructor
  · intro h
    rcases (Nat.prime_iff_prime_int.1 hp).dvd_or_dvd h with h | h
    · exfalso
      have h16 : (p : Int) ∣ 2 ^ 4 := by
        have := (Int.dvd_neg).1 h
        norm_num
        exact this
      have h2' := (Nat.prime_iff_prime_int.1 hp).dvd_of_dvd_pow h16
      have : p ∣ 2 := by exact_mod_cast h2'
      exact h2 ((Nat.prime_dvd_prime_iff_eq hp Nat.prime_two).1 this)
    · exact h
  · intro h; exact Dvd.dvd.mul_left h _

/-- the seed number tried after number `k` fails, original variant -/
def NextTry (p L z0 k k' : Nat) : Prop :=
  (¬ Spec.AOk p (Spec.coeffInt L (z0 + k)) ∧ k' = k + 1) ∨
  (Spec.AOk p (Spec.coeffInt L (z0 + k)) ∧ k' = k + 2 ∧
    (¬ Spec.Square p (Spec.coeffInt L (z0 + (k + 1))) ∨
      ¬ Spec.NonSingular p (Spec.coeffInt L (z0 + k)) (Spec.coeffInt L (z0 + (k + 1)))))

/-- `k` is reached from 0 by failing tries only -/
inductive Reached (T : Nat → Nat → Prop) : Nat → Prop
  | zero : Reached T 0
  | step {k k' : Nat} : Reached T k → T k k' → Reached T k'

/-- C19, original variant: an accepted equation has `a z⁴ = -3` solvable, `b` a square, a non-zero discriminant; `a` and `b`
are the expansions of the consecutive seeds `z0+k`, `z0+k+1` (modulo `p`), every earlier try failed one of these tests,
and the next stage starts with the following seed. The loop is free of undefined behaviour. -/
theorem equation_spec (junk : Byte) (p : Nat) (hp : p.Prime) (hp3 : 2 < p) (P : FpOps) (hP : FpSpec p P) (L : Nat)
    (s : St) (z0 : Nat) (hs : pending s z0) (fuel : Nat) :
    genEquation junk p P L fuel s = some none ∨
    ∃ (k : Nat) (s' : St), genEquation junk p P L fuel s = some (some
        ((((Spec.coeffInt L (z0 + k) : Int) % p, (Spec.coeffInt L (z0 + (k + 1)) : Int) % p)), s')) ∧
      Spec.AOk p (Spec.coeffInt L (z0 + k)) ∧ Spec.Square p (Spec.coeffInt L (z0 + (k + 1))) ∧
      Spec.NonSingular p (Spec.coeffInt L (z0 + k)) (Spec.coeffInt L (z0 + (k + 1))) ∧
      pending s' (z0 + (k + 1) + 1) ∧ (3 < p → Reached (NextTry p L z0) k) := by
  have h3 : 3 < p → ¬ (p : Int) ∣ 3 := by
    intro h3 h
    have : p ∣ 3 := by exact_mod_cast h
    have := Nat.le_of_dvd (by decide) this
    omega
  have hpend : ∀ (sd : Bits) n, Seed160 sd (n % 2 ^ 160) → pending ⟨sd, false⟩ n := by
    intro sd n h
    refine ⟨_, h, ?_⟩
    show (n % 2 ^ 160 + 0) % 2 ^ 160 = _
    rw [Nat.add_zero, Nat.mod_mod]
  rcases loopN_safe (f := equationStep junk p P L)
    (fun st => ∃ k, pending st (z0 + k) ∧ (3 < p → Reached (NextTry p L z0) k))
    (fun r => ∃ k, r.1 = ((Spec.coeffInt L (z0 + k) : Int) % p, (Spec.coeffInt L (z0 + (k + 1)) : Int) % p) ∧
      Spec.AOk p (Spec.coeffInt L (z0 + k)) ∧ Spec.Square p (Spec.coeffInt L (z0 + (k + 1))) ∧
      Spec.NonSingular p (Spec.coeffInt L (z0 + k)) (Spec.coeffInt L (z0 + (k + 1))) ∧
      pending r.2 (z0 + (k + 1) + 1) ∧ (3 < p → Reached (NextTry p L z0) k)) (by
    rintro st ⟨k, hpd, hre⟩
    obtain ⟨sd, a1, a2⟩ := applyFlag_pending junk st _ hpd
    obtain ⟨sd1, u1, u2⟩ := pending_update junk a2
    obtain ⟨sd2, u3, u4⟩ := pending_update junk u2
    unfold equationStep
    rw [a1, Option.bind_some, hashI_spec junk a2 _ _ (wOf_le L).2, Option.bind_some, coeffInt_eq, coeffInt_mod]
    cases hi : P.invsafe (Spec.coeffInt L (z0 + k)) with
    | none =>
      simp only
      rw [u1]
      exact Or.inl ⟨_, rfl, k + 1, hpend _ _ u2, fun h => .step (hre h) (Or.inl ⟨not_AOk p P hP (h3 h) _ (Or.inl hi), rfl⟩)⟩
    | some am =>
      simp only
      cases hr : P.root4 (am * -3) with
      | none =>
        simp only
        rw [u1]
        exact Or.inl ⟨_, rfl, k + 1, hpend _ _ u2,
          fun h => .step (hre h) (Or.inl ⟨not_AOk p P hP (h3 h) _ (Or.inr ⟨am, hi, hr⟩), rfl⟩)⟩
      | some y =>
        have hA := invsafe_root p P hP _ ⟨am, y, hi, hr⟩
        simp only
        rw [u1, Option.bind_some, hashI_spec junk u2 _ _ (wOf_le L).2, Option.bind_some, coeffInt_eq, coeffInt_mod]
        cases hsq : P.issquare (Spec.coeffInt L (z0 + (k + 1))) with
        | false =>
          rw [if_pos (by rfl), u3]
          refine Or.inl ⟨_, rfl, k + 2, hpend _ _ u4, fun h => .step (hre h) (Or.inr ⟨hA, rfl, Or.inl ?_⟩)⟩
          intro hh
          rw [(hP.issquare _).2 hh] at hsq
          cases hsq
        | true =>
          rw [if_neg (by simp)]
          by_cases hd : discZero p (Spec.coeffInt L (z0 + k)) (Spec.coeffInt L (z0 + (k + 1))) = true
          · rw [if_pos hd, u3]
            exact Or.inl ⟨_, rfl, k + 2, hpend _ _ u4,
              fun h => .step (hre h) (Or.inr ⟨hA, rfl, Or.inr ((discZero_iff p hp (by omega) _ _).1 hd)⟩)⟩
          · rw [if_neg hd]
            refine Or.inr ⟨_, rfl, k, rfl, hA, (hP.issquare _).1 hsq, ?_, ⟨_, u2, ?_⟩, hre⟩
            · by_contra hn
              exact hd ((discZero_iff p hp (by omega) _ _).2 hn)
            · show ((z0 + (k + 1)) % 2 ^ 160 + 1) % 2 ^ 160 = _
              rw [Nat.mod_add_mod])
    fuel s ⟨0, hs, fun _ => .zero⟩ with h | ⟨⟨ab, s'⟩, h, k, e, h1, h2, h4, h5, h6⟩
  · exact Or.inl h
  · right
    simp only at e
    subst e
    exact ⟨k, s', h, h1, h2, h4, h5, h6⟩

/-- the seed number tried after number `k` fails, RFC 5639 variant: `b` comes from the first later seed (distance `j`) whose
expansion is no square; only a zero discriminant makes that fail -/
def NextTryRfc (p L z0 k k' : Nat) : Prop :=
  (¬ Spec.AOk p (Spec.coeffInt L (z0 + k)) ∧ k' = k + 1) ∨
  (Spec.AOk p (Spec.coeffInt L (z0 + k)) ∧ ∃ j, 0 < j ∧ k' = k + j + 1 ∧
    (∀ i, 0 < i → i < j → Spec.Square p (Spec.coeffInt L (z0 + (k + i)))) ∧
    ¬ Spec.Square p (Spec.coeffInt L (z0 + (k + j))) ∧
    ¬ Spec.NonSingular p (Spec.coeffInt L (z0 + k)) (Spec.coeffInt L (z0 + (k + j))))

/-- C19, RFC 5639 variant: likewise with `b` a non-square, taken from the first seed after that of `a` whose expansion is a
non-square. -/
theorem equation_rfc_spec (junk : Byte) (p : Nat) (hp : p.Prime) (hp3 : 2 < p) (P : FpOps) (hP : FpSpec p P) (L : Nat)
    (s : St) (z0 : Nat) (hs : pending s z0) (fuel : Nat) :
    genEquationRfc junk p P L fuel s = some none ∨
    ∃ (k j : Nat) (s' : St), genEquationRfc junk p P L fuel s = some (some
        ((((Spec.coeffInt L (z0 + k) : Int) % p, (Spec.coeffInt L (z0 + (k + j)) : Int) % p)), s')) ∧ 0 < j ∧
      Spec.AOk p (Spec.coeffInt L (z0 + k)) ∧
      (∀ i, 0 < i → i < j → Spec.Square p (Spec.coeffInt L (z0 + (k + i)))) ∧
      ¬ Spec.Square p (Spec.coeffInt L (z0 + (k + j))) ∧
      Spec.NonSingular p (Spec.coeffInt L (z0 + k)) (Spec.coeffInt L (z0 + (k + j))) ∧
      pending s' (z0 + (k + j) + 1) ∧ (3 < p → Reached (NextTryRfc p L z0) k) := by
  have h3 : 3 < p → ¬ (p : Int) ∣ 3 := by
    intro h3 h
    have : p ∣ 3 := by exact_mod_cast h
    have := Nat.le_of_dvd (by decide) this
    omega
  have hpend : ∀ (sd : Bits) n, Seed160 sd (n % 2 ^ 160) → pending ⟨sd, false⟩ n := by
    intro sd n h
    refine ⟨_, h, ?_⟩
    show (n % 2 ^ 160 + 0) % 2 ^ 160 = _
    rw [Nat.add_zero, Nat.mod_mod]
  rcases loopN_safe (f := rfcStep junk p P L)
    (fun st => match st.2 with
      | none => ∃ k, pending st.1 (z0 + k) ∧ (3 < p → Reached (NextTryRfc p L z0) k)
      | some a => ∃ k j, a = (Spec.coeffInt L (z0 + k) : Int) ∧ Seed160 st.1.seed ((z0 + (k + j)) % 2 ^ 160) ∧
          st.1.upd = false ∧ Spec.AOk p (Spec.coeffInt L (z0 + k)) ∧
          (∀ i, 0 < i → i < j + 1 → Spec.Square p (Spec.coeffInt L (z0 + (k + i)))) ∧
          (3 < p → Reached (NextTryRfc p L z0) k))
    (fun r => ∃ k j, r.1 = ((Spec.coeffInt L (z0 + k) : Int) % p, (Spec.coeffInt L (z0 + (k + j)) : Int) % p) ∧
      0 < j ∧ Spec.AOk p (Spec.coeffInt L (z0 + k)) ∧
      (∀ i, 0 < i → i < j → Spec.Square p (Spec.coeffInt L (z0 + (k + i)))) ∧
      ¬ Spec.Square p (Spec.coeffInt L (z0 + (k + j))) ∧
      Spec.NonSingular p (Spec.coeffInt L (z0 + k)) (Spec.coeffInt L (z0 + (k + j))) ∧
      pending r.2 (z0 + (k + j) + 1) ∧ (3 < p → Reached (NextTryRfc p L z0) k)) (by
    rintro ⟨st, ph⟩ hinv
    cases ph with
    | none =>
      obtain ⟨k, hpd, hre⟩ := hinv
      obtain ⟨sd, a1, a2⟩ := applyFlag_pending junk st _ hpd
      obtain ⟨sd1, u1, u2⟩ := pending_update junk a2
      unfold rfcStep
      dsimp only
      rw [a1, Option.bind_some, hashI_spec junk a2 _ _ (wOf_le L).2, Option.bind_some, coeffInt_eq, coeffInt_mod]
      cases hi : P.invsafe (Spec.coeffInt L (z0 + k)) with
      | none =>
        simp only
        rw [u1]
        exact Or.inl ⟨_, rfl, k + 1, hpend _ _ u2, fun h => .step (hre h) (Or.inl ⟨not_AOk p P hP (h3 h) _ (Or.inl hi), rfl⟩)⟩
      | some am =>
        simp only
        cases hr : P.root4 (am * -3) with
        | none =>
          simp only
          rw [u1]
          exact Or.inl ⟨_, rfl, k + 1, hpend _ _ u2,
            fun h => .step (hre h) (Or.inl ⟨not_AOk p P hP (h3 h) _ (Or.inr ⟨am, hi, hr⟩), rfl⟩)⟩
        | some y =>
          have hA := invsafe_root p P hP _ ⟨am, y, hi, hr⟩
          exact Or.inl ⟨_, rfl, k, 0, rfl, a2, rfl, hA, by intro i h1 h2; omega, hre⟩
    | some a =>
      obtain ⟨k, j, ha, hsd, hu, hA, hall, hre⟩ := hinv
      subst ha
      obtain ⟨sd1, u1, u2⟩ := pending_update junk (n := z0) (k := k + j) hsd
      obtain ⟨sd2, u3, u4⟩ := pending_update junk u2
      simp only at hu u1
      unfold rfcStep
      dsimp only
      rw [u1, Option.bind_some, hashI_spec junk u2 _ _ (wOf_le L).2, Option.bind_some, coeffInt_eq, coeffInt_mod]
      cases hsq : P.issquare (Spec.coeffInt L (z0 + (k + j + 1))) with
      | true =>
        rw [if_pos rfl]
        refine Or.inl ⟨_, rfl, k, j + 1, rfl, u2, hu, hA, ?_, hre⟩
        intro i h1 h2
        by_cases hij : i = j + 1
        · subst hij
          exact (hP.issquare _).1 hsq
        · exact hall i h1 (by omega)
      | false =>
        rw [if_neg (by simp)]
        have hns : ¬ Spec.Square p (Spec.coeffInt L (z0 + (k + (j + 1)))) := by
          intro hh
          have := (hP.issquare _).2 hh
          rw [show k + (j + 1) = k + j + 1 from rfl, hsq] at this
          cases this
        by_cases hd : discZero p (Spec.coeffInt L (z0 + k)) (Spec.coeffInt L (z0 + (k + j + 1))) = true
        · rw [if_pos hd, u3]
          refine Or.inl ⟨_, rfl, k + (j + 1) + 1, ?_, fun h => .step (hre h) (Or.inr ⟨hA, j + 1, by omega, rfl, hall, hns,
            (discZero_iff p hp (by omega) _ _).1 hd⟩)⟩
          rw [hu]
          exact hpend _ _ u4
        · rw [if_neg hd]
          refine Or.inr ⟨_, rfl, k, j + 1, rfl, by omega, hA, hall, hns, ?_, ⟨_, u2, ?_⟩, hre⟩
          · by_contra hn
            exact hd ((discZero_iff p hp (by omega) _ _).2 hn)
          · show ((z0 + (k + j + 1)) % 2 ^ 160 + 1) % 2 ^ 160 = _
            rw [Nat.mod_add_mod]
            rfl)
    fuel (s, none) ⟨0, hs, fun _ => .zero⟩ with h | ⟨⟨ab, s'⟩, h, k, j, e, h0, h1, h2, h3, h4, h5, h6⟩
  · exact Or.inl h
  · right
    simp only at e
    subst e
    exact ⟨k, j, s', h, h0, h1, h2, h3, h4, h5, h6⟩

/-- Seeds given as 40 hex digits or drawn at random meet the hypothesis of the theorems above. -/
theorem seeds_pending (s : List Char) (hs : s.length = 40) (rnd : Nat → Nat → Nat) :
    (∃ b z, fromHex s = some b ∧ pending ⟨b, false⟩ z) ∧ (∃ b z, newRand rnd 160 = some b ∧ pending ⟨b, false⟩ z) := by
  constructor
  · obtain ⟨r, h, h1, h2, h3, -⟩ := fromHex_spec s
    obtain ⟨r', h', -, h5, -⟩ := fromHex_bits s
    rw [h] at h'
    cases h'
    exact ⟨r, _, h, _, ⟨h1, h2, h3, by show r.bitlen = 160; omega, rfl⟩, rfl⟩
  · obtain ⟨r, h, h1, h2, h3, h4, -⟩ := newRand_spec rnd 160
    exact ⟨r, _, h, _, ⟨h1, h2, h3, h4, rfl⟩, rfl⟩

end Ecgen.Brainpool
