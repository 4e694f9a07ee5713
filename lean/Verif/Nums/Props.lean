import Verif.Nums.Model
import Verif.Engine.Props
import Verif.Order.Props
import Mathlib.Tactic.Ring
import Mathlib.FieldTheory.Finite.Basic

/-!
# C21, C22: the NUMS procedure
-/

namespace Ecgen.Nums

open Ecgen.Engine Ecgen.Engine.Spec

/-! ### C21 -/

/-- the contract of `isprime` on integers -/
def IsPrimeSpec (isprime : Int → Bool) : Prop := ∀ p, isprime p = true ↔ ∃ n : Nat, n.Prime ∧ p = n

theorem fieldLoop_sound (isprime : Int → Bool) (bits : Nat) : ∀ (fuel c : Nat) (p : Int),
    fieldLoop isprime bits fuel c = some p →
    ∃ k, p = 2 ^ bits - ((c + 4 * k : Nat) : Int) ∧ isprime p = true ∧
      ∀ j, j < k → isprime (2 ^ bits - ((c + 4 * j : Nat) : Int)) = false := by
  intro fuel
  induction fuel with
  | zero => intro c p h; simp [fieldLoop] at h
  | succ fuel ih =>
    intro c p h
    simp only [fieldLoop] at h
    by_cases hp : isprime (2 ^ bits - (c : Int)) = true
    · rw [if_pos hp] at h
      obtain rfl := Option.some.inj h
      exact ⟨0, by simp, hp, fun j hj => absurd hj (by omega)⟩
    · rw [if_neg hp] at h
      obtain ⟨k, h1, h2, h3⟩ := ih _ _ h
      refine ⟨k + 1, by rw [h1]; congr 2; omega, h2, fun j hj => ?_⟩
      cases j with
      | zero => simpa using hp
      | succ j =>
        have := h3 j (by omega)
        rwa [show c + 4 * (j + 1) = c + 4 + 4 * j by omega]

theorem fieldLoop_complete (isprime : Int → Bool) (bits : Nat) : ∀ (k c : Nat),
    isprime (2 ^ bits - ((c + 4 * k : Nat) : Int)) = true → (fieldLoop isprime bits (k + 1) c).isSome := by
  intro k
  induction k with
  | zero => intro c h; simp only [fieldLoop]; rw [if_pos (by simpa using h)]; rfl
  | succ k ih =>
    intro c h
    rw [fieldLoop]
    split
    · rfl
    · exact ih _ (by rwa [show c + 4 + 4 * k = c + 4 * (k + 1) by omega])

theorem two_pow_four {bits : Nat} (hb : 2 ≤ bits) : ∃ m, 0 < m ∧ 2 ^ bits = 4 * m := by
  refine ⟨2 ^ (bits - 2), Nat.pow_pos (by omega), ?_⟩
  rw [show (4 : Nat) = 2 ^ 2 by rfl, ← Nat.pow_add]
  congr 1; omega

/-- **C21** (at least two bits). The field search ends, and its result is the largest prime congruent 3 mod 4 below
`2^bits`. -/
theorem field_spec (isprime : Int → Bool) (hip : IsPrimeSpec isprime) (bits : Nat) (hb : 2 ≤ bits) :
    (∃ fuel, (genField isprime bits fuel).isSome) ∧
    ∀ fuel p, genField isprime bits fuel = some p →
      ∃ n : Nat, p = n ∧ n.Prime ∧ n % 4 = 3 ∧ n < 2 ^ bits ∧
        ∀ q : Nat, q.Prime → q % 4 = 3 → q < 2 ^ bits → q ≤ n := by
  obtain ⟨m, hm0, hm⟩ := two_pow_four hb
  have hmi : (2 : Int) ^ bits = 4 * (m : Int) := by exact_mod_cast hm
  constructor
  · refine ⟨m - 1 + 1, fieldLoop_complete isprime bits (m - 1) 1 ?_⟩
    rw [hip]
    exact ⟨3, Nat.prime_three, by rw [hmi]; omega⟩
  · intro fuel p h
    obtain ⟨k, h1, h2, h3⟩ := fieldLoop_sound isprime bits fuel 1 p h
    obtain ⟨n, hn, rfl⟩ := (hip p).1 h2
    rw [hmi] at h1
    refine ⟨n, rfl, hn, by omega, by omega, fun q hq hq4 hqlt => ?_⟩
    by_contra hlt
    have hj : ∃ j, q = 4 * m - (1 + 4 * j) ∧ j < k ∧ 1 + 4 * j ≤ 4 * m := ⟨(4 * m - 1 - q) / 4, by omega, by omega, by omega⟩
    obtain ⟨j, hj1, hj2, hj3⟩ := hj
    have := h3 j hj2
    rw [Bool.eq_false_iff] at this
    apply this
    rw [hip]
    exact ⟨q, hq, by rw [hmi]; omega⟩

/-- **C21**, fewer than two bits: there is no such prime and the search does not end. -/
theorem field_diverges (isprime : Int → Bool) (hip : IsPrimeSpec isprime) (bits : Nat) (hb : bits < 2) (fuel : Nat) :
    genField isprime bits fuel = none := by
  cases h : genField isprime bits fuel with
  | none => rfl
  | some p =>
    obtain ⟨k, h1, h2, -⟩ := fieldLoop_sound isprime bits fuel 1 p h
    obtain ⟨n, hn, rfl⟩ := (hip p).1 h2
    have := hn.two_le
    have : (2 : Int) ^ bits ≤ 2 := by
      rcases Nat.lt_or_ge bits 1 with h | h
      · rw [show bits = 0 by omega]; decide
      · rw [show bits = 1 by omega]; decide
    omega

/-! ### C22 -/

/-- specification, free of the code: the curve `y² = x³ - 3x + b` over `F_p` with `N` points is one the NUMS procedure
should take -/
structure Good (N : Nat → Nat → Nat) (p b : Nat) : Prop where
  nonsingular : ¬ (p : Int) ∣ (-16) * (4 * (-3) ^ 3 + 27 * (b : Int) ^ 2)
  order_prime : (N p (b % p)).Prime
  twist_prime : (2 * p + 2 - N p (b % p)).Prime
  not_anomalous : N p (b % p) ≠ p
  embedding : ∀ k, 1 ≤ k → k ≤ (N p (b % p) - 1) / 100 → ¬ N p (b % p) ∣ p ^ k - 1

/-- contracts of the PARI functions for curves with `N p b` points over the field of prime size `p`:
`ellsea`, `isprime`, `znorder`; Hasse's upper bound in the weak form `N ≤ 2p + 2`; and, since a point other than the
identity of a group of prime order generates it, the order of the base point -/
structure PariSpec (P : Pari) (N : Nat → Nat → Nat) (p : Nat) : Prop where
  prime : p.Prime
  isprime : ∀ n, P.isprime n = true ↔ n.Prime
  sea : ∀ b, Order.SeaSpec (P.sea p b) (N p b)
  zn : Order.ZnSpec P.zn
  hasse : ∀ b, N p b ≤ 2 * p + 2
  base : ∀ b, (N p b).Prime → P.ordG p b = N p b

theorem singular_iff (p b : Nat) (hp : 0 < p) :
    singular p ((-3 : Int) % (p : Int)).toNat (b % p) = true ↔
      (p : Int) ∣ (-16) * (4 * (-3) ^ 3 + 27 * (b : Int) ^ 2) := by
  unfold singular
  rw [beq_iff_eq, ← Int.dvd_iff_emod_eq_zero]
  have ha : ((((-3 : Int) % (p : Int)).toNat : Nat) : Int) = (-3 : Int) % (p : Int) :=
    Int.toNat_of_nonneg (Int.emod_nonneg _ (by omega))
  rw [ha]
  have hb : ((b % p : Nat) : Int) = (b : Int) % (p : Int) := by push_cast; rfl
  rw [hb]
  have h1 : (p : Int) ∣ (-16) * (4 * ((-3 : Int) % (p : Int)) ^ 3 + 27 * ((b : Int) % (p : Int)) ^ 2)
      - (-16) * (4 * (-3) ^ 3 + 27 * (b : Int) ^ 2) := by
    have e1 : ((-3 : Int) % (p : Int)) = -3 - p * (-3 / (p : Int)) := by
      have := Int.emod_add_mul_ediv (-3) (p : Int); omega
    have e2 : ((b : Int) % (p : Int)) = b - p * (b / (p : Int)) := by
      have := Int.emod_add_mul_ediv (b : Int) (p : Int); omega
    rw [e1, e2]
    generalize (-3 / (p : Int)) = u
    generalize ((b : Int) / (p : Int)) = v
    exact ⟨(-16) * (4 * (-(27 * u) - 9 * p * u ^ 2 - p ^ 2 * u ^ 3) + 27 * (-(2 * b * v) + p * v ^ 2)), by ring⟩
  constructor
  · intro h
    have := Int.dvd_sub h h1
    simpa using this
  · intro h
    have := Int.dvd_add h1 h
    simpa using this

/-- `b = 2` always gives a singular curve, so that skipping it changes nothing -/
theorem two_bad (N : Nat → Nat → Nat) (p : Nat) : ¬ Good N p 2 := fun h => h.nonsingular (by norm_num)

variable (N : Nat → Nat → Nat) (p : Nat)

/-- the static variables and the field are those after the candidate `m`, of a search that began after `m0` -/
structure Cand (ptr m0 m : Nat) (w : W) : Prop where
  sb : w.sb = some m
  scb : w.scb = some ptr
  wptr : w.ptr = ptr
  lt : m0 < m
  below : ∀ b, m0 < b → b < m → ¬ Good N p b
  field : w.field = p
  a : w.a = ((-3 : Int) % (p : Int)).toNat
  b : w.b = m % p

/-- the situation before the next candidate is drawn -/
def Before (ptr m0 : Nat) (w : W) : Prop :=
  w.ptr = ptr ∧
  ((m0 = 0 ∧ (w.sb = none ∨ w.scb ≠ some ptr)) ∨
   (∃ m, w.sb = some m ∧ w.scb = some ptr ∧ m0 ≤ m ∧ 1 ≤ m ∧ ∀ b, m0 < b → b ≤ m → ¬ Good N p b))

/-- the invariant of the search, by stage -/
def Inv (ptr m0 : Nat) : Nat → W → Prop
  | 0, w => Before N p ptr m0 w
  | 1, w => Before N p ptr m0 w
  | 2, w => Before N p ptr m0 w ∧ w.field = p
  | 3, w => Before N p ptr m0 w ∧ w.field = p ∧ w.a = ((-3 : Int) % (p : Int)).toNat
  | 4, w => ∃ m, Cand N p ptr m0 m w
  | 5, w => ∃ m, Cand N p ptr m0 m w ∧ ¬ (p : Int) ∣ (-16) * (4 * (-3) ^ 3 + 27 * (m : Int) ^ 2)
  | 6, w => ∃ m, Cand N p ptr m0 m w ∧ ¬ (p : Int) ∣ (-16) * (4 * (-3) ^ 3 + 27 * (m : Int) ^ 2) ∧
      w.order = N p (m % p) ∧ (N p (m % p)).Prime ∧ (2 * p + 2 - N p (m % p)).Prime
  | _, w => ∃ m, Cand N p ptr m0 m w ∧ Good N p m ∧ w.order = N p (m % p) ∧ w.gorder = N p (m % p)

theorem Cand.toBefore {N : Nat → Nat → Nat} {p : Nat} {ptr m0 m : Nat} {w : W} (h : Cand N p ptr m0 m w)
    (hbad : ¬ Good N p m) : Before N p ptr m0 w := by
  refine ⟨h.wptr, Or.inr ⟨m, h.sb, h.scb, h.lt.le, by have := h.lt; omega, fun b h1 h2 => ?_⟩⟩
  rcases Nat.lt_or_eq_of_le h2 with h2 | rfl
  · exact h.below b h1 h2
  · exact hbad

theorem genB_cand (ptr m0 : Nat) (w : W) (hB : Before N p ptr m0 w) (hf : w.field = p)
    (ha : w.a = ((-3 : Int) % (p : Int)).toNat) : ∃ m, Cand N p ptr m0 m (genB w) := by
  obtain ⟨hptr, h⟩ := hB
  rcases h with ⟨rfl, h⟩ | ⟨m, h1, h2, h3, h4, h5⟩
  · refine ⟨1, ?_⟩
    have e : genB w = { w with sb := some 1, b := 1 % w.field, scb := some w.ptr } := by
      unfold genB
      cases hs : w.sb with
      | none => rfl
      | some b =>
        dsimp only
        rw [if_neg]
        rw [hptr]
        exact h.resolve_left (by rw [hs]; simp)
    rw [e]
    exact ⟨rfl, by rw [hptr], hptr, by omega, fun b h1 h2 => by omega, hf, ha, by dsimp only; rw [hf]⟩
  · refine ⟨if m = 1 then m + 2 else m + 1, ?_⟩
    have e : genB w = { w with sb := some (if m = 1 then m + 2 else m + 1),
                               b := (if m = 1 then m + 2 else m + 1) % w.field } := by
      unfold genB
      rw [h1]
      dsimp only
      rw [if_pos (by rw [h2, hptr])]
    rw [e]
    refine ⟨rfl, h2, hptr, by split <;> omega, fun b h6 h7 => ?_, hf, ha, by dsimp only; rw [hf]⟩
    rcases Nat.lt_or_ge m b with h8 | h8
    · have : b = 2 := by split at h7 <;> omega
      rw [this]
      exact two_bad N p
    · exact h5 b h6 h8

/-- the invariant is kept by every accepted stage -/
theorem inv_ok (P : Pari) (hP : PariSpec P N p) (ptr m0 : Nat) (s : Nat) (w : W) (d : Int) (w' : W)
    (h : Inv N p ptr m0 s w) (hs : Succeeds (setup P p) s w d w') : Inv N p ptr m0 (s + d.toNat) w' := by
  obtain ⟨w1, hg, hd, hc⟩ := hs
  match s, h with
  | 0, h =>
    simp only [setup, Prod.mk.injEq, GenRes.ret.injEq] at hg
    obtain ⟨rfl, rfl⟩ := hg
    cases hc
    exact h
  | 1, h =>
    simp only [setup, Prod.mk.injEq, GenRes.ret.injEq] at hg
    obtain ⟨rfl, rfl⟩ := hg
    cases hc
    exact ⟨h, rfl⟩
  | 2, h =>
    simp only [setup, Prod.mk.injEq, GenRes.ret.injEq] at hg
    obtain ⟨rfl, rfl⟩ := hg
    cases hc
    exact ⟨h.1, h.2, by simp only [genA]; rw [h.2]⟩
  | 3, h =>
    simp only [setup, Prod.mk.injEq, GenRes.ret.injEq] at hg
    obtain ⟨rfl, rfl⟩ := hg
    cases hc
    exact genB_cand N p ptr m0 w h.1 h.2.1 h.2.2
  | 4, ⟨m, h⟩ =>
    simp only [setup, genCurve] at hg
    split at hg
    · simp only [Prod.mk.injEq, GenRes.ret.injEq] at hg; omega
    · rename_i hns
      simp only [Prod.mk.injEq, GenRes.ret.injEq] at hg
      obtain ⟨rfl, rfl⟩ := hg
      cases hc
      rw [h.field, h.a, h.b, singular_iff p m hP.prime.pos] at hns
      exact ⟨m, h, hns⟩
  | 5, ⟨m, h, hns⟩ =>
    simp only [setup, genOrder] at hg
    split at hg
    · simp only [Prod.mk.injEq, GenRes.ret.injEq] at hg; omega
    · rename_i hor
      simp only [Prod.mk.injEq, GenRes.ret.injEq] at hg
      obtain ⟨rfl, rfl⟩ := hg
      cases hc
      rw [h.field, h.b] at hor ⊢
      simp only [not_or, Bool.not_eq_true', Bool.not_eq_false, hP.isprime] at hor
      have hN : P.sea p (m % p) = N p (m % p) := (hP.sea _).resolve_right (fun h => hor.1 h.1)
      rw [hN] at hor ⊢
      have hle := hP.hasse (m % p)
      refine ⟨m, ⟨h.sb, h.scb, h.wptr, h.lt, h.below, rfl, h.a, rfl⟩, hns, rfl, hor.2.1, ?_⟩
      have e : ((N p (m % p) : Int) + ((p : Int) + 1 - (N p (m % p) : Int)) * 2).toNat = 2 * p + 2 - N p (m % p) := by omega
      rw [← e]
      exact hor.2.2
  | 6, ⟨m, h, hns, ho, hpr, htw⟩ =>
    simp only [setup, Prod.mk.injEq, GenRes.ret.injEq] at hg
    obtain ⟨rfl, rfl⟩ := hg
    have hgo : (genGens P w).gorder = N p (m % p) := by
      simp only [genGens]; rw [h.field, h.b]; exact hP.base _ hpr
    have hfi : (genGens P w).field = p := h.field
    simp only [setup, if_pos] at hc
    cases hc with
    | cons h1 hc =>
      cases hc with
      | cons h2 hc =>
        cases hc
        change (0 : Int) < (if Order.checkAnomalous false (genGens P w).field [(genGens P w).gorder] then 1 else -5) at h1
        change (0 : Int) < (if Order.checkGens P.zn (genGens P w).field (genGens P w).gorder then 1 else -5) at h2
        have hchk : Order.checkAnomalous false p [N p (m % p)] = true ∧ Order.checkGens P.zn p (N p (m % p)) = true := by
          rw [← hgo, ← hfi]
          refine ⟨?_, ?_⟩
          · by_contra hh; rw [if_neg hh] at h1; omega
          · by_contra hh; rw [if_neg hh] at h2; omega
        obtain ⟨h3, h4⟩ := (Order.gens_checks_prime P.zn hP.zn p _ hP.prime hpr).1 hchk
        exact ⟨m, ⟨h.sb, h.scb, h.wptr, h.lt, h.below, h.field, h.a, h.b⟩, ⟨hns, hpr, htw, fun e => h3 e.symm, h4⟩, ho, hgo⟩
  | s + 7, h =>
    simp only [setup, Prod.mk.injEq, GenRes.ret.injEq] at hg
    obtain ⟨rfl, rfl⟩ := hg
    have : (setup P p).checks (s + 7) = [] := by simp [setup]
    rw [this] at hc
    cases hc
    exact h

theorem cleaned_id (P : Pari) (lo : Nat) : ∀ i w, cleaned (setup P p) lo i w = w := by
  intro i
  induction i with
  | zero => intro w; rfl
  | succ i ih => 
    intro w
    simp only [cleaned]
    split
    · exact ih w
    · rfl

/-- the invariant is kept by every failing stage -/
theorem inv_back (P : Pari) (hP : PariSpec P N p) (ptr m0 : Nat) (s : Nat) (w : W) (d : Int) (w' : W)
    (h : Inv N p ptr m0 s w) (hs : Fails (setup P p) 0 s w d w') :
    Inv N p ptr m0 (max ((s : Int) + d).toNat 0) w' := by
  match s, h with
  | 0, h | 1, h | 2, h | 3, h =>
    exfalso
    rcases hs with ⟨hg, -⟩ | ⟨hg, hd⟩ | ⟨w1, g, hg, -, hc⟩
    · simp [setup] at hg
    · simp only [setup, Prod.mk.injEq, GenRes.ret.injEq] at hg; omega
    · simp only [setup] at hc; cases hc
  | 4, ⟨m, h⟩ =>
    rcases hs with ⟨hg, -⟩ | ⟨hg, hd⟩ | ⟨w1, g, hg, -, hc⟩
    · simp only [setup, genCurve] at hg; split at hg <;> simp at hg
    · simp only [setup, genCurve] at hg
      split at hg
      · rename_i hs
        simp only [Prod.mk.injEq, GenRes.ret.injEq] at hg
        obtain ⟨rfl, rfl⟩ := hg
        rw [h.field, h.a, h.b, singular_iff p m hP.prime.pos] at hs
        exact h.toBefore (fun hgood => hgood.nonsingular hs)
      · simp only [Prod.mk.injEq, GenRes.ret.injEq] at hg; omega
    · simp only [setup] at hc; cases hc
  | 5, ⟨m, h, hns⟩ =>
    rcases hs with ⟨hg, -⟩ | ⟨hg, hd⟩ | ⟨w1, g, hg, -, hc⟩
    · simp only [setup, genOrder] at hg; split at hg <;> simp at hg
    · simp only [setup, genOrder] at hg
      split at hg
      · rename_i hor
        simp only [Prod.mk.injEq, GenRes.ret.injEq] at hg
        obtain ⟨rfl, rfl⟩ := hg
        refine ⟨h.toBefore (fun hgood => ?_), h.field, h.a⟩
        rw [h.field, h.b] at hor
        have hN : P.sea p (m % p) = N p (m % p) := (hP.sea _).resolve_right (fun h => h.2 hgood.order_prime)
        rw [hN] at hor
        have hle := hP.hasse (m % p)
        have e : ((N p (m % p) : Int) + ((p : Int) + 1 - (N p (m % p) : Int)) * 2).toNat = 2 * p + 2 - N p (m % p) := by omega
        rw [e, (hP.isprime _).2 hgood.order_prime, (hP.isprime _).2 hgood.twist_prime] at hor
        have := hgood.order_prime.pos
        simp at hor
        omega
      · simp only [Prod.mk.injEq, GenRes.ret.injEq] at hg; omega
    · simp only [setup] at hc; cases hc
  | 6, ⟨m, h, hns, ho, hpr, htw⟩ =>
    rcases hs with ⟨hg, -⟩ | ⟨hg, hd⟩ | ⟨w1, g, hg, -, hc⟩
    · simp [setup] at hg
    · simp only [setup, Prod.mk.injEq, GenRes.ret.injEq] at hg; omega
    · simp only [setup, Prod.mk.injEq, GenRes.ret.injEq] at hg
      obtain ⟨rfl, rfl⟩ := hg
      have hgo : (genGens P w).gorder = N p (m % p) := by
        simp only [genGens]; rw [h.field, h.b]; exact hP.base _ hpr
      have hfi : (genGens P w).field = p := h.field
      have hC : Cand N p ptr m0 m (genGens P w) := ⟨h.sb, h.scb, h.wptr, h.lt, h.below, h.field, h.a, h.b⟩
      have hbad : ∀ (hh : ¬ (Order.checkAnomalous false p [N p (m % p)] = true ∧
          Order.checkGens P.zn p (N p (m % p)) = true)), ¬ Good N p m := by
        intro hh hgood
        exact hh ((Order.gens_checks_prime P.zn hP.zn p _ hP.prime hpr).2 ⟨fun e => hgood.not_anomalous e.symm, hgood.embedding⟩)
      simp only [setup, if_pos] at hc
      cases hc with
      | here h1 =>
        simp only [checkAnomalous, hgo, hfi] at h1 ⊢
        split at h1
        · omega
        · rename_i hh
          rw [if_neg hh]
          exact hC.toBefore (hbad (fun hx => hh hx.1))
      | later _ hc =>
        cases hc with
        | here h1 =>
          simp only [checkAnomalous, checkGens, hgo, hfi] at h1 ⊢
          split at h1
          · omega
          · rename_i hh
            rw [if_neg hh]
            exact hC.toBefore (hbad (fun hx => hh hx.2))
        | later _ hc => cases hc
  | s + 7, h =>
    exfalso
    rcases hs with ⟨hg, -⟩ | ⟨hg, hd⟩ | ⟨w1, g, hg, -, hc⟩
    · simp [setup] at hg
    · simp only [setup, Prod.mk.injEq, GenRes.ret.injEq] at hg; omega
    · have : (setup P p).checks (s + 7) = [] := by simp [setup]
      rw [this] at hc
      cases hc

theorem search (P : Pari) (hP : PariSpec P N p) (m0 : Nat) (retry : Int) (fuel : Nat) (w : W) (st : St W)
    (hw : Before N p w.ptr m0 w) (h : genRetry (setup P p) 0 9 retry fuel w = some (1, st)) :
    ∃ m, m0 < m ∧ Good N p m ∧ (∀ b, m0 < b → b < m → ¬ Good N p b) ∧
      st.w.field = p ∧ st.w.a = ((-3 : Int) % (p : Int)).toNat ∧ st.w.b = m % p ∧
      st.w.order = N p (m % p) ∧ st.w.gorder = N p (m % p) := by
  obtain ⟨h1, h2⟩ := search_success_invariant (setup P p) 0 9 retry (Inv N p w.ptr m0)
    (fun s w1 d w2 _ _ hi hs => inv_ok N p P hP w.ptr m0 s w1 d w2 hi hs)
    (fun s w1 d w2 _ _ hi hs _ => by rw [cleaned_id]; exact inv_back N p P hP w.ptr m0 s w1 d w2 hi hs)
    fuel w st hw h
  obtain ⟨k, hk⟩ : ∃ k, st.state = k + 7 := ⟨st.state - 7, by omega⟩
  rw [hk] at h2
  obtain ⟨m, hc, hg, ho, hgo⟩ := h2
  exact ⟨m, hc.lt, hg, hc.below, hc.field, hc.a, hc.b, ho, hgo⟩

/-- **C22**, restricted to a search that finds the static variables unset or set for a curve at another address: `a = -3` and
`b` is the smallest of 1, 2, 3, … for which the curve is non-singular, both orders are prime and the security conditions
hold. Missing from the full claim: independence of earlier curves at the same address, which is false (`nums_history_false`). -/
theorem nums_first_partial (P : Pari) (hP : PariSpec P N p) (sb scb : Option Nat) (ptr : Nat)
    (hs : sb = none ∨ scb ≠ some ptr) (retry : Int) (fuel : Nat) (st : St W)
    (h : genRetry (setup P p) 0 9 retry fuel (fresh sb scb ptr) = some (1, st)) :
    ∃ m, 1 ≤ m ∧ Good N p m ∧ (∀ b, 1 ≤ b → b < m → ¬ Good N p b) ∧
      st.w.field = p ∧ st.w.a = ((-3 : Int) % (p : Int)).toNat ∧ st.w.b = m % p ∧
      st.w.order = N p (m % p) ∧ st.w.gorder = N p (m % p) :=
  search N p P hP 0 retry fuel _ st ⟨rfl, Or.inl ⟨rfl, hs⟩⟩ h

/-- What the program does for a curve object at the address of the previous one: it takes the smallest suitable `b` after
the previous one. -/
theorem nums_next (P : Pari) (hP : PariSpec P N p) (m0 ptr : Nat) (hm : 1 ≤ m0) (retry : Int) (fuel : Nat) (st : St W)
    (h : genRetry (setup P p) 0 9 retry fuel (fresh (some m0) (some ptr) ptr) = some (1, st)) :
    ∃ m, m0 < m ∧ Good N p m ∧ (∀ b, m0 < b → b < m → ¬ Good N p b) ∧
      st.w.field = p ∧ st.w.a = ((-3 : Int) % (p : Int)).toNat ∧ st.w.b = m % p ∧
      st.w.order = N p (m % p) ∧ st.w.gorder = N p (m % p) :=
  search N p P hP m0 retry fuel _ st ⟨rfl, Or.inr ⟨m0, rfl, rfl, le_rfl, hm, fun b h1 h2 => by omega⟩⟩ h

/-! ### Refutation on the field with 7 elements (3 bits) -/

/-- number of points of `y² = x³ - 3x + b` over the integers mod `p`, by counting -/
def count (p b : Nat) : Nat :=
  1 + ((List.range p).map fun x => ((List.range p).filter fun y => (y * y + 3 * x) % p == (x ^ 3 + b) % p).length).sum

def prime? (n : Nat) : Bool := decide (2 ≤ n) && (List.range n).all fun d => decide (d < 2) || n % d != 0

/-- multiplicative order by search -/
def znSearch (p n : Nat) : Nat := ((List.range n).find? fun k => decide (0 < k) && p ^ k % n == 1 % n).getD 1

def small : Pari := ⟨prime?, count, count, znSearch⟩

/-- **C22** is false: with the same bit size, two curves in a row, the second one at the address the first one was freed
from. The first has `b = 1`, the second `b = 6`, while `b = 1` is suitable. -/
theorem nums_history_false :
    ∃ st1 st2, genRetry (setup small 7) 0 9 0 20 (fresh none none 1) = some (1, st1) ∧
      genRetry (setup small 7) 0 9 0 100 (fresh st1.w.sb st1.w.scb 1) = some (1, st2) ∧
      st1.w.b = 1 ∧ st2.w.b = 6 ∧ st1.w.order = 5 ∧ st2.w.order = 11 := by
  have h1 : ((genRetry (setup small 7) 0 9 0 20 (fresh none none 1)).map fun r => (r.1, r.2.w)) =
      some (1, ⟨some 1, some 1, 1, 7, 4, 1, 5, 5⟩) := by decide +kernel
  have h2 : ((genRetry (setup small 7) 0 9 0 100 (fresh (some 1) (some 1) 1)).map fun r => (r.1, r.2.w)) =
      some (1, ⟨some 6, some 1, 1, 7, 4, 6, 11, 11⟩) := by decide +kernel
  obtain ⟨⟨r1, st1⟩, e1, e1'⟩ := Option.map_eq_some_iff.1 h1
  obtain ⟨⟨r2, st2⟩, e2, e2'⟩ := Option.map_eq_some_iff.1 h2
  simp only [Prod.mk.injEq] at e1' e2'
  obtain ⟨rfl, e1'⟩ := e1'
  obtain ⟨rfl, e2'⟩ := e2'
  refine ⟨st1, st2, e1, ?_, ?_⟩
  · rw [e1']; exact e2
  · rw [e1', e2']; simp

/-! ### The hypotheses are met by this instance -/

theorem prime?_iff (n : Nat) : prime? n = true ↔ n.Prime := by
  unfold prime?
  rw [Nat.prime_def_lt']
  simp only [Bool.and_eq_true, decide_eq_true_eq, List.all_eq_true, List.mem_range, Bool.or_eq_true, bne_iff_ne, ne_eq,
    Nat.dvd_iff_mod_eq_zero]
  constructor
  · rintro ⟨h1, h2⟩
    exact ⟨h1, fun m hm hlt => (h2 m hlt).resolve_left (by omega)⟩
  · rintro ⟨h1, h2⟩
    refine ⟨h1, fun m hlt => ?_⟩
    by_cases hm : m < 2
    · exact Or.inl hm
    · exact Or.inr (h2 m (by omega) hlt)

theorem dvd_pow_sub_one {p n k : Nat} (hn : 0 < n) (hc : Nat.Coprime p n) : n ∣ p ^ k - 1 ↔ p ^ k % n = 1 % n := by
  rcases Nat.eq_zero_or_pos p with rfl | hp
  · have : n = 1 := by simpa using hc
    subst this
    simp [Nat.mod_one]
  · have h1 : 1 ≤ p ^ k := Nat.pow_pos hp
    rw [← Nat.modEq_iff_dvd' h1]
    exact ⟨fun h => h.symm, fun h => Nat.ModEq.symm h⟩

theorem znSearch_spec : Order.ZnSpec znSearch := by
  intro p n hn hc
  have key : ∀ k, (decide (0 < k) && p ^ k % n == 1 % n) = true ↔ 0 < k ∧ n ∣ p ^ k - 1 := by
    intro k; rw [dvd_pow_sub_one hn hc]; simp
  unfold znSearch
  cases h : (List.range n).find? fun k => decide (0 < k) && p ^ k % n == 1 % n with
  | none =>
    rw [List.find?_eq_none] at h
    have hn1 : n = 1 := by
      by_contra hne
      have hlt : Nat.totient n < n := Nat.totient_lt n (by omega)
      have := h (Nat.totient n) (List.mem_range.2 hlt)
      apply this
      rw [key]
      refine ⟨Nat.totient_pos.2 hn, ?_⟩
      rw [dvd_pow_sub_one hn hc]
      exact Nat.ModEq.pow_totient hc
    subst hn1
    simp only [Option.getD_none]
    exact ⟨by omega, one_dvd _, fun j h1 h2 => by omega⟩
  | some k =>
    rw [List.find?_range_eq_some] at h
    obtain ⟨h1, h2, h3⟩ := h
    simp only [Option.getD_some]
    have := (key k).1 h1
    refine ⟨this.1, this.2, fun j hj hlt hd => ?_⟩
    have h4 := h3 j hlt
    rw [(key j).2 ⟨hj, hd⟩] at h4
    simp at h4

theorem count_mod (b : Nat) : count 7 b = count 7 (b % 7) := by
  unfold count
  simp only [Nat.add_mod _ b, Nat.add_mod _ (b % 7), Nat.mod_mod]

theorem small_spec : PariSpec small count 7 where
  prime := by decide +kernel
  isprime := prime?_iff
  sea := fun _ => Or.inl rfl
  zn := znSearch_spec
  hasse := by
    intro b
    have h : ∀ r < 7, count 7 r ≤ 2 * 7 + 2 := by decide +kernel
    rw [count_mod]
    exact h _ (Nat.mod_lt _ (by omega))
  base := fun _ _ => rfl

end Ecgen.Nums
