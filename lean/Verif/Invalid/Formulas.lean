import Mathlib.AlgebraicGeometry.EllipticCurve.Affine.Point
import Mathlib.GroupTheory.OrderOfElement
import Verif.Invalid.Primes

/-!
# Invalid curves are usable for the attack (C45)

An implementation for the original curve computes with the affine formulas of textbooks, which use the coefficient `a` only. Points are
pairs of coordinates, `none` is the point at infinity.
-/

namespace Ecgen.Invalid

/-! ## Specification: a textbook implementation -/

section Textbook

variable {K : Type} [Field K] [DecidableEq K]

/-- addition for curves `y² = x³ + ax + b` over a field of odd characteristic -/
def addPrime (a : K) : Option (K × K) → Option (K × K) → Option (K × K)
  | none, Q => Q
  | P, none => P
  | some (x1, y1), some (x2, y2) =>
    if x1 = x2 ∧ y1 = -y2 then none
    else
      let l := if x1 = x2 then (3 * x1 ^ 2 + a) / (2 * y1) else (y1 - y2) / (x1 - x2)
      let x3 := l ^ 2 - x1 - x2
      some (x3, l * (x1 - x3) - y1)

/-- addition for curves `y² + xy = x³ + ax² + b` over a field of characteristic 2 -/
def addBinary (a : K) : Option (K × K) → Option (K × K) → Option (K × K)
  | none, Q => Q
  | P, none => P
  | some (x1, y1), some (x2, y2) =>
    if x1 = x2 ∧ y1 = x2 + y2 then none
    else
      let l := if x1 = x2 then x1 + y1 / x1 else (y1 + y2) / (x1 + x2)
      let x3 := l ^ 2 + l + x1 + x2 + a
      some (x3, l * (x1 + x3) + x3 + y1)

/-- multiplication by `k` with repeated doubling -/
def mul (add : Option (K × K) → Option (K × K) → Option (K × K)) (k : Nat) (P : Option (K × K)) : Option (K × K) :=
  if h : k = 0 then none
  else
    let D := mul add (k / 2) P
    let D := add D D
    if k % 2 = 1 then add D P else D
  termination_by k
  decreasing_by omega

/-- the curve `y² = x³ + ax + b` -/
def primeCurve (a b : K) : WeierstrassCurve.Affine K := { a₁ := 0, a₂ := 0, a₃ := 0, a₄ := a, a₆ := b }

/-- the curve `y² + xy = x³ + ax² + b` -/
def binaryCurve (a b : K) : WeierstrassCurve.Affine K := { a₁ := 1, a₂ := a, a₃ := 0, a₄ := 0, a₆ := b }

/-- the coordinates of a point -/
def coords {W : WeierstrassCurve.Affine K} : W.Point → Option (K × K)
  | .zero => none
  | .some x y _ => some (x, y)

omit [DecidableEq K] in
theorem coords_injective {W : WeierstrassCurve.Affine K} : Function.Injective (coords (W := W)) := by
  intro P Q h
  cases P with
  | zero =>
    cases Q with
    | zero => rfl
    | some x y hQ => cases h
  | some x y hP =>
    cases Q with
    | zero => cases h
    | some x' y' hQ =>
      simp only [coords, Option.some.injEq, Prod.mk.injEq] at h
      obtain ⟨rfl, rfl⟩ := h
      rfl

/-- the textbook addition is the group law, whatever `b` is -/
theorem addPrime_eq (a b : K) (P Q : (primeCurve a b).Point) : coords (P + Q) = addPrime a (coords P) (coords Q) := by
  cases P with
  | zero =>
    have : (WeierstrassCurve.Affine.Point.zero : (primeCurve a b).Point) = 0 := rfl
    rw [this, zero_add]
    rfl
  | some x1 y1 h1 =>
    cases Q with
    | zero =>
      have : (WeierstrassCurve.Affine.Point.zero : (primeCurve a b).Point) = 0 := rfl
      rw [this, add_zero]
      rfl
    | some x2 y2 h2 =>
      have hneg : ∀ x y : K, (primeCurve a b).negY x y = -y := by
        intro x y; simp [WeierstrassCurve.Affine.negY, primeCurve]
      by_cases hc : x1 = x2 ∧ y1 = -y2
      · rw [WeierstrassCurve.Affine.Point.add_of_Y_eq hc.1 (by rw [hneg]; exact hc.2)]
        simp only [coords, addPrime, if_pos hc]
      · rw [WeierstrassCurve.Affine.Point.add_some (by rw [hneg]; exact hc)]
        simp only [coords, addPrime, if_neg hc]
        have hsl : (primeCurve a b).slope x1 x2 y1 y2 =
            if x1 = x2 then (3 * x1 ^ 2 + a) / (2 * y1) else (y1 - y2) / (x1 - x2) := by
          unfold WeierstrassCurve.Affine.slope
          by_cases hx : x1 = x2
          · rw [if_pos hx, if_pos hx, if_neg (by rw [hneg]; exact fun hy => hc ⟨hx, hy⟩), hneg]
            simp only [primeCurve]
            congr 1 <;> ring
          · rw [if_neg hx, if_neg hx]
        rw [hsl]
        generalize (if x1 = x2 then (3 * x1 ^ 2 + a) / (2 * y1) else (y1 - y2) / (x1 - x2)) = l
        congr 2
        · simp [WeierstrassCurve.Affine.addX, primeCurve]
        · simp only [WeierstrassCurve.Affine.addY, WeierstrassCurve.Affine.negAddY, WeierstrassCurve.Affine.addX, hneg]
          simp only [primeCurve]
          ring

theorem addBinary_eq [CharP K 2] (a b : K) (P Q : (binaryCurve a b).Point) :
    coords (P + Q) = addBinary a (coords P) (coords Q) := by
  have hch : ∀ x : K, -x = x := CharTwo.neg_eq
  have h2 : (2 : K) = 0 := CharTwo.two_eq_zero
  cases P with
  | zero =>
    have : (WeierstrassCurve.Affine.Point.zero : (binaryCurve a b).Point) = 0 := rfl
    rw [this, zero_add]
    rfl
  | some x1 y1 h1 =>
    cases Q with
    | zero =>
      have : (WeierstrassCurve.Affine.Point.zero : (binaryCurve a b).Point) = 0 := rfl
      rw [this, add_zero]
      rfl
    | some x2 y2 h2' =>
      have hneg : ∀ x y : K, (binaryCurve a b).negY x y = x + y := by
        intro x y
        simp only [WeierstrassCurve.Affine.negY, binaryCurve]
        rw [hch y, sub_eq_add_neg, sub_eq_add_neg, hch]
        ring
      by_cases hc : x1 = x2 ∧ y1 = x2 + y2
      · rw [WeierstrassCurve.Affine.Point.add_of_Y_eq hc.1 (by rw [hneg]; exact hc.2)]
        simp only [coords, addBinary, if_pos hc]
      · rw [WeierstrassCurve.Affine.Point.add_some (by rw [hneg]; exact hc)]
        simp only [coords, addBinary, if_neg hc]
        have hsl : (binaryCurve a b).slope x1 x2 y1 y2 =
            if x1 = x2 then x1 + y1 / x1 else (y1 + y2) / (x1 + x2) := by
          unfold WeierstrassCurve.Affine.slope
          by_cases hx : x1 = x2
          · rw [if_pos hx, if_pos hx, if_neg (by rw [hneg]; exact fun hy => hc ⟨hx, hy⟩), hneg]
            simp only [binaryCurve]
            have e1 : 3 * x1 ^ 2 + 2 * a * x1 + 0 - 1 * y1 = x1 * x1 + y1 := by
              rw [sub_eq_add_neg, hch]
              linear_combination (x1 ^ 2 + a * x1) * h2
            have e2 : y1 - (x1 + y1) = x1 := by
              rw [sub_add_cancel_right, hch]
            rw [e1, e2]
            by_cases hx0 : x1 = 0
            · have heq := (WeierstrassCurve.Affine.equation_iff _ _).1 h1.1
              exfalso
              apply hc
              refine ⟨hx, ?_⟩
              -- both points have `x = 0`, so both have the same `y`
              have heq2 := (WeierstrassCurve.Affine.equation_iff _ _).1 h2'.1
              subst hx
              simp only [binaryCurve, hx0] at heq heq2
              have : (y1 - y2) ^ 2 = 0 := by
                linear_combination heq - heq2 - y2 * (y1 - y2) * h2
              have := pow_eq_zero_iff (two_ne_zero) |>.1 this
              rw [hx0]
              linear_combination this
            · field_simp
          · rw [if_neg hx, if_neg hx, sub_eq_add_neg, sub_eq_add_neg, hch, hch]
        rw [hsl]
        generalize (if x1 = x2 then x1 + y1 / x1 else (y1 + y2) / (x1 + x2)) = l
        have ex : (binaryCurve a b).addX x1 x2 l = l ^ 2 + l + x1 + x2 + a := by
          simp only [WeierstrassCurve.Affine.addX, binaryCurve]
          linear_combination -(a + x1 + x2) * h2
        congr 2
        simp only [WeierstrassCurve.Affine.addY, WeierstrassCurve.Affine.negAddY, hneg, ex]
        linear_combination -(l * x1) * h2

theorem mul_eq {W : WeierstrassCurve.Affine K} (add : Option (K × K) → Option (K × K) → Option (K × K))
    (h : ∀ P Q : W.Point, coords (P + Q) = add (coords P) (coords Q)) (k : Nat) (P : W.Point) :
    mul add k (coords P) = coords (k • P) := by
  induction k using Nat.strong_induction_on with
  | _ k ih =>
    unfold mul
    by_cases hk : k = 0
    · rw [dif_pos hk, hk, zero_smul]
      rfl
    · rw [dif_neg hk]
      simp only
      rw [ih (k / 2) (by omega), ← h]
      by_cases hodd : k % 2 = 1
      · rw [if_pos hodd, ← h]
        congr 1
        rw [← add_smul]
        have : k = (k / 2 + k / 2) + 1 := by omega
        conv_rhs => rw [this, add_smul, one_smul]
      · rw [if_neg hodd]
        congr 1
        rw [← add_smul]
        congr 1
        omega

/-- C45: an implementation for a curve with coefficient `a` over a field of odd characteristic, fed with a point `P` of any curve with
the same `a` (`b` is arbitrary, and the implementation does not know it), computes multiples in the group of that curve: its answers
for two scalars agree exactly when the scalars agree modulo the order of `P`. -/
theorem attack_prime (a b : K) (P : (primeCurve a b).Point) (k k' : Nat) :
    mul (addPrime a) k (coords P) = mul (addPrime a) k' (coords P) ↔ k ≡ k' [MOD addOrderOf P] := by
  rw [mul_eq _ (addPrime_eq a b), mul_eq _ (addPrime_eq a b), coords_injective.eq_iff, nsmul_eq_nsmul_iff_modEq]

/-- C45, characteristic 2 -/
theorem attack_binary [CharP K 2] (a b : K) (P : (binaryCurve a b).Point) (k k' : Nat) :
    mul (addBinary a) k (coords P) = mul (addBinary a) k' (coords P) ↔ k ≡ k' [MOD addOrderOf P] := by
  rw [mul_eq _ (addBinary_eq a b), mul_eq _ (addBinary_eq a b), coords_injective.eq_iff, nsmul_eq_nsmul_iff_modEq]

/-- For every prime that divides the order of a curve over a finite field there is a point of that order on the curve. -/
theorem small_point_exists [Finite K] (W : WeierstrassCurve.Affine K) (q : Nat) (hq : q.Prime) (h : q ∣ Nat.card W.Point) :
    ∃ P : W.Point, addOrderOf P = q := by
  have : Finite W.Point := Finite.of_injective _ (coords_injective (W := W))
  have := Fact.mk hq
  exact exists_prime_addOrderOf_dvd_card' q h

end Textbook

/-- The secret is determined by its residues, even if only `x`-coordinates are known: if the product of distinct primes exceeds
`order²`, two secrets below the order which agree up to sign modulo each of the primes are the same. -/
theorem secret_determined (order : Nat) (l : List Nat) (hp : ∀ q ∈ l, q.Prime) (hnd : l.Nodup) (hprod : order ^ 2 < l.prod)
    (k k' : Nat) (hk : k < order) (hk' : k' < order)
    (h : ∀ q ∈ l, (k : Int) ≡ k' [ZMOD q] ∨ (k : Int) ≡ -k' [ZMOD q]) : k = k' := by
  have hdvd : ∀ l : List Nat, (∀ q ∈ l, q.Prime) → l.Nodup →
      (∀ q ∈ l, (k : Int) ≡ k' [ZMOD q] ∨ (k : Int) ≡ -k' [ZMOD q]) → ((l.prod : Nat) : Int) ∣ (k : Int) ^ 2 - (k' : Int) ^ 2 := by
    intro l
    induction l with
    | nil => intro _ _ _; simp
    | cons q l ih =>
      intro hp hnd h
      rw [List.nodup_cons] at hnd
      have h1 := ih (fun r hr => hp r (List.mem_cons_of_mem _ hr)) hnd.2 (fun r hr => h r (List.mem_cons_of_mem _ hr))
      have h2 : (q : Int) ∣ (k : Int) ^ 2 - (k' : Int) ^ 2 := by
        have e : (k : Int) ^ 2 - (k' : Int) ^ 2 = (k - k') * (k + k') := by ring
        rw [e]
        rcases h q List.mem_cons_self with h | h
        · exact Dvd.dvd.mul_right (Int.ModEq.dvd h.symm) _
        · refine Dvd.dvd.mul_left ?_ _
          have := Int.ModEq.dvd h.symm
          rwa [sub_neg_eq_add] at this
      rw [List.prod_cons]
      rw [Nat.cast_mul]
      refine IsCoprime.mul_dvd ?_ h2 h1
      rw [Nat.isCoprime_iff_coprime]
      rw [Nat.Prime.coprime_iff_not_dvd (hp q List.mem_cons_self)]
      intro hq
      obtain ⟨r, hr, hqr⟩ := (Prime.dvd_prod_iff (Nat.Prime.prime (hp q List.mem_cons_self))).1 hq
      rw [Nat.prime_dvd_prime_iff_eq (hp q List.mem_cons_self) (hp r (List.mem_cons_of_mem _ hr))] at hqr
      subst hqr
      exact hnd.1 hr
  have hd := hdvd l hp hnd h
  have hsq : (k : Int) ^ 2 - (k' : Int) ^ 2 = 0 := by
    apply Int.eq_zero_of_abs_lt_dvd hd
    have hP : ((order : Int)) ^ 2 < ((l.prod : Nat) : Int) := by exact_mod_cast hprod
    have a : (k : Int) ^ 2 ≤ (order : Int) ^ 2 := by
      have : k ^ 2 ≤ order ^ 2 := Nat.pow_le_pow_left hk.le 2
      exact_mod_cast this
    have b : (k' : Int) ^ 2 ≤ (order : Int) ^ 2 := by
      have : k' ^ 2 ≤ order ^ 2 := Nat.pow_le_pow_left hk'.le 2
      exact_mod_cast this
    rw [abs_lt]
    constructor <;> nlinarith [sq_nonneg (k : Int), sq_nonneg (k' : Int)]
  have : (k : Int) ^ 2 = (k' : Int) ^ 2 := by linarith
  have : k ^ 2 = k' ^ 2 := by exact_mod_cast this
  exact Nat.pow_left_injective (by norm_num : 2 ≠ 0) this

/-- the primes selected without a range determine the secret -/
theorem selected_determine (np : Nat → Nat) (hnp : NextSpec np) (order : Nat) (ho : 0 < order)
    (hb : order ^ 2 < primorial (2 ^ 62)) :
    ∃ fuel l, invalidPrimes np order none fuel = some l ∧ ∀ k k', k < order → k' < order →
      (∀ q ∈ l, (k : Int) ≡ k' [ZMOD q] ∨ (k : Int) ≡ -k' [ZMOD q]) → k = k' := by
  obtain ⟨fuel, l, h1, ⟨n, init, hl, hp, -⟩, h2⟩ := no_range_partial np hnp order ho hb
  exact ⟨fuel, l, h1, fun k k' hk hk' h =>
    secret_determined order l (fun q hq => ((hp.2 q).1 hq).1) (hp.1.imp (fun h => Nat.ne_of_lt h)) h2 k k' hk hk' h⟩

local instance : Fact (Nat.Prime 5) := ⟨by norm_num⟩

/-- the point (0, 2) of `y² = x³ + x + 4` over GF(5) is nonsingular, so the theorems apply to it; it is not on `y² = x³ + x + 1` -/
example : (primeCurve (1 : ZMod 5) 4).Nonsingular 0 2 ∧ ¬ (primeCurve (1 : ZMod 5) 1).Equation 0 2 := by
  rw [WeierstrassCurve.Affine.nonsingular_iff, WeierstrassCurve.Affine.equation_iff, WeierstrassCurve.Affine.equation_iff]
  simp only [primeCurve]
  decide

end Ecgen.Invalid
