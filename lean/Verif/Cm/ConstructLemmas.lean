import Verif.Cm.Construct
import Verif.Count.Lemmas
import Verif.Bits.Props
import Mathlib.Tactic.Linarith
import Mathlib.Tactic.NormNum.Prime

/-!
# Lemmas about the CM construction
-/

namespace Ecgen.Cm.Construct

open Ecgen.Invalid (addPrime primeCurve coords coords_injective addPrime_eq)

/-! ## Points -/

section Points

variable {K : Type} [Field K] [DecidableEq K]

theorem ellmul_coords (a b : K) (n : Nat) (P : (primeCurve a b).Point) : ellmul a n (coords P) = coords (n • P) := by
  induction n with
  | zero => rw [zero_smul]; rfl
  | succ n ih =>
    unfold ellmul at ih ⊢
    rw [Function.iterate_succ_apply', ih, ← addPrime_eq a b, succ_nsmul']

omit [DecidableEq K] in
theorem coords_none {W : WeierstrassCurve.Affine K} (P : W.Point) : coords P = none ↔ P = 0 := by
  cases P with
  | zero => exact ⟨fun _ => rfl, fun _ => rfl⟩
  | some x y h => exact ⟨fun h => (by cases h), fun h => (by cases h)⟩

omit [DecidableEq K] in
theorem elliptic (h2 : (2 : K) ≠ 0) (a b : K) (h : Regular (a, b)) : (primeCurve a b).IsElliptic := by
  rw [WeierstrassCurve.isElliptic_iff, isUnit_iff_ne_zero]
  have e : (primeCurve a b).Δ = -(2 ^ 4) * (4 * a ^ 3 + 27 * b ^ 2) := by
    simp only [WeierstrassCurve.Δ, WeierstrassCurve.b₂, WeierstrassCurve.b₄, WeierstrassCurve.b₆, WeierstrassCurve.b₈, primeCurve]
    ring
  rw [e]
  exact mul_ne_zero (neg_ne_zero.2 (pow_ne_zero 4 h2)) h

omit [DecidableEq K] in
theorem equation_prime (a b x y : K) : (primeCurve a b).Equation x y ↔ y ^ 2 = x ^ 3 + a * x + b := by
  rw [WeierstrassCurve.Affine.equation_iff]
  simp only [primeCurve]
  constructor <;> intro h <;> linear_combination h

theorem natCard_point [Fintype K] (h2 : (2 : K) ≠ 0) (a b : K) (h : Regular (a, b)) :
    Nat.card (primeCurve a b).Point = Count.card a b := by
  have := elliptic h2 a b h
  rw [Nat.card_congr (WeierstrassCurve.Affine.pointEquiv (primeCurve a b))]
  rw [show WithZero {xy : K × K // (primeCurve a b).Equation xy.1 xy.2} = Option {xy : K × K // (primeCurve a b).Equation xy.1 xy.2} from rfl]
  rw [Finite.card_option]
  unfold Count.card
  congr 1
  have e : {xy : K × K // (primeCurve a b).Equation xy.1 xy.2} ≃ {xy : K × K // xy.2 ^ 2 = xy.1 ^ 3 + a * xy.1 + b} :=
    Equiv.subtypeEquivRight (fun xy => equation_prime a b xy.1 xy.2)
  rw [Nat.card_congr e, Nat.card_eq_fintype_card, Fintype.card_subtype]

omit [DecidableEq K] in
/-- an affine point as a point of the group -/
theorem exists_point (h2 : (2 : K) ≠ 0) (a b : K) (h : Regular (a, b)) (x y : K) (hxy : y ^ 2 = x ^ 3 + a * x + b) :
    ∃ P : (primeCurve a b).Point, coords P = some (x, y) ∧ P ≠ 0 := by
  have := elliptic h2 a b h
  refine ⟨.mk ((equation_prime a b x y).2 hxy), rfl, fun h => ?_⟩
  exact absurd h (WeierstrassCurve.Affine.Point.some_ne_zero _)

/-- what a vanishing multiple of an affine point says about the number of points -/
theorem vanishing [Fintype K] (h2 : (2 : K) ≠ 0) (a b : K) (h : Regular (a, b)) (x y : K) (hxy : y ^ 2 = x ^ 3 + a * x + b) (n : Nat)
    (hn : ellmul a n (some (x, y)) = none) : ∃ d, 1 < d ∧ d ∣ n ∧ d ∣ Count.card a b := by
  obtain ⟨P, hP, h0⟩ := exists_point h2 a b h x y hxy
  rw [← hP, ellmul_coords a b, coords_none] at hn
  have hfin : Finite (primeCurve a b).Point := Finite.of_injective _ (coords_injective (W := primeCurve a b))
  refine ⟨addOrderOf P, ?_, addOrderOf_dvd_of_nsmul_eq_zero hn, ?_⟩
  · have h1 : addOrderOf P ≠ 1 := fun e => h0 (AddMonoid.addOrderOf_eq_one_iff.1 e)
    have h3 := addOrderOf_pos P
    omega
  · rw [← natCard_point h2 a b h]
    exact addOrderOf_dvd_natCard P

/-- the number of points is a multiple of the order of each point -/
theorem vanishes [Fintype K] (h2 : (2 : K) ≠ 0) (a b : K) (h : Regular (a, b)) (x y : K) (hxy : y ^ 2 = x ^ 3 + a * x + b) :
    ellmul a (Count.card a b) (some (x, y)) = none := by
  obtain ⟨P, hP, -⟩ := exists_point h2 a b h x y hxy
  rw [← hP, ellmul_coords a b, coords_none, ← natCard_point h2 a b h, card_nsmul_eq_zero']

/-- more than one point: there is an affine one -/
theorem exists_affine [Fintype K] (a b : K) (h : 1 < Count.card a b) : ∃ x y : K, y ^ 2 = x ^ 3 + a * x + b := by
  unfold Count.card at h
  have : 0 < (Finset.univ.filter fun q : K × K => q.2 ^ 2 = q.1 ^ 3 + a * q.1 + b).card := by omega
  obtain ⟨⟨x, y⟩, hq⟩ := Finset.card_pos.1 this
  exact ⟨x, y, (Finset.mem_filter.1 hq).2⟩

end Points

theorem two_ne (p : Nat) [hp : Fact p.Prime] (h : 2 < p) : (2 : ZMod p) ≠ 0 := by
  intro h0
  have : ((2 : Nat) : ZMod p) = 0 := by exact_mod_cast h0
  rw [ZMod.natCast_eq_zero_iff] at this
  exact absurd (Nat.le_of_dvd (by norm_num) this) (by omega)

theorem ringChar_ne (p : Nat) [Fact p.Prime] (h : 2 < p) : ringChar (ZMod p) ≠ 2 := by
  rw [ZMod.ringChar_zmod_n]
  omega

/-! ## Curves with j-invariant 0 -/

/-- `y² = x³ + c³` has a point of order two, so its number of points is even -/
theorem card_cube_even (p : Nat) [Fact p.Prime] (hp : 2 < p) (c : ZMod p) (hc : Regular (0, c ^ 3)) :
    2 ∣ Count.card 0 (c ^ 3) := by
  have h : (0 : ZMod p) ^ 2 = (-c) ^ 3 + 0 * (-c) + c ^ 3 := by ring
  have hv : ellmul (0 : ZMod p) 2 (some (-c, 0)) = none := by
    show addPrime 0 (some (-c, 0)) (addPrime 0 (some (-c, 0)) none) = none
    simp [addPrime]
  obtain ⟨d, h1, h2, h3⟩ := vanishing (two_ne p hp) 0 (c ^ 3) hc (-c) 0 h 2 hv
  have : d = 2 := by
    have := Nat.le_of_dvd (by norm_num) h2
    omega
  rwa [this] at h3

/-! ## Arithmetic -/

/-- the Hasse interval around `p` and the order, with the discriminant as witness -/
theorem bounds (N p : Nat) (D v s : Int) (hs : s = p + 1 - N) (hD : D < 0) (h : 4 * (p : Int) = s ^ 2 + (-D) * v ^ 2) :
    (p + 1 - (N : Int)) ^ 2 ≤ 4 * p := by
  subst hs
  nlinarith [mul_nonneg (by omega : (0 : Int) ≤ -D) (sq_nonneg v)]

theorem interval (N p : Nat) (hN : 50 ≤ N) (h : (p + 1 - (N : Int)) ^ 2 ≤ 4 * p) : 37 ≤ p ∧ 2 * (p + 1) < 3 * N ∧ N ≤ 2 * p := by
  have h37 : 37 ≤ p := by
    by_contra hlt
    have h1 : (p : Int) ≤ 36 := by omega
    have h2 : (50 : Int) ≤ N := by exact_mod_cast hN
    have h3 : (0 : Int) ≤ p := Int.natCast_nonneg p
    have h4 : (13 : Int) ≤ (N : Int) - (p + 1) := by omega
    nlinarith
  have hp : (37 : Int) ≤ p := by exact_mod_cast h37
  refine ⟨h37, ?_, ?_⟩
  · by_contra hle
    have h1 : 3 * (N : Int) ≤ 2 * (p + 1) := by exact_mod_cast not_lt.1 hle
    nlinarith
  · by_contra hlt
    have h1 : 2 * (p : Int) < N := by exact_mod_cast not_le.1 hlt
    nlinarith

/-! ## The requested order -/

theorem fields_eq (s : List Char) : fields s = s.splitOn ',' := by
  unfold List.splitOn
  induction s with
  | nil => rfl
  | cons c s ih =>
    rw [fields, List.splitOnP_cons_eq_if_modifyHead, ih]
    by_cases h : c = ','
    · rw [if_pos h, if_pos (by simpa using h)]
    · rw [if_neg h, if_neg (by simpa using h)]
      have := List.splitOnP_ne_nil (fun x => x == ',') s
      cases hs : s.splitOnP fun x => x == ',' with
      | nil => exact absurd hs this
      | cons f fs => rfl

theorem fields_length (s : List Char) : (fields s).length = s.count ',' + 1 := by
  induction s with
  | nil => rfl
  | cons c s ih =>
    have hne : fields s ≠ [] := by
      intro h
      rw [h] at ih
      simp at ih
    unfold fields
    by_cases h : c = ','
    · rw [if_pos h, List.length_cons, ih, h, List.count_cons_self]
    · rw [if_neg h, List.count_cons_of_ne h, ← ih]
      cases hs : fields s with
      | nil => exact absurd hs hne
      | cons f fs => rfl

theorem fillFactors_spec (strtoi : List Char → Nat) (size : Nat) (l : List (List Char)) : ∀ acc,
    acc.length + l.length ≤ size → fillFactors strtoi size l acc = some (acc ++ l.map strtoi) := by
  induction l with
  | nil => intro acc _; simp [fillFactors]
  | cons f fs ih =>
    intro acc h
    rw [List.length_cons] at h
    unfold fillFactors
    rw [if_pos (by omega), ih _ (by rw [List.length_append]; simp; omega)]
    simp

/-! ## The searches -/

theorem selected_some (Sp : List Int) (i : Nat) (h : i < 2 ^ Sp.length) :
    ∃ l : List Bool, l.length = Sp.length ∧ Bits.ofBits l = i ∧
      selected Sp i = some ((Sp.zip l).foldl (fun a q => if q.2 then a * q.1 else a) 1) := by
  obtain ⟨r, hr, hw, hl, hv, -⟩ := Bits.fromILen_fits (i : Int) Sp.length (by simpa using h)
  refine ⟨r.val, by rw [Bits.val_length, hl], by simpa using hv, ?_⟩
  unfold selected
  rw [hr]
  simp only [Option.bind_some]
  obtain ⟨y, hy, hP⟩ := forN_inv (f := fun j pprod => (Bits.getBit r.bits j).map fun v => if v = 1 then pprod * Sp.getD j 0 else pprod)
    (P := fun k a => a = ((Sp.zip r.val).take k).foldl (fun a q => if q.2 then a * q.1 else a) 1) (n := Sp.length) (a := 1) rfl
    (by
      intro k x hk hx
      have hpos := Bits.wf_pos hw (i := k) (by rw [hl]; exact hk)
      rw [Bits.getBit_eq hpos]
      refine ⟨_, rfl, ?_⟩
      have hlen : k < (Sp.zip r.val).length := by rw [List.length_zip, Bits.val_length, hl]; omega
      rw [List.take_add_one, List.foldl_append, ← hx, List.getElem?_eq_getElem hlen]
      simp only [Option.toList_some, List.foldl_cons, List.foldl_nil, List.getElem_zip]
      rw [Bits.val_getElem]
      rw [List.getD_eq_getElem _ _ hk]
      by_cases hb : Bits.bitAt r.bits k = true
      · rw [hb]; simp [Bits.b2b_true]
      · have hb' : Bits.bitAt r.bits k = false := by simpa using hb
        rw [hb']; simp [Bits.b2b_false])
  rw [hy, hP, List.take_of_length_le (by rw [List.length_zip, Bits.val_length, hl]; omega)]

end Ecgen.Cm.Construct
