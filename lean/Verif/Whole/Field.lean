import Verif.Whole.Spec
import Verif.Output.Props
import Verif.Invalid.Formulas
import Mathlib.FieldTheory.Finiteness
import Mathlib.RingTheory.PowerBasis
import Mathlib.Data.Nat.Bitwise
import Mathlib.Data.Nat.Size

/-!
# Numbers and field elements
-/

namespace Ecgen.Whole

open Polynomial Output Output.Spec

/-! ## The reduction polynomial -/

theorem middle_degree (m : Nat) (l : List Nat) (h : ∀ e ∈ l, e < m) : ((l.map fun e => (X : (ZMod 2)[X]) ^ e).sum).degree < (m : WithBot ℕ) := by
  induction l with
  | nil => simp
  | cons e l ih =>
    rw [List.map_cons, List.sum_cons]
    refine lt_of_le_of_lt (degree_add_le _ _) (max_lt ?_ (ih fun e he => h e (by simp [he])))
    rw [degree_X_pow]
    exact_mod_cast h e (by simp)

theorem modulus_monic (m e1 e2 e3 : Nat) (h : Shape m e1 e2 e3) : (modulus m e1 e2 e3).Monic ∧ (modulus m e1 e2 e3).natDegree = m := by
  obtain ⟨h1, h2, h3⟩ := h
  have hlt : (((([e1, e2, e3].filter (· ≠ 0)).map fun e => (X : (ZMod 2)[X]) ^ e).sum) + 1).degree < (m : WithBot ℕ) := by
    refine lt_of_le_of_lt (degree_add_le _ _) (max_lt (middle_degree m _ ?_) ?_)
    · intro e he
      have := (List.mem_filter.1 he).1
      simp only [List.mem_cons, List.not_mem_nil, or_false] at this
      omega
    · rw [degree_one]; exact_mod_cast (by omega : 0 < m)
  have e : modulus m e1 e2 e3 = X ^ m + (((([e1, e2, e3].filter (· ≠ 0)).map fun e => (X : (ZMod 2)[X]) ^ e).sum) + 1) := by
    unfold modulus; rw [add_assoc]
  rw [e]
  refine ⟨monic_X_pow_add hlt, ?_⟩
  rw [natDegree_add_eq_left_of_degree_lt (by rwa [degree_X_pow]), natDegree_X_pow]

/-! ## Numbers -/

theorem bitPoly_coeff (n i : Nat) : (bitPoly n).coeff i = if n.testBit i then 1 else 0 := by
  unfold bitPoly
  rw [finsetSum_coeff]
  have : ∀ j ∈ Finset.range n.size, (if n.testBit j then (X : (ZMod 2)[X]) ^ j else 0).coeff i = if j = i then (if n.testBit i then 1 else 0) else 0 := by
    intro j _
    by_cases hj : j = i
    · subst hj
      split <;> simp
    · rw [if_neg hj]
      split
      · rw [coeff_X_pow, if_neg (Ne.symm hj)]
      · exact coeff_zero i
  rw [Finset.sum_congr rfl this, Finset.sum_ite_eq']
  by_cases hi : i < n.size
  · rw [if_pos (Finset.mem_range.2 hi)]
  · rw [if_neg (by simpa using hi)]
    have : n.testBit i = false := Nat.testBit_lt_two_pow (Nat.size_le.1 (by omega))
    rw [this]; rfl

theorem zmod2 (c : ZMod 2) : c = if c = 1 then 1 else 0 := by revert c; decide

theorem exists_bits (d : Nat) (r : (ZMod 2)[X]) (h : r.degree < (d : WithBot ℕ)) : ∃ n < 2 ^ d, bitPoly n = r := by
  refine ⟨Nat.ofBits fun i : Fin d => decide (r.coeff i = 1), Nat.ofBits_lt_two_pow _, ?_⟩
  ext i
  rw [bitPoly_coeff]
  by_cases hi : i < d
  · rw [Nat.testBit_ofBits_lt _ _ hi, zmod2 (r.coeff i)]
    simp only [decide_eq_true_eq]
    split <;> simp_all
  · rw [Nat.testBit_ofBits_ge _ _ (by omega), coeff_eq_zero_of_degree_lt (lt_of_lt_of_le h (by exact_mod_cast (by omega)))]
    rfl

/-- every element of the field is the element of a number below its size -/
theorem elem_surjective (f : Fld) (x : Carrier f) : ∃ n < fieldSize f.1, elem f n = x := by
  match f, x with
  | ⟨.prime p, h⟩, x =>
    have : NeZero p := ⟨(show p.Prime from h).ne_zero⟩
    exact ⟨ZMod.val (n := p) x, ZMod.val_lt (n := p) x, ZMod.natCast_zmod_val (n := p) x⟩
  | ⟨.binary m e1 e2 e3, h⟩, x =>
    obtain ⟨hm, hd⟩ := modulus_monic m e1 e2 e3 h.1
    obtain ⟨g, hg⟩ := AdjoinRoot.mk_surjective (g := modulus m e1 e2 e3) x
    have hlt : (g %ₘ modulus m e1 e2 e3).degree < (m : WithBot ℕ) := by
      have := degree_modByMonic_lt g hm
      rwa [degree_eq_natDegree hm.ne_zero, hd] at this
    obtain ⟨n, h1, h2⟩ := exists_bits m _ hlt
    refine ⟨n, h1, ?_⟩
    change AdjoinRoot.mk (modulus m e1 e2 e3) (bitPoly n) = x
    rw [h2, ← hg, AdjoinRoot.mk_eq_mk, modByMonic_eq_sub_mul_div]
    exact ⟨-(g /ₘ modulus m e1 e2 e3), by ring⟩

instance (f : Fld) : Finite (Carrier f) :=
  Finite.of_surjective (fun i : Fin (fieldSize f.1) => elem f i) fun x => by
    obtain ⟨n, h, e⟩ := elem_surjective f x
    exact ⟨⟨n, h⟩, e⟩

/-- the number of an element -/
noncomputable def num (f : Fld) (x : Carrier f) : Nat := Classical.choose (elem_surjective f x)

theorem num_lt (f : Fld) (x : Carrier f) : num f x < fieldSize f.1 := (Classical.choose_spec (elem_surjective f x)).1
theorem elem_num (f : Fld) (x : Carrier f) : elem f (num f x) = x := (Classical.choose_spec (elem_surjective f x)).2

theorem elem_zero (f : Fld) : elem f 0 = 0 := by
  match f with
  | ⟨.prime p, h⟩ => exact Nat.cast_zero (R := ZMod p)
  | ⟨.binary m e1 e2 e3, h⟩ =>
    change AdjoinRoot.mk (modulus m e1 e2 e3) (bitPoly 0) = 0
    have : bitPoly 0 = 0 := by simp [bitPoly]
    rw [this, map_zero]

theorem elem_one (f : Fld) : elem f 1 = 1 := by
  match f with
  | ⟨.prime p, h⟩ => exact Nat.cast_one (R := ZMod p)
  | ⟨.binary m e1 e2 e3, h⟩ =>
    change AdjoinRoot.mk (modulus m e1 e2 e3) (bitPoly 1) = 1
    have : bitPoly 1 = 1 := by
      ext i
      rw [bitPoly_coeff, coeff_one]
      cases i with
      | zero => rfl
      | succ i => simp [Nat.testBit_succ]
    rw [this, map_one]

theorem one_lt_size (f : Fld) : 1 < fieldSize f.1 := by
  match f with
  | ⟨.prime p, h⟩ => exact (show p.Prime from h).one_lt
  | ⟨.binary m e1 e2 e3, h⟩ => exact Nat.one_lt_two_pow (by have := h.1.1; omega)

/-- the number of elements -/
theorem card_carrier (f : Fld) : Nat.card (Carrier f) = fieldSize f.1 := by
  match f with
  | ⟨.prime p, h⟩ => exact Nat.card_zmod p
  | ⟨.binary m e1 e2 e3, h⟩ =>
    obtain ⟨hm, hd⟩ := modulus_monic m e1 e2 e3 h.1
    change Nat.card (AdjoinRoot (modulus m e1 e2 e3)) = 2 ^ m
    have hf : Module.Finite (ZMod 2) (AdjoinRoot (modulus m e1 e2 e3)) := (AdjoinRoot.powerBasis' hm).finite
    rw [Module.natCard_eq_pow_finrank (K := ZMod 2), Nat.card_zmod, (AdjoinRoot.powerBasis' hm).finrank, AdjoinRoot.powerBasis'_dim, hd]

/-- numbers below the size stand for different elements -/
theorem elem_injective (f : Fld) (n k : Nat) (hn : n < fieldSize f.1) (hk : k < fieldSize f.1) (h : elem f n = elem f k) : n = k := by
  have hb : Function.Bijective fun i : Fin (fieldSize f.1) => elem f i := by
    refine (Nat.bijective_iff_surjective_and_card _).2 ⟨fun x => ?_, by rw [card_carrier, Nat.card_fin]⟩
    obtain ⟨n, h, e⟩ := elem_surjective f x
    exact ⟨⟨n, h⟩, e⟩
  have := hb.1 (a₁ := ⟨n, hn⟩) (a₂ := ⟨k, hk⟩) h
  simpa using this

/-! ## PARI's representation -/

/-- a field in the representation of the printing code; the coefficients of the modulus from the highest degree on -/
def out : FieldV → Output.Field
  | .prime p => .prime p
  | .binary m e1 e2 e3 => .binary ((List.range (m + 1)).reverse.map fun i => decide (i ∈ [m, e1, e2, e3, 0]))

theorem size_out (f : FieldV) : Output.Spec.size (out f) = fieldSize f := by
  cases f with
  | prime p => rfl
  | binary m e1 e2 e3 => simp [out, Output.Spec.size, fieldSize]

theorem out_ne (f : FieldV) : ∀ m, out f = .binary m → m ≠ [] := by
  intro m h
  cases f with
  | prime p => cases h
  | binary m e1 e2 e3 =>
    cases h
    simp

/-- two strictly decreasing lists with the same members are the same -/
theorem decreasing_ext : ∀ (l l' : List Nat), l.Pairwise (· > ·) → l'.Pairwise (· > ·) → (∀ x, x ∈ l ↔ x ∈ l') → l = l' := by
  intro l l' h h' he
  exact (List.perm_of_nodup_nodup_toFinset_eq (h.imp fun h => Nat.ne_of_gt h) (h'.imp fun h => Nat.ne_of_gt h)
    (by ext x; simpa using he x)).eq_of_pairwise (fun a b _ _ h1 h2 => absurd h1 (by omega)) h h'

theorem exponents_out (m e1 e2 e3 : Nat) (h : Shape m e1 e2 e3) :
    exponents ((List.range (m + 1)).reverse.map fun i => decide (i ∈ [m, e1, e2, e3, 0])) = [m, e1, e2, e3].filter (· ≠ 0) := by
  obtain ⟨h1, h2, h3⟩ := h
  apply decreasing_ext
  · unfold exponents
    refine List.Pairwise.filter _ ?_
    rw [List.pairwise_reverse]
    exact List.pairwise_lt_range
  · rcases h2 with h2 | rfl
    · rcases h3 with h3 | rfl
      · refine List.Pairwise.filter _ ?_
        simp; omega
      · rw [show [m, e1, e2, 0].filter (· ≠ 0) = [m, e1, e2].filter (· ≠ 0) by simp [List.filter_cons]]
        refine List.Pairwise.filter _ ?_
        simp; omega
    · have : e3 = 0 := by omega
      subst this
      rw [show [m, e1, 0, 0].filter (· ≠ 0) = [m, e1].filter (· ≠ 0) by simp [List.filter_cons]]
      refine List.Pairwise.filter _ ?_
      simp; omega
  · intro x
    simp only [exponents, List.length_map, List.length_reverse, List.length_range, List.mem_filter, List.mem_reverse, List.mem_range]
    constructor
    · rintro ⟨hx, hd⟩
      have hd := of_decide_eq_true hd
      refine ⟨?_, by simpa using hd.1⟩
      have hg := hd.2
      rw [← List.map_reverse, List.reverse_reverse, List.getD_eq_getElem?_getD] at hg
      simp [hx] at hg
      simp; omega
    · rintro ⟨hx, hd⟩
      have hd : x ≠ 0 := by simpa using hd
      have hlt : x < m + 1 := by
        simp at hx; omega
      refine ⟨hlt, decide_eq_true ⟨hd, ?_⟩⟩
      rw [← List.map_reverse, List.reverse_reverse, List.getD_eq_getElem?_getD]
      simp [hlt]
      simp at hx; omega

theorem fieldV_out (f : Fld) : Output.Spec.fieldV (out f.1) = f.1 := by
  match f with
  | ⟨.prime p, h⟩ => rfl
  | ⟨.binary m e1 e2 e3, h⟩ =>
    obtain ⟨h1, h2, h3⟩ := h.1
    have hm : m ≠ 0 := by omega
    simp only [out, fieldV, exponents_out m e1 e2 e3 h.1]
    by_cases he1 : e1 = 0
    · have : e2 = 0 := by omega
      have : e3 = 0 := by omega
      subst_vars
      simp [hm]
    by_cases he2 : e2 = 0
    · have : e3 = 0 := by omega
      subst_vars
      simp [hm, he1]
    by_cases he3 : e3 = 0
    · subst_vars
      simp [hm, he1, he2]
    · simp [hm, he1, he2, he3]

/-- the modulus has at most four terms besides the constant one -/
theorem terms_out (f : Fld) : ∀ m, out f.1 = .binary m → m.dropLast.count true ≤ 4 := by
  match f with
  | ⟨.prime p, h⟩ => intro m hm; cases hm
  | ⟨.binary m e1 e2 e3, h⟩ =>
    intro l hl
    have hl : l = (List.range (m + 1)).reverse.map fun i => decide (i ∈ [m, e1, e2, e3, 0]) := by
      simpa [out] using hl.symm
    subst hl
    have e : ((List.range (m + 1)).reverse.map fun i => decide (i ∈ [m, e1, e2, e3, 0])).dropLast =
        ((List.range m).map (· + 1)).reverse.map fun i => decide (i ∈ [m, e1, e2, e3, 0]) := by
      rw [List.range_succ_eq_map, List.reverse_cons, List.map_append, List.map_singleton, List.dropLast_concat]
    rw [e, List.count_eq_countP, List.countP_map, List.countP_eq_length_filter]
    have hsub : ((((List.range m).map (· + 1)).reverse).filter ((fun x => x == true) ∘ fun i => decide (i ∈ [m, e1, e2, e3, 0]))).length ≤
        [m, e1, e2, e3].length := by
      apply List.Subperm.length_le
      apply List.subperm_of_subset
      · refine List.Nodup.filter _ (List.nodup_reverse.2 ((List.nodup_range).map fun a b h => by simpa using h))
      · intro x hx
        rw [List.mem_filter, List.mem_reverse, List.mem_map] at hx
        obtain ⟨⟨y, -, rfl⟩, hx⟩ := hx
        simpa using hx
    exact hsub

/-- the number of an element as an element in PARI's representation -/
theorem ielement_out (f : Fld) (n : Nat) (h : n < fieldSize f.1) : ∃ e, ielement (out f.1) n = some e ∧ Elem (out f.1) e ∧ eltV e = n := by
  obtain ⟨e, h1, h2, h3, -⟩ := ielement_elementi (out f.1) n (by rwa [size_out]) (out_ne f.1)
  exact ⟨e, h1, h2, h3⟩

theorem eltV_lt (f : Fld) (e : Elt) (h : Elem (out f.1) e) : eltV e < fieldSize f.1 := by
  have := (elementi_ielement (out f.1) e h).1
  rwa [elementi_eq, size_out] at this

/-! ## The group of points -/

instance (f : Fld) (E : WeierstrassCurve.Affine (Carrier f)) : Finite E.Point :=
  Finite.of_injective _ (Invalid.coords_injective (W := E))

end Ecgen.Whole
