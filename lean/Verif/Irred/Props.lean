import Verif.Irred.Sound
import Verif.Irred.All
import Verif.Poly.Props

/-!
# Reduction polynomials of degree up to 2000 are irreducible (C27)

The full claim is for all degrees up to 10000. The rows of the tables beyond degree 2000 are not checked here: the cost
of the kernel evaluation grows with the cube of the degree.
-/

namespace Ecgen.Irred

open Polynomial Ecgen.Poly

theorem mem_chunks {α : Type} (p : α → Bool) (l : List α) (n k : Nat)
    (h : ∀ j < k, ((l.drop (n * j)).take n).all p = true) : ∀ r ∈ l.take (n * k), p r = true := by
  induction k with
  | zero => intro r hr; simp at hr
  | succ k ih =>
    intro r hr
    rw [Nat.mul_succ, List.take_add] at hr
    rcases List.mem_append.1 hr with hr | hr
    · exact ih (fun j hj => h j (by omega)) r hr
    · exact List.all_eq_true.1 (h k (by omega)) r hr

theorem ansiTri_rows : ∀ r ∈ ansiTrinomials, triRow (levels 8 layout8) (levels 4 layout4) r = true := by
  intro r hr
  refine mem_chunks _ ansiTrinomials 10 96 (fun j hj => tri_all j hj) r ?_
  rwa [List.take_of_length_le (by decide +kernel)]

theorem ansiPenta_rows : ∀ r ∈ ansiPentanomials, pentaRow (levels 8 layout8) (levels 4 layout4) r = true := by
  intro r hr
  refine mem_chunks _ ansiPentanomials 10 89 (fun j hj => penta_all j hj) r ?_
  rwa [List.take_of_length_le (by decide +kernel)]

theorem hpTri_rows : ∀ r ∈ hpTrinomials, r.m < 160 → triRow (levels 8 layout8) (levels 4 layout4) r = true := by
  intro r hr hm
  rw [← List.take_append_drop 97 hpTrinomials] at hr
  rcases List.mem_append.1 hr with hr | hr
  · exact List.all_eq_true.1 hpTri r hr
  · have : (hpTrinomials.drop 97).all (fun r => decide (160 ≤ r.m)) = true := by decide +kernel
    have := of_decide_eq_true (List.all_eq_true.1 this r hr)
    omega

theorem hpPenta_rows : ∀ r ∈ hpPentanomials, r.m < 160 → pentaRow (levels 8 layout8) (levels 4 layout4) r = true := by
  intro r hr hm
  rw [← List.take_append_drop 61 hpPentanomials] at hr
  rcases List.mem_append.1 hr with hr | hr
  · exact List.all_eq_true.1 hpPenta r hr
  · have : (hpPentanomials.drop 61).all (fun r => decide (160 ≤ r.m)) = true := by decide +kernel
    have := of_decide_eq_true (List.all_eq_true.1 this r hr)
    omega

theorem odd_xor (a : Nat) (h : a.testBit 0 = false) : (a ^^^ 1).testBit 0 = true := by
  rw [Nat.testBit_xor, h]; rfl

theorem even_pow (m : Nat) (h : 0 < m) : (2 ^ m).testBit 0 = false := by
  rw [Nat.testBit_two_pow]; exact decide_eq_false (by omega)

theorem natDegree_tri (m e : Nat) (hem : e < m) : (X ^ m + X ^ e + 1 : (ZMod 2)[X]).natDegree = m := by
  have : (X ^ e + 1 : (ZMod 2)[X]).natDegree < m := by
    refine lt_of_le_of_lt (natDegree_add_le _ _) ?_
    rw [natDegree_X_pow, natDegree_one]
    omega
  rw [add_assoc, natDegree_add_eq_left_of_natDegree_lt (by rwa [natDegree_X_pow]), natDegree_X_pow]

theorem natDegree_penta (m e1 e2 e3 : Nat) (hm1 : e1 < m) (hm2 : e2 < m) (hm3 : e3 < m) :
    (X ^ m + X ^ e1 + X ^ e2 + X ^ e3 + 1 : (ZMod 2)[X]).natDegree = m := by
  have : (X ^ e1 + (X ^ e2 + (X ^ e3 + 1)) : (ZMod 2)[X]).natDegree < m := by
    refine lt_of_le_of_lt (natDegree_add_le _ _) (max_lt (by rwa [natDegree_X_pow]) ?_)
    refine lt_of_le_of_lt (natDegree_add_le _ _) (max_lt (by rwa [natDegree_X_pow]) ?_)
    refine lt_of_le_of_lt (natDegree_add_le _ _) (max_lt (by rwa [natDegree_X_pow]) ?_)
    rw [natDegree_one]
    omega
  rw [add_assoc, add_assoc, add_assoc, natDegree_add_eq_left_of_natDegree_lt (by rwa [natDegree_X_pow]),
    natDegree_X_pow]

theorem tri_irreducible (m e : Nat) (he : 0 < e) (hem : e < m)
    (h : testTri (levels 8 layout8) (levels 4 layout4) m e = true) : Irreducible (X ^ m + X ^ e + 1 : (ZMod 2)[X]) := by
  have hP : P ((2 ^ m ^^^ 2 ^ e) ^^^ 1) = X ^ m + X ^ e + 1 := by
    rw [P_xor, P_xor, P_two_pow, P_two_pow, P_one]
  rw [← hP]
  refine test_sound _ (redTri m e) (by rw [hP]; exact reds_tri m e) m (by omega) ?_ ?_ h
  · rw [hP, natDegree_tri m e hem]
  · refine odd_xor _ ?_
    rw [Nat.testBit_xor, even_pow m (by omega), even_pow e he]
    rfl

theorem penta_irreducible (m e1 e2 e3 : Nat) (h1 : 0 < e1) (h2 : 0 < e2) (h3 : 0 < e3) (hm1 : e1 < m) (hm2 : e2 < m)
    (hm3 : e3 < m) (h : testPenta (levels 8 layout8) (levels 4 layout4) m e1 e2 e3 = true) :
    Irreducible (X ^ m + X ^ e1 + X ^ e2 + X ^ e3 + 1 : (ZMod 2)[X]) := by
  have hP : P ((((2 ^ m ^^^ 2 ^ e1) ^^^ 2 ^ e2) ^^^ 2 ^ e3) ^^^ 1) = X ^ m + X ^ e1 + X ^ e2 + X ^ e3 + 1 := by
    rw [P_xor, P_xor, P_xor, P_xor, P_two_pow, P_two_pow, P_two_pow, P_two_pow, P_one]
  rw [← hP]
  refine test_sound _ (redPenta m e1 e2 e3) (by rw [hP]; exact reds_penta m e1 e2 e3) m (by omega) ?_ ?_ h
  · rw [hP, natDegree_penta m e1 e2 e3 hm1 hm2 hm3]
  · refine odd_xor _ ?_
    rw [Nat.testBit_xor, Nat.testBit_xor, Nat.testBit_xor, even_pow m (by omega), even_pow e1 h1, even_pow e2 h2,
      even_pow e3 h3]
    rfl

/-- the lookup answers with a row of one of the two chosen tables -/
theorem find_mem (m : Nat) (r : Row) (h : find m = some r) :
    (r ∈ (chosen m).1 ∧ triOk r = true ∨ r ∈ (chosen m).2 ∧ pentaOk r = true) := by
  obtain ⟨h1, h2, -, -⟩ := chosen_ok m
  unfold find at h
  by_cases he : exists_ m = true
  · rw [if_pos he] at h
    cases hs : bsearch (compare (m % 2 ^ 32)) (chosen m).1 with
    | some x =>
      rw [hs] at h; cases h
      have hx := (bsearch_sound _ _ _ hs).1
      exact Or.inl ⟨hx, (h1 r hx).2⟩
    | none =>
      rw [hs] at h
      have hx := (bsearch_sound _ _ _ h).1
      exact Or.inr ⟨hx, (h2 r hx).2⟩
  · rw [if_neg he] at h; cases h

/-- C27, partial (degrees above 2000 are missing): the polynomial that the tool hands to PARI for a binary field of
degree at most 2000 is irreducible over GF(2). -/
theorem irreducible_partial (m : Nat) (v : List Nat) (h : findGen m = some v) (hm : m ≤ 2000) :
    Irreducible (toPoly v) := by
  unfold findGen at h
  obtain ⟨r, hr, hv⟩ := Option.bind_eq_some_iff.1 h
  obtain ⟨-, -, e, -⟩ := findRow m r hr
  rcases find_mem m r hr with ⟨hmem, hok⟩ | ⟨hmem, hok⟩
  · rw [toPoly_tri r hok v hv]
    obtain ⟨-, p1, l1, -, -⟩ := triOk_bound r hok
    refine tri_irreducible _ _ p1 l1 ?_
    unfold chosen at hmem
    by_cases hc : m < 160 ∨ 2000 < m
    · rw [if_pos hc] at hmem
      exact hpTri_rows r hmem (by omega)
    · rw [if_neg hc] at hmem
      exact ansiTri_rows r hmem
  · rw [toPoly_penta r hok v hv]
    obtain ⟨-, p1, l1, p2, l2, p3, l3, -, -, -⟩ := pentaOk_bound r hok
    refine penta_irreducible _ _ _ _ p1 p2 p3 l1 l2 l3 ?_
    unfold chosen at hmem
    by_cases hc : m < 160 ∨ 2000 < m
    · rw [if_pos hc] at hmem
      exact hpPenta_rows r hmem (by omega)
    · rw [if_neg hc] at hmem
      exact ansiPenta_rows r hmem

/-- C27, partial (degrees above 2000 are missing): polynomials modulo the reduction polynomial are a field with `2 ^ m`
elements. -/
theorem field_partial (m : Nat) (v : List Nat) (h : findGen m = some v) (hm : m ≤ 2000) :
    IsField (AdjoinRoot (toPoly v)) ∧ Nat.card (AdjoinRoot (toPoly v)) = 2 ^ m := by
  have hi := irreducible_partial m v h hm
  have : Fact (Irreducible (toPoly v)) := ⟨hi⟩
  refine ⟨Field.toIsField _, ?_⟩
  have hdeg : (toPoly v).natDegree = m := by
    have hm2 : 2 ≤ m ∧ m ≠ 1060 := by
      unfold findGen at h
      obtain ⟨r, hr, -⟩ := Option.bind_eq_some_iff.1 h
      refine ⟨(findRow m r hr).1, ?_⟩
      rintro rfl
      have := (announced_iff 1060 (by decide)).2 rfl
      rw [hr] at this
      cases this
    obtain ⟨v', hv', ht⟩ := findGen_partial m hm2.1 (by omega) hm2.2
    rw [h, Option.some.injEq] at hv'
    subst hv'
    rcases ht with ⟨a, ha, ham, e⟩ | ⟨a, b, c, ha, ham, hb, hbm, hc, hcm, -, -, -, e⟩
    · rw [e, natDegree_tri m a ham]
    · rw [e, natDegree_penta m a b c ham hbm hcm]
  have : Module.Finite (ZMod 2) (AdjoinRoot (toPoly v)) := (AdjoinRoot.powerBasis hi.ne_zero).finite
  have hc := Module.natCard_eq_pow_finrank (K := ZMod 2) (V := AdjoinRoot (toPoly v))
  rw [hc, Nat.card_zmod, (AdjoinRoot.powerBasis hi.ne_zero).finrank, AdjoinRoot.powerBasis_dim, hdeg]

/-- The hypotheses are met, for example by the degree 163 of a standard curve. -/
theorem irreducible_met : ∃ v, findGen 163 = some v ∧ Irreducible (toPoly v) := by
  obtain ⟨v, hv, -⟩ := findGen_partial 163 (by decide) (by decide) (by decide)
  exact ⟨v, hv, irreducible_partial 163 v hv (by decide)⟩

end Ecgen.Irred
