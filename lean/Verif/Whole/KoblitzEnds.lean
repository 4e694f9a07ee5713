import Verif.Whole.Alive
import Verif.Unsat.KoblitzProps
import Mathlib.Tactic.ComputeDegree
import Mathlib.Algebra.Polynomial.SpecificDegree

/-!
# Searches for Koblitz curves over binary fields (C74, from the command line)
-/

namespace Ecgen.Whole

open Output Output.Spec Cli
open Engine (St Reaches)

theorem kcurve_delta {K : Type} [_root_.Field K] (h2 : (2 : K) = 0) (a : K) : (kcurve a).Δ ≠ 0 := by
  have e : (kcurve a).Δ = -1 := by
    simp only [kcurve, WeierstrassCurve.Δ, WeierstrassCurve.b₂, WeierstrassCurve.b₄, WeierstrassCurve.b₆, WeierstrassCurve.b₈]
    linear_combination (-6 * a - 24 * a ^ 2 - 32 * a ^ 3 - 216) * h2
  rw [e]
  exact neg_ne_zero.2 one_ne_zero

/-- the Koblitz curve over a binary field of degree `m` is nonsingular, and its number of points is given by Weil's formula -/
theorem koblitz_binary (m e1 e2 e3 : Nat) (h : Good (.binary m e1 e2 e3)) (a : Nat) (ha : a = 0 ∨ a = 1) :
    (numbered ⟨.binary m e1 e2 e3, h⟩ a 1).Δ ≠ 0 ∧ (Nat.card (numbered ⟨.binary m e1 e2 e3, h⟩ a 1).Point : Int) = Koblitz.weil m a := by
  have h2 := two_zero m e1 e2 e3 h
  have : CharP (Carrier ⟨.binary m e1 e2 e3, h⟩) 2 := CharTwo.of_one_ne_zero_of_two_eq_zero one_ne_zero h2
  have := Fintype.ofFinite (Carrier ⟨.binary m e1 e2 e3, h⟩)
  let _ := ZMod.algebra (Carrier ⟨.binary m e1 e2 e3, h⟩) 2
  have hc : Fintype.card (Carrier ⟨.binary m e1 e2 e3, h⟩) = 2 ^ m := by
    rw [← Nat.card_eq_fintype_card, card_carrier]; rfl
  have ea : elem ⟨.binary m e1 e2 e3, h⟩ a = ((a : Nat) : Carrier ⟨.binary m e1 e2 e3, h⟩) := by
    rcases ha with rfl | rfl
    · rw [elem_zero, Nat.cast_zero]
    · rw [elem_one, Nat.cast_one]
  have e : numbered ⟨.binary m e1 e2 e3, h⟩ a 1 = kcurve ((a : Nat) : Carrier ⟨.binary m e1 e2 e3, h⟩) := by
    unfold numbered
    rw [ea, elem_one]
    rfl
  rw [e]
  refine ⟨kcurve_delta h2 _, ?_⟩
  rw [card_binary h2]
  exact Koblitz.koblitz_points m a hc ha

/-- a call in which neither the timer expires nor PARI fails -/
def Calm (p : Pick) : Prop := p.cut = none ∧ ∀ s, p.fail s = none

/-- what `exhaustive_gen` finds for a request for a Koblitz curve over a binary field, all of whose candidates have the number of points `N` -/
theorem koblitz_ends (P : Pari) (hP : P.Ok) (n : Int) (os : List Opt) (c : Config) (hcl : commandLine n os = some c) (hm : c.method = 0)
    (hf : c.field = FIELD_BINARY) (hk : c.koblitz = true) (hh : c.hexCheck = none)
    (hp : c.pointsType = .none ∨ c.pointsType = .prime ∨ (c.pointsType ≠ .random ∧ c.bits ≤ 61))
    (N : Nat) (hN : (N : Int) = Koblitz.weil c.bits c.koblitzValue.toNat) (ho : OrderAsked c N) (hu : Clear c N)
    (w : W) (hw : TapeOk c w.tape) (hpl : ∀ f : Fld, ComesField w.tape f → Plain c (numbered f c.koblitzValue.toNat 1).Point)
    (hcalm : ∀ j, j < 9 → Calm (w.tape (w.pos + j))) :
    ∃ fuel st, Engine.gen (setup P c) 0 9 fuel { w with cur := {} } = some (1, st) ∧ st.w.pos = w.pos + 9 ∧ st.w.ub = w.ub := by
  have hcov := covered n os c hcl (Or.inl hm) fun _ _ h3 => by rw [hf] at h3; exact absurd h3 (by decide)
  have h0 : c.seedAlgo = .none := by
    rcases hcov.algo with h | h
    · exact h.1
    · rw [hm] at h
      exact absurd h.2 (by decide)
  have hv : c.koblitzValue.toNat = 0 ∨ c.koblitzValue.toNat = 1 := by rcases hcov.value with h | h <;> rw [h] <;> decide
  let F : Fld := if has c.random RANDOM_FIELD then (w.tape (w.pos + 1)).randomField else (w.tape (w.pos + 1)).typedField
  have hF : FieldAsked c F.1 := by
    change FieldAsked c (if has c.random RANDOM_FIELD then (w.tape (w.pos + 1)).randomField else (w.tape (w.pos + 1)).typedField).1
    split
    · exact (hw.picks _).randomField
    · have := (hw.picks (w.pos + 1)).typedField
      revert this
      cases (w.tape (w.pos + 1)).typedField.1 with
      | prime p => exact fun h => absurd (h.1.symm.trans hf) (by decide)
      | binary m e1 e2 e3 => exact id
  have hCF : ComesField w.tape F := by
    refine ⟨w.pos + 1, ?_⟩
    by_cases hr : has c.random RANDOM_FIELD = true
    · exact Or.inl (if_pos hr)
    · exact Or.inr (if_neg hr)
  have hkey : (numbered F c.koblitzValue.toNat 1).Δ ≠ 0 ∧ Nat.card (numbered F c.koblitzValue.toNat 1).Point = N := by
    generalize hG : F = G at hF
    clear_value F
    obtain ⟨v, hg⟩ := G
    cases v with
    | prime p => exact absurd (hF.1.symm.trans hf) (by decide)
    | binary m e1 e2 e3 =>
      obtain ⟨k1, k2⟩ := koblitz_binary m e1 e2 e3 hg _ hv
      refine ⟨k1, Int.ofNat_inj.1 (k2.trans ?_)⟩
      rw [hF.2.1, ← hN]
  have hA : ComesA c w.tape F (.int c.koblitzValue.toNat) := by rw [ComesA, if_pos ⟨hk, h0⟩]
  have hB : ComesB c w.tape F (.int 1) := by rw [ComesB, if_pos ⟨hk, h0⟩]
  let E : Crv := ⟨F, .int c.koblitzValue.toNat, .int 1⟩
  have hE : Suits c E :=
    { field := hF
      koblitz := fun _ => ⟨rfl, rfl⟩
      element := fun h => by rw [hk] at h; cases h
      nonsingular := hkey.1
      order := by
        change OrderAsked c (Nat.card (numbered F c.koblitzValue.toNat 1).Point)
        rw [hkey.2]
        exact ho
      plain := hpl F hCF }
  have hl : Listable c E := by
    refine ⟨hkey.2.symm ▸ hu, ?_⟩
    rcases hp with h | h | ⟨h1, h2⟩
    · exact Or.inl h
    · exact Or.inr (Or.inl h)
    · refine Or.inr (Or.inr (Or.inr ⟨h1, few_factors_63 Nat.card_pos ?_⟩))
      have k1 : fieldSize E.field.1 ≤ 2 ^ c.bits := size_asked hE.field
      have k2 := order_le E.field E.eqn
      have k3 : 2 ^ c.bits ≤ 2 ^ 61 := Nat.pow_le_pow_right (by omega) h2
      change Nat.card E.eqn.Point < _
      omega
  obtain ⟨st, h1, h2, -, h3, h4, -⟩ := walk P hP c hcov h0 hh E hE hl w.tape (Engine.init 0 { w with cur := {} }) 0 rfl rfl
    (inv_low (Nat.zero_le _) (fun _ => rfl) (fun _ => rfl) (fun h => by cases h)) ⟨fun h => by omega, fun h => by omega, fun h => by omega, fun h => by omega⟩
    (fun j hj =>
      { ok := hw.picks _
        cut := (hcalm j (by omega)).1
        fail := (hcalm j (by omega)).2
        field := fun h => by
          obtain rfl : j = 1 := by omega
          rfl
        a := fun h => by rw [hk] at h; cases h
        b := fun h => by rw [hk] at h; cases h
        sea := hw.sea _ E hCF hA hB hE.nonsingular
        gens := hw.gens _ E hCF hA hB hE.nonsingular }) 9 (Nat.le_refl _)
  obtain ⟨fuel, hfu⟩ := Engine.reaches_loop h1 0 (1, st) (by unfold Engine.loop; rw [if_neg (by omega)])
  refine ⟨fuel, st, ?_, h3, h4⟩
  unfold Engine.gen Engine.genRetry
  rw [if_neg (by decide), if_neg (by decide)]
  exact hfu

/-- the other half: if the number of points does not meet the condition on the order, no search returns a curve -/
theorem koblitz_never (P : Pari) (hP : P.Ok) (n : Int) (os : List Opt) (c : Config) (hcl : commandLine n os = some c) (hm : c.method = 0)
    (hf : c.field = FIELD_BINARY) (hk : c.koblitz = true) (N : Nat) (hN : (N : Int) = Koblitz.weil c.bits c.koblitzValue.toNat) (ho : ¬ OrderAsked c N)
    (w : W) (hw : TapeOk c w.tape) (fuel : Nat) (st : St W) : Engine.gen (setup P c) 0 9 fuel { w with cur := {} } ≠ some (1, st) := by
  intro hg
  have hcov := covered n os c hcl (Or.inl hm) fun _ _ h3 => by rw [hf] at h3; exact absurd h3 (by decide)
  have h0 : c.seedAlgo = .none := by
    rcases hcov.algo with h | h
    · exact h.1
    · rw [hm] at h
      exact absurd h.2 (by decide)
  have hv : c.koblitzValue.toNat = 0 ∨ c.koblitzValue.toNat = 1 := by rcases hcov.value with h | h <;> rw [h] <;> decide
  obtain ⟨-, ⟨-, hi⟩ | h1⟩ := search P hP c hcov w.tape fuel w ⟨rfl, hw⟩ 1 st hg
  · obtain ⟨E, h1, -, h2⟩ := hi.order (by omega)
    obtain ⟨f, a, b, h3, h4, h5, h6, -⟩ := hi.crv (by omega)
    rw [h6] at h1
    cases h1
    obtain ⟨f', h7, h8, -⟩ := hi.field (by omega)
    obtain ⟨f'', a', b', h9, h10, h11, h12, h13⟩ := hi.ab (by omega)
    rw [h3] at h7 h9
    cases h7
    cases h9
    rw [h4] at h10
    rw [h5] at h11
    cases h10
    cases h11
    rw [ComesA, if_pos ⟨hk, h0⟩] at h12
    rw [ComesB, if_pos ⟨hk, h0⟩] at h13
    subst h12 h13
    refine ho ?_
    obtain ⟨v, hgd⟩ := f
    cases v with
    | prime p => exact absurd (h8.1.symm.trans hf) (by decide)
    | binary m e1 e2 e3 =>
      obtain ⟨-, k2⟩ := koblitz_binary m e1 e2 e3 hgd _ hv
      have : Nat.card (Crv.mk ⟨.binary m e1 e2 e3, hgd⟩ (.int c.koblitzValue.toNat) (.int 1)).Pt = N := by
        refine Int.ofNat_inj.1 (k2.trans ?_)
        rw [h8.2.1, ← hN]
      rw [← this]
      exact h2
  · cases h1

/-! ### A concrete case -/

open Polynomial in
theorem good8 : Good (.binary 3 1 0 0) := by
  refine ⟨⟨by decide, Or.inr rfl, Or.inr rfl⟩, ?_⟩
  have e : modulus 3 1 0 0 = X ^ 3 + X + 1 := by simp [modulus]
  rw [e]
  have hd : (X ^ 3 + X + 1 : (ZMod 2)[X]).natDegree = 3 := by compute_degree!
  refine (irreducible_iff_roots_eq_zero_of_degree_le_three (by omega) (by omega)).2 ?_
  refine Multiset.eq_zero_of_forall_notMem fun x hx => ?_
  have := (mem_roots'.1 hx).2
  simp only [IsRoot, eval_add, eval_pow, eval_X, eval_one] at this
  have key : ∀ y : ZMod 2, y ^ 3 + y + 1 ≠ 0 := by decide
  exact key x this

/-- the field of eight elements -/
def F8 : Fld := ⟨.binary 3 1 0 0, good8⟩

/-- `y² + xy = x³ + x² + 1` -/
def E8 : Crv := ⟨F8, .int 1, .int 1⟩

theorem E8_card : Nat.card E8.Pt = 14 := by
  have h := (koblitz_binary 3 1 0 0 good8 1 (Or.inr rfl)).2
  have : Koblitz.weil 3 1 = 14 := by decide +kernel
  rw [this] at h
  exact Int.ofNat_inj.1 h

theorem cyclic_14 {A : Type} [AddCommGroup A] (h : Nat.card A = 14) : ∃ g : A, g ≠ 0 ∧ ∀ x : A, x ∈ AddSubgroup.zmultiples g := by
  have : Finite A := Nat.finite_of_card_ne_zero (by omega)
  have : Fact (Nat.Prime 2) := ⟨by decide⟩
  have : Fact (Nat.Prime 7) := ⟨by decide⟩
  obtain ⟨g, hg⟩ := exists_prime_addOrderOf_dvd_card' (G := A) 2 (by rw [h]; decide)
  obtain ⟨k, hk⟩ := exists_prime_addOrderOf_dvd_card' (G := A) 7 (by rw [h]; decide)
  have ho : addOrderOf (g + k) = 14 := by
    rw [(AddCommute.all g k).addOrderOf_add_eq_mul_addOrderOf_of_coprime (by rw [hg, hk]; decide), hg, hk]
  refine ⟨g + k, fun h0 => ?_, fun x => ?_⟩
  · rw [h0, addOrderOf_zero] at ho
    cases ho
  · have : AddSubgroup.zmultiples (g + k) = ⊤ := AddSubgroup.eq_top_of_card_eq _ (by rw [Nat.card_zmultiples, ho, h])
    rw [this]
    exact AddSubgroup.mem_top x

/-- `--f2m --koblitz=1 --cofactor=2 3` -/
def c8 : Config := (commandLine 4 [.f2m, .koblitz (some "1".toList), .cofactor "2".toList, .arg "3".toList]).get (by decide +kernel)

theorem c8_some : commandLine 4 [.f2m, .koblitz (some "1".toList), .cofactor "2".toList, .arg "3".toList] = some c8 := (Option.some_get _).symm

/-- **C74, met**: `ecgen --f2m --koblitz=1 --cofactor=2 3` with the field of eight elements finds the curve with fourteen points -/
theorem koblitz_ends_met : ∃ (n : Int) (os : List Opt) (c : Config) (N : Nat) (w : W), commandLine n os = some c ∧ c.method = 0 ∧ c.field = FIELD_BINARY ∧
    c.koblitz = true ∧ c.cofactor = true ∧ c.hexCheck = none ∧ c.pointsType = .prime ∧ (N : Int) = Koblitz.weil c.bits c.koblitzValue.toNat ∧ OrderAsked c N ∧ Clear c N ∧
    TapeOk c w.tape ∧ (∀ f : Fld, ComesField w.tape f → Plain c (numbered f c.koblitzValue.toNat 1).Point) ∧ (∀ j, j < 9 → Calm (w.tape (w.pos + j))) ∧ w.ub = false := by
  obtain ⟨g, g1, g2⟩ := cyclic_14 E8_card
  have hval : toSize c8.cofactorValue = 2 := by decide +kernel
  have hkv : c8.koblitzValue.toNat = 1 := by decide +kernel
  have h0 : c8.seedAlgo = .none := by decide +kernel
  have ho : OrderAsked c8 14 := ⟨fun h => absurd h (by decide +kernel), fun _ => ⟨7, by decide, by rw [hval]⟩, fun h => absurd h (by decide +kernel)⟩
  have hpl : Plain c8 E8.Pt := ⟨fun h => absurd h (by decide +kernel), fun _ _ => Or.inl ⟨g, g2⟩⟩
  have hs : Suits c8 E8 :=
    { field := ⟨by decide +kernel, by decide +kernel, by decide⟩
      koblitz := fun _ => ⟨by rw [hkv]; rfl, rfl⟩
      element := fun h => absurd h (by decide +kernel)
      nonsingular := (koblitz_binary 3 1 0 0 good8 1 (Or.inr rfl)).1
      order := by rw [E8_card]; exact ho
      plain := hpl }
  have hg : Generated E8 := by
    intro a b h1 h2 _
    obtain rfl : a = .int 1 := h1.elim id id
    obtain rfl : b = .int 1 := h2.elim id id
    exact ⟨[g], g1, g2⟩
  refine ⟨4, _, c8, 14, ⟨{}, aimed E8, 0, false⟩, c8_some, by decide +kernel, by decide +kernel, by decide +kernel, by decide +kernel, by decide +kernel, by decide +kernel,
    by decide +kernel, ho, Or.inr (Or.inr fun q _ e hd => by rw [hval] at e hd; have := Nat.le_of_dvd (by decide) hd; omega), aimed_tape c8 h0 E8 hs hg, ?_, fun j _ => ⟨rfl, fun _ => rfl⟩, rfl⟩
  rintro f ⟨i, h | h⟩ <;>
  · obtain rfl : f = E8.field := h
    rw [hkv]
    exact hpl

end Ecgen.Whole
