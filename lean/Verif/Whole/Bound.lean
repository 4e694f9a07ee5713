import Verif.Whole.Props

/-!
# The size of the order of a curve
-/

namespace Ecgen.Whole

open Output Output.Spec Cli

theorem carrier_le (f : Fld) : Nat.card (Carrier f) ≤ fieldSize f.1 := by
  have hs : Function.Surjective (fun i : Fin (fieldSize f.1) => elem f i) := fun x => by
    obtain ⟨n, h, e⟩ := elem_surjective f x
    exact ⟨⟨n, h⟩, e⟩
  have := Nat.card_le_card_of_surjective _ hs
  rwa [Nat.card_fin] at this

/-- at most two points share their first coordinate -/
theorem order_le (f : Fld) (E : WeierstrassCurve.Affine (Carrier f)) : Nat.card E.Point ≤ 2 * fieldSize f.1 + 1 := by
  classical
  have := Fintype.ofFinite (Carrier f)
  let S : Finset (Carrier f × Carrier f) := Finset.univ.filter fun p => E.Equation p.1 p.2
  have hS : S.card ≤ 2 * Fintype.card (Carrier f) := by
    have := Finset.card_le_mul_card_image_of_maps_to (s := S) (t := Finset.univ) (f := Prod.fst) (fun _ _ => Finset.mem_univ _) 2 fun x _ => by
      by_cases h : ∃ y, E.Equation x y
      · obtain ⟨y, hy⟩ := h
        refine le_trans (Finset.card_le_card (t := {(x, y), (x, E.negY x y)}) ?_) Finset.card_le_two
        intro p hp
        simp only [S, Finset.mem_filter, Finset.mem_univ, true_and] at hp
        obtain ⟨x', y'⟩ := p
        obtain ⟨hp1, rfl⟩ := hp
        rcases WeierstrassCurve.Affine.Y_eq_of_X_eq hp1 hy rfl with e | e
        · exact Finset.mem_insert.2 (Or.inl (Prod.ext rfl e))
        · exact Finset.mem_insert.2 (Or.inr (Finset.mem_singleton.2 (Prod.ext rfl e)))
      · refine le_trans (le_of_eq (Finset.card_eq_zero.2 (Finset.filter_eq_empty_iff.2 ?_))) (Nat.zero_le 2)
        rintro ⟨x', y'⟩ hp rfl
        exact h ⟨y', (Finset.mem_filter.1 hp).2⟩
    rwa [Finset.card_univ] at this
  let g : E.Point → Option S := fun P => match P with
    | .zero => none
    | .some x y h => some ⟨(x, y), Finset.mem_filter.2 ⟨Finset.mem_univ _, h.1⟩⟩
  have hg : Function.Injective g := by
    intro P Q h
    cases P <;> cases Q <;> simp_all [g]
  have h1 := Nat.card_le_card_of_injective g hg
  rw [Finite.card_option, Nat.card_eq_fintype_card (α := S), Fintype.card_coe] at h1
  have h2 := carrier_le f
  rw [Nat.card_eq_fintype_card] at h2
  omega

theorem size_asked {c : Config} {f : FieldV} (h : FieldAsked c f) : fieldSize f ≤ 2 ^ c.bits := by
  cases f with
  | prime p => exact h.2.2
  | binary m e1 e2 e3 => exact le_of_eq (congrArg (2 ^ ·) h.2.1)

theorem order_bound {c : Config} {f : Fld} (h : FieldAsked c f.1) (E : WeierstrassCurve.Affine (Carrier f)) :
    0 < Nat.card E.Point ∧ Nat.card E.Point ≤ 2 * 2 ^ c.bits + 1 ∧ Nat.card E.Point ≤ 2 ^ (c.bits + 2) := by
  have h0 := order_le f E
  have h1 := size_asked h
  have h2 : 1 ≤ 2 ^ c.bits := Nat.one_le_two_pow
  have h3 : 2 ^ (c.bits + 2) = 2 ^ c.bits * 4 := pow_add _ _ _
  exact ⟨Nat.card_pos, by omega, by omega⟩

end Ecgen.Whole
