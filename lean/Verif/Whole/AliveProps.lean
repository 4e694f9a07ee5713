import Verif.Whole.Alive

/-!
# No search gets stuck: the theorems (C100)
-/

namespace Ecgen.Whole

open Output Output.Spec Cli
open Engine (St Reaches)

/-- **C100** No search gets stuck. Let `E` be a curve that meets what the command line asks for, and let the search for a curve have run for a while, with any
random numbers, failures, and expiries of the timer. Then, whatever has been tried so far, and whatever is left in the curve object, there are random numbers for the calls still to be
made with which the search goes on from there to its end, and returns a curve. The calls made already, and the state they led to, are as they were. -/
theorem no_search_stuck (P : Pari) (hP : P.Ok) (n : Int) (os : List Opt) (c : Config) (hcl : commandLine n os = some c) (hm : c.method = 0)
    (hk : c.koblitz = true → c.field = FIELD_PRIME → c.prime = false → c.cofactor = false → c.smooth = false →
      Koblitz.getOrder c.bits c.koblitzValue.toNat = none)
    (hh : c.hexCheck = none)
    (hu : c.unique = true ∨ c.cofactor = false ∨ toSize c.cofactorValue = 1 ∨ (toSize c.cofactorValue).Prime)
    (hp : c.pointsType = .none ∨ c.pointsType = .prime ∨ (c.pointsType ≠ .random ∧ c.bits ≤ 61))
    (E : Crv) (hE : Suits c E) (w : W) (hw : Right c E w.tape) (hub : w.ub = false) (st : St W)
    (hst : Reaches (setup P c) 0 9 0 (Engine.init 0 { w with cur := {} }) st) :
    ∃ T, Right c E T ∧ (∀ i, i < st.w.pos → T i = w.tape i) ∧
      Reaches (setup P c) 0 9 0 (Engine.init 0 { w with cur := {}, tape := T }) { st with w := { st.w with tape := T } } ∧
      ∃ fuel st', Reaches (setup P c) 0 9 0 { st with w := { st.w with tape := T } } st' ∧
        Engine.gen (setup P c) 0 9 fuel { w with cur := {}, tape := T } = some (1, st') := by
  have hcov := covered n os c hcl (Or.inl hm) fun h1 _ => hk h1
  have h0 : c.seedAlgo = .none := by
    rcases hcov.algo with h | h
    · exact h.1
    · rw [hm] at h
      exact absurd h.2 (by decide)
  have hq : ∀ T, TapeOk c T → StagesFine c T := by
    intro T hT
    refine stages_fine_none h0 ?_
    rcases hp with h | h | ⟨h1, h2⟩
    · exact Or.inl h
    · exact Or.inr (Or.inl h)
    · exact points_fine hT hu h1 h2
  have hl : Listable c E := by
    refine ⟨clear_of Nat.card_pos (by tauto), ?_⟩
    rcases hp with h | h | ⟨h1, h2⟩
    · exact Or.inl h
    · exact Or.inr (Or.inl h)
    · refine Or.inr (Or.inr (Or.inr ⟨h1, few_factors_63 Nat.card_pos ?_⟩))
      have k1 : fieldSize E.field.1 ≤ 2 ^ c.bits := size_asked hE.field
      have k2 := order_le E.field E.eqn
      have k3 : 2 ^ c.bits ≤ 2 ^ 61 := Nat.pow_le_pow_right (by omega) h2
      change Nat.card E.eqn.Point < _
      omega
  obtain ⟨T, h1, h2, h3, st', h4, h5⟩ := alive P hP c hcov h0 hh hq E hE hl w hw hub st hst
  obtain ⟨fuel, hf⟩ := Engine.reaches_loop (h3.trans h4) 0 (1, st') (by unfold Engine.loop; rw [if_neg (by omega)])
  refine ⟨T, h1, h2, h3, fuel, st', h4, ?_⟩
  unfold Engine.gen Engine.genRetry
  rw [if_neg (by decide), if_neg (by decide)]
  exact hf

/-- calls that bring up the curve `E1`, but for an expiry of the timer at the call number 5 -/
noncomputable def stumbling (i : Nat) : Pick := if i = 5 then { always E1 1 [G1] 1 with cut := some {} } else always E1 1 [G1] 1

theorem stumbling_right : Right c1 E1 stumbling := by
  have hok : (always E1 1 [G1] 1).Ok c1 := always_ok c1 E1 ⟨by decide +kernel, fun _ _ => by decide +kernel, by decide +kernel⟩
    ⟨by decide +kernel, fun _ _ => by decide +kernel, by decide +kernel⟩ 1 (by decide) [G1] 1
  have h0 : c1.seedAlgo = .none := by decide +kernel
  have hkob : ¬ (c1.koblitz = true ∧ c1.seedAlgo = .none) := by decide +kernel
  have hsame : ∀ i, (stumbling i).randomField = E1.field ∧ (stumbling i).typedField = E1.field ∧ (stumbling i).elt = (always E1 1 [G1] 1).elt ∧
      (stumbling i).sea = (always E1 1 [G1] 1).sea ∧ (stumbling i).gens = (always E1 1 [G1] 1).gens := by
    intro i
    unfold stumbling
    split <;> exact ⟨rfl, rfl, rfl, rfl, rfl⟩
  have hF : ∀ f, ComesField stumbling f ∨ f = E1.field → f = E1.field := by
    rintro f (⟨i, h | h⟩ | h)
    · exact h.trans (hsame i).1
    · exact h.trans (hsame i).2.1
    · exact h
  have hab : E1.a = E1.b := rfl
  have hA : ∀ e, ComesA c1 stumbling E1.field e ∨ e = E1.a ∨ e = E1.b → e = E1.a := by
    rintro e (h | h | h)
    · rw [ComesA, if_neg hkob, if_pos h0] at h
      obtain ⟨i, h⟩ := h
      rw [(hsame i).2.2.1] at h
      exact h.trans (always_elt_self E1 1 [G1] 1 E1.a (by decide +kernel))
    · exact h
    · exact h.trans hab.symm
  have hB : ∀ e, ComesB c1 stumbling E1.field e ∨ e = E1.a ∨ e = E1.b → e = E1.b := by
    rintro e (h | h | h)
    · rw [ComesB, if_neg hkob, if_pos h0] at h
      obtain ⟨i, h⟩ := h
      rw [(hsame i).2.2.1] at h
      exact h.trans (always_elt_self E1 1 [G1] 1 E1.b (by decide +kernel))
    · exact h.trans hab
    · exact h
  refine ⟨fun i => ?_, fun i E' _ _ _ _ => ?_, fun i E' h1 h2 h3 _ => ?_⟩
  · unfold stumbling
    split
    · exact { hok with cut := fun x h => by cases h; exact ⟨fun _ => rfl, fun _ => rfl⟩ }
    · exact hok
  · rw [(hsame i).2.2.2.1]
    exact Or.inl rfl
  · rw [(hsame i).2.2.2.2]
    obtain ⟨f, a, b⟩ := E'
    obtain rfl := hF _ h1
    obtain rfl := hA _ h2
    obtain rfl := hB _ h3
    simp only [always]
    rw [dif_pos trivial]
    exact G7_gens

/-- **C100, met**: `ecgen --fp --random --prime 3`, the curve `y² = x³ + x + 1` of five points over the field of seven elements, calls among which the timer
expires once, and the state after the first call -/
theorem no_search_stuck_met : ∃ (n : Int) (os : List Opt) (c : Config) (E : Crv) (w : W) (st : St W), commandLine n os = some c ∧ c.method = 0 ∧
    c.koblitz = false ∧ c.hexCheck = none ∧ c.cofactor = false ∧ c.pointsType = .prime ∧ Suits c E ∧ Right c E w.tape ∧ w.ub = false ∧ (w.tape 5).cut.isSome ∧
    Reaches (setup pari c) 0 9 0 (Engine.init 0 { w with cur := {} }) st ∧ st.state = 1 ∧ st.w.pos = 1 := by
  have hcov := covered 4 _ c1 c1_some (Or.inl (by decide +kernel)) fun h1 _ => absurd h1 (by decide +kernel)
  have hT := stumbling_right.tape (by decide +kernel)
  obtain ⟨st, h1, h2, -⟩ := step_clean pari pari_ok c1 hcov (Or.inl (by decide +kernel)) (by decide +kernel) stumbling
    (stages_fine_none (by decide +kernel) (Or.inr (Or.inl (by decide +kernel))))
    (Engine.init 0 (⟨{}, stumbling, 0, false⟩ : W)) (by decide)
    ⟨⟨Nat.zero_le _, inv_low (Nat.zero_le _) (fun _ => rfl) (fun _ => rfl) (fun h => by cases h), rfl, hT⟩, rfl⟩ rfl rfl
  refine ⟨4, _, c1, E1, ⟨{}, stumbling, 0, false⟩, st, c1_some, by decide +kernel, by decide +kernel, by decide +kernel, by decide +kernel, by decide +kernel,
    ⟨⟨by decide +kernel, fun _ _ => by decide +kernel, by decide +kernel⟩, fun h => absurd h (by decide +kernel), fun _ => ?_, E7_delta,
      ⟨fun _ => by rw [E1_card]; decide, fun h => absurd h (by decide +kernel), fun h => absurd h (by decide +kernel)⟩,
      ⟨fun h => absurd h (by decide +kernel), fun _ h => absurd h (by decide +kernel)⟩⟩, stumbling_right, rfl, rfl, .next .refl (by decide) h1, by
        rcases h2 with h2 | h2 <;> exact h2, (step_pos pari c1 hcov (by decide +kernel) _ _ h1).1⟩
  have := (hT.picks 0).elt E1.field
  have e := always_elt_self E1 1 [G1] 1 E1.a (by decide +kernel)
  rw [show (stumbling 0).elt E1.field = E1.a from e] at this
  exact ⟨this, this⟩

end Ecgen.Whole
