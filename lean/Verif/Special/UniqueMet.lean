import Verif.Special.Unique
import Verif.Special.Examples

/-!
# The hypotheses of C85 are met
-/

namespace Ecgen.Special

open Whole Cli
open Seeded (Fp)

/-- `--fp --supersingular --unique --points=none 4` -/
def cU : Config := (commandLine 5 [.fp, .supersingular, .unique, .points "none".toList, .arg "4".toList]).get (by decide +kernel)

theorem cU_some : commandLine 5 [.fp, .supersingular, .unique, .points "none".toList, .arg "4".toList] = some cU := (Option.some_get _).symm

theorem cU_method : cU.method = METHOD_SUPERSINGULAR := by decide +kernel

theorem cU_covered : Covered cU := covered _ _ _ cU_some (Or.inr (Or.inl cU_method))

theorem drawnU (q : Nat) (h : Drawn pari cU (fun _ => pickS) q) : q = 13 := by
  obtain ⟨i, e | e⟩ := h.2.1 cU_method
  · cases e; rfl
  · cases e; rfl

theorem tapeU : TapeOk pari cU fun _ => pickS where
  picks _ := pick_behaves cU _ _ _ _ (fun _ => ⟨⟨by decide +kernel, by decide +kernel, by decide +kernel⟩, by decide +kernel, by decide +kernel, by decide +kernel⟩)
    (fun h => absurd (cU_method ▸ h) (by decide))
  gens i q hq a b h1 h2 h3 := by
    have e := drawnU q h1
    subst e
    have h4 : Nat.card (obj 13 hq a b).Pt = 14 := h3.2.1 cU_method
    obtain ⟨g, e1, e2, -⟩ := gensOf_spec (obj 13 hq a b) (cyclic_two 2 7 Nat.prime_two (Or.inl (by decide)) (by decide) (by rw [h4])) (by rw [h4]; decide)
    change Group.GensSpec _ (gensOf _)
    rw [e1]
    exact e2

theorem deuringU : Deuring pari cU fun _ => pickS := by
  intro i q n hq h e
  have := drawnU q h
  subst this
  rw [show pickS.fuel = 9 from rfl, searchS] at e
  cases e
  intro j hj
  have : j = 5 := by simpa [pari] using hj
  subst this
  have : ∀ a b : ZMod 13, Cm.HasJ a b ((5 : Nat) : ZMod 13) → Count.card a b = 13 + 1 := by
    unfold Cm.HasJ
    decide +kernel
  exact this

theorem courseU_act : ∀ s, s < 6 → act pari cU pickS s (courseS s) = some (courseS (s + 1), 1) := by
  obtain ⟨-, t0, t1, t3, t5⟩ : _ := ((table cU cU_covered).resolve_left (fun h => absurd (cU_method ▸ h.1) (by decide))).resolve_right
    (fun h => absurd (cU_method ▸ h.1) (by decide))
  rw [if_neg (by decide +kernel)] at t1
  obtain ⟨t2, t4, -⟩ := table_common cU cU_covered
  intro s hs
  match s, hs with
  | 0, _ => simp only [act, stageOf, t0, Option.bind_some, id, call, Whole.call, Option.map_some, courseS]
  | 1, _ => simp only [act, stageOf, t1, Option.bind_some, id, call, Whole.call, Option.map_some, courseS]; rfl
  | 2, _ => simp only [act, stageOf, t2, Option.bind_some, id, call, Whole.call, Option.map_some, courseS]
  | 3, _ =>
    have e4 : superAB 13 p13 5 = some (9, 4) := by
      have : (4 * (1728 - ((5 : Nat) : ZMod 13)) : ZMod 13) ≠ 0 := by decide +kernel
      unfold superAB
      rw [if_neg this]
      have e5 : (Cm.superCoeffs ((5 : Nat) : ZMod 13)) = (9, 4) := by decide +kernel
      rw [e5]
      rfl
    have e6 : pari.roots 7 13 = [5] := rfl
    simp only [act, stageOf, t3, Option.bind_some, id, call]
    rw [withPrime_spec (hq := p13) rfl]
    simp only [superEquation, show pickS.fuel = 9 from rfl, searchS, e6, e4]
    rfl
  | 4, _ => simp only [act, stageOf, t4, Option.bind_some, id, call, Whole.call, Option.map_some, courseS]
  | 5, _ =>
    simp only [act, stageOf, t5, Option.bind_some, id, call]
    rw [withPrime_spec (hq := p13) rfl]
    rfl

theorem runU : ∃ u v, u < 13 ∧ v < 13 ∧ On 13 9 4 u v ∧ ∃ w', one pari cU 9 (world pickS {} 0) = (some (printed none 13 9 4 14 u v), w') :=
  ends cU cU_covered (by decide +kernel) (by decide +kernel) (by decide +kernel) _ _ _ _ 13 p13 9 4 14
    (cyclic_two 2 7 Nat.prime_two (Or.inl (by decide)) (by decide) (by rw [ES_card])) ES_card (by decide) 6 (fun i => (i, courseS i)) rfl (courseS 6) rfl
    (fun i hi => ⟨by simp only; omega, move_ok pari cU _ rfl (fun _ => rfl) i _ _ (courseU_act i hi)
      (fun k hk => accepted cU cU_covered (by decide +kernel) i _ (fun e => by subst e; exact ⟨ES, rfl, ES_delta⟩) k hk) i⟩)
    rfl rfl rfl rfl rfl rfl

/-- **C85, met**: the run of `ecgen --fp --supersingular --unique --points=none 4` with the prime 13 -/
theorem supersingular_unique_met : ∃ (n : Int) (os : List Opt) (c : Config) (w : W), commandLine n os = some c ∧ c.method = METHOD_SUPERSINGULAR ∧
    c.unique = true ∧ TapeOk pari c w.tape ∧ Deuring pari c w.tape ∧ toSize c.count = 1 ∧ (produce pari c 9 w).2 = 0 ∧
    ∀ v ∈ Json.generated (one pari c 9) (toSize c.count) w, ∀ j, Parson.outputJjson c.hexDigits v = .ok j →
      (Parson.render true 0 j).length ≤ 2147483646 :=
  have hcount : toSize cU.count = 1 := by decide +kernel
  ⟨5, _, cU, world pickS {} 0, cU_some, cU_method, by decide +kernel, tapeU, deuringU, hcount, met cU hcount 9 _ _ _ _ _ _ runU (by decide +kernel)⟩

/-- `--fp --supersingular --unique 2` -/
def cU2 : Config := (commandLine 4 [.fp, .supersingular, .unique, .arg "2".toList]).get (by decide +kernel)

theorem cU2_some : commandLine 4 [.fp, .supersingular, .unique, .arg "2".toList] = some cU2 := (Option.some_get _).symm

theorem cU2_method : cU2.method = METHOD_SUPERSINGULAR := by decide +kernel

noncomputable def pickU2 : Pick := pick (Fp 2 Nat.prime_two) 1 0 1

theorem drawnU2 (q : Nat) (h : Drawn pari cU2 (fun _ => pickU2) q) : q = 2 := by
  obtain ⟨i, e | e⟩ := h.2.1 cU2_method
  · cases e; rfl
  · cases e; rfl

/-- **C85, met**: the user types in the field of two elements again and again -/
theorem supersingular_unique_none_met : ∃ (n : Int) (os : List Opt) (c : Config) (w : W), commandLine n os = some c ∧ c.method = METHOD_SUPERSINGULAR ∧
    c.unique = true ∧ c.bits ≤ 2 ∧ TapeOk pari c w.tape ∧ Deuring pari c w.tape := by
  refine ⟨4, _, cU2, world pickU2 {} 0, cU2_some, cU2_method, by decide +kernel, by decide +kernel, ⟨fun _ => ?_, fun i q hq a b h1 h2 h3 => ?_⟩, ?_⟩
  · exact pick_behaves cU2 _ _ _ _ (fun _ => ⟨⟨by decide +kernel, by decide +kernel, by decide +kernel⟩, by decide +kernel, by decide +kernel, by decide +kernel⟩)
      (fun h => absurd (cU2_method ▸ h) (by decide))
  · exact absurd (drawnU2 q h1) (card_obj q hq a b h2).1
  · intro i q n hq h e
    have := drawnU2 q h
    subst this
    simp [Cm.superEquation] at e

end Ecgen.Special
