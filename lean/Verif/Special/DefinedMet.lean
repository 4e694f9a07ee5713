import Verif.Special.Defined
import Verif.Special.Examples

/-!
# The hypotheses of C84 are met
-/

namespace Ecgen.Special

open Whole Cli

/-- the class polynomial of discriminant -7 has a root modulo 13 -/
theorem rootedS : Rooted pari cS fun _ => pickS := by
  intro _ i q n hq h e
  have := drawnS q h
  subst this
  rw [show pickS.fuel = 9 from rfl, searchS] at e
  cases e
  simp [pari]

/-- `--fp --supersingular --points=all 4` -/
def cSall : Config := (commandLine 4 [.fp, .supersingular, .points "all".toList, .arg "4".toList]).get (by decide +kernel)

theorem cSall_some : commandLine 4 [.fp, .supersingular, .points "all".toList, .arg "4".toList] = some cSall := (Option.some_get _).symm

theorem cSall_method : cSall.method = METHOD_SUPERSINGULAR := by decide +kernel

theorem drawnSall (q : Nat) (h : Drawn pari cSall (fun _ => pickS) q) : q = 13 := by
  obtain ⟨i, e | e⟩ := h.2.1 cSall_method
  · cases e; rfl
  · cases e; rfl

theorem tapeSall : TapeOk pari cSall fun _ => pickS where
  picks _ := pick_behaves cSall _ _ _ _ (fun _ => ⟨⟨by decide +kernel, by decide +kernel, by decide +kernel⟩, by decide +kernel, by decide +kernel, by decide +kernel⟩)
    (fun h => absurd (cSall_method ▸ h) (by decide))
  gens i q hq a b h1 h2 h3 := tapeS.gens i q hq a b
    ⟨fun h => absurd (cS_method ▸ h) (by decide), fun _ => h1.2.1 cSall_method, fun h => absurd (cS_method ▸ h) (by decide)⟩ h2
    ⟨fun h => absurd (cS_method ▸ h) (by decide), fun _ => h3.2.1 cSall_method, fun h => absurd (cS_method ▸ h) (by decide)⟩

/-- **C84, met**: a run of `ecgen --fp --supersingular --points=all 4` over the field of 13 elements -/
theorem supersingular_defined_met : ∃ (n : Int) (os : List Opt) (c : Config) (w : W), commandLine n os = some c ∧ c.method = METHOD_SUPERSINGULAR ∧
    TapeOk pari c w.tape ∧ Deuring pari c w.tape ∧ Rooted pari c w.tape ∧ PointsFine pari c w.tape ∧ w.ub = false ∧ c.pointsType ≠ .random :=
  have hd : ∀ q, Drawn pari cSall (fun _ => pickS) q → Drawn pari cS (fun _ => pickS) q := fun q h =>
    ⟨fun h => absurd (cS_method ▸ h) (by decide), fun _ => h.2.1 cSall_method, fun h => absurd (cS_method ▸ h) (by decide)⟩
  ⟨4, _, cSall, world pickS {} 0, cSall_some, cSall_method, tapeSall, fun i q n hq h => deuringS i q n hq (hd q h),
    fun _ i q n hq h => rootedS cS_method i q n hq (hd q h), points_fine cSall_method tapeSall (by decide +kernel), rfl, by decide +kernel⟩

/-- **C84, met**: the run of `ecgen --fp --family=bn --points=none 5` -/
theorem family_defined_met : ∃ (n : Int) (os : List Opt) (c : Config) (w : W), commandLine n os = some c ∧ c.method = METHOD_FAMILY ∧
    TapeOk pari c w.tape ∧ PointsFine pari c w.tape ∧ w.ub = false ∧ c.pointsType ≠ .random :=
  ⟨4, _, cF, world pickF {} 0, cF_some, cF_method, tapeF, Or.inr (Or.inl (by decide +kernel)), rfl, by decide +kernel⟩

end Ecgen.Special
