import Verif.Whole.Examples

/-!
# A concrete case of the subgroups of C76
-/

namespace Ecgen.Whole

open Output Output.Spec Cli

/-- `ecgen --fp --random --points=all 3` -/
def c5 : Config := (commandLine 4 [.fp, .random none, .points "all".toList, .arg "3".toList]).get (by decide +kernel)

theorem c5_some : commandLine 4 [.fp, .random none, .points "all".toList, .arg "3".toList] = some c5 := (Option.some_get _).symm

/-- **C76, met**: a run of `ecgen --fp --random --points=all 3` meets the hypotheses, with `y² = x³ + x + 1` over the field of seven elements -/
theorem subgroups_met : ∃ (os : List Opt) (c : Config) (w : W), commandLine 4 os = some c ∧ Covered c ∧ c.pointsType = .all ∧ TapeOk c w.tape ∧
    StagesFine c w.tape ∧ w.ub = false := by
  have hc : ¬ (c5.koblitz = true ∧ c5.seedAlgo = .none) := by decide +kernel
  have hT : TapeOk c5 (world E1 1 [G1] 1).tape := always_tape c5 E1 ⟨by decide +kernel, fun _ _ => by decide +kernel, by decide +kernel⟩
    ⟨by decide +kernel, fun _ _ => by decide +kernel, by decide +kernel⟩ 1 (by decide) [G1] 1 G7_gens
    (fun e => (always_comes c5 hc E1 1 [G1] 1 rfl rfl e).1) (fun e => (always_comes c5 hc E1 1 [G1] 1 rfl rfl e).2)
  exact ⟨_, c5, world E1 1 [G1] 1, c5_some, covered 4 _ c5 c5_some (by decide +kernel) (by decide +kernel), by decide +kernel, hT,
    stages_fine_none (by decide +kernel) (points_fine hT (by decide +kernel) (by decide +kernel) (by decide +kernel)), rfl⟩

end Ecgen.Whole
