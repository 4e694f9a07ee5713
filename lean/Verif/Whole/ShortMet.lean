import Verif.Whole.Short
import Verif.Whole.Examples
import Verif.Special.Examples
import Verif.Seeded.Examples
import Verif.Twisted.Examples
import Verif.InvalidRun.Examples

/-!
# The runs of the examples are within the bounds of the theorems on short texts
-/

namespace Ecgen.Whole

open Cli

/-- **met**: the requests of `Whole.run_met`, `Special.anomalous_met`, `Special.supersingular_met`, `Seeded.brainpool_met`, `Seeded.nums_met`,
`Twisted.run_met` and `InvalidRun.invalid_run_met`, whose runs meet the other hypotheses of the theorems, are modest -/
theorem modest_met : Modest c1 ∧ Modest Special.cA ∧ 7 ≤ Special.cA.bits ∧ Modest Special.cS ∧ Modest Seeded.cB ∧ Modest Seeded.cN ∧ Modest Twisted.cp ∧
    InvalidRun.cA.bits ≤ 2500 :=
  ⟨⟨by decide +kernel, by decide +kernel, by decide +kernel⟩, ⟨by decide +kernel, by decide +kernel, by decide +kernel⟩, by decide +kernel,
    ⟨by decide +kernel, by decide +kernel, by decide +kernel⟩, ⟨by decide +kernel, by decide +kernel, by decide +kernel⟩,
    ⟨by decide +kernel, by decide +kernel, by decide +kernel⟩, ⟨by decide +kernel, by decide +kernel, by decide +kernel⟩, by decide +kernel⟩

end Ecgen.Whole
