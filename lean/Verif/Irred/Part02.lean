import Verif.Irred.Rows

/-!
# Irreducibility of table rows, part 2 (generated; evaluated by the kernel)
-/

namespace Ecgen.Irred

open Ecgen.Poly

set_option maxRecDepth 100000

theorem tri_46 : allRows triRow ansiTrinomials 460 10 = true := by decide +kernel
theorem tri_47 : allRows triRow ansiTrinomials 470 10 = true := by decide +kernel
theorem tri_48 : allRows triRow ansiTrinomials 480 10 = true := by decide +kernel
theorem tri_49 : allRows triRow ansiTrinomials 490 10 = true := by decide +kernel
theorem tri_50 : allRows triRow ansiTrinomials 500 10 = true := by decide +kernel
theorem tri_51 : allRows triRow ansiTrinomials 510 10 = true := by decide +kernel
theorem tri_52 : allRows triRow ansiTrinomials 520 10 = true := by decide +kernel
theorem tri_53 : allRows triRow ansiTrinomials 530 10 = true := by decide +kernel
theorem tri_54 : allRows triRow ansiTrinomials 540 10 = true := by decide +kernel
theorem tri_55 : allRows triRow ansiTrinomials 550 10 = true := by decide +kernel
theorem tri_56 : allRows triRow ansiTrinomials 560 10 = true := by decide +kernel
theorem tri_57 : allRows triRow ansiTrinomials 570 10 = true := by decide +kernel
theorem tri_58 : allRows triRow ansiTrinomials 580 10 = true := by decide +kernel
theorem tri_59 : allRows triRow ansiTrinomials 590 10 = true := by decide +kernel
theorem tri_60 : allRows triRow ansiTrinomials 600 10 = true := by decide +kernel
theorem tri_61 : allRows triRow ansiTrinomials 610 10 = true := by decide +kernel
theorem tri_62 : allRows triRow ansiTrinomials 620 10 = true := by decide +kernel
theorem tri_63 : allRows triRow ansiTrinomials 630 10 = true := by decide +kernel

end Ecgen.Irred
