import Verif.Irred.Rows

/-!
# Irreducibility of table rows, part 4 (generated; evaluated by the kernel)
-/

namespace Ecgen.Irred

open Ecgen.Poly

set_option maxRecDepth 100000

theorem tri_77 : allRows triRow ansiTrinomials 770 10 = true := by decide +kernel
theorem tri_78 : allRows triRow ansiTrinomials 780 10 = true := by decide +kernel
theorem tri_79 : allRows triRow ansiTrinomials 790 10 = true := by decide +kernel
theorem tri_80 : allRows triRow ansiTrinomials 800 10 = true := by decide +kernel
theorem tri_81 : allRows triRow ansiTrinomials 810 10 = true := by decide +kernel
theorem tri_82 : allRows triRow ansiTrinomials 820 10 = true := by decide +kernel
theorem tri_83 : allRows triRow ansiTrinomials 830 10 = true := by decide +kernel
theorem tri_84 : allRows triRow ansiTrinomials 840 10 = true := by decide +kernel
theorem tri_85 : allRows triRow ansiTrinomials 850 10 = true := by decide +kernel
theorem tri_86 : allRows triRow ansiTrinomials 860 10 = true := by decide +kernel

end Ecgen.Irred
