import Verif.Irred.Rows

/-!
# Irreducibility of table rows, part 3 (generated; evaluated by the kernel)
-/

namespace Ecgen.Irred

open Ecgen.Poly

set_option maxRecDepth 100000

theorem tri_64 : allRows triRow ansiTrinomials 640 10 = true := by decide +kernel
theorem tri_65 : allRows triRow ansiTrinomials 650 10 = true := by decide +kernel
theorem tri_66 : allRows triRow ansiTrinomials 660 10 = true := by decide +kernel
theorem tri_67 : allRows triRow ansiTrinomials 670 10 = true := by decide +kernel
theorem tri_68 : allRows triRow ansiTrinomials 680 10 = true := by decide +kernel
theorem tri_69 : allRows triRow ansiTrinomials 690 10 = true := by decide +kernel
theorem tri_70 : allRows triRow ansiTrinomials 700 10 = true := by decide +kernel
theorem tri_71 : allRows triRow ansiTrinomials 710 10 = true := by decide +kernel
theorem tri_72 : allRows triRow ansiTrinomials 720 10 = true := by decide +kernel
theorem tri_73 : allRows triRow ansiTrinomials 730 10 = true := by decide +kernel
theorem tri_74 : allRows triRow ansiTrinomials 740 10 = true := by decide +kernel
theorem tri_75 : allRows triRow ansiTrinomials 750 10 = true := by decide +kernel
theorem tri_76 : allRows triRow ansiTrinomials 760 10 = true := by decide +kernel

end Ecgen.Irred
