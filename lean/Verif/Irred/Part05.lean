import Verif.Irred.Rows

/-!
# Irreducibility of table rows, part 5 (generated; evaluated by the kernel)
-/

namespace Ecgen.Irred

open Ecgen.Poly

set_option maxRecDepth 100000

theorem tri_87 : allRows triRow ansiTrinomials 870 10 = true := by decide +kernel
theorem tri_88 : allRows triRow ansiTrinomials 880 10 = true := by decide +kernel
theorem tri_89 : allRows triRow ansiTrinomials 890 10 = true := by decide +kernel
theorem tri_90 : allRows triRow ansiTrinomials 900 10 = true := by decide +kernel
theorem tri_91 : allRows triRow ansiTrinomials 910 10 = true := by decide +kernel
theorem tri_92 : allRows triRow ansiTrinomials 920 10 = true := by decide +kernel
theorem tri_93 : allRows triRow ansiTrinomials 930 10 = true := by decide +kernel
theorem tri_94 : allRows triRow ansiTrinomials 940 10 = true := by decide +kernel
theorem tri_95 : allRows triRow ansiTrinomials 950 10 = true := by decide +kernel

end Ecgen.Irred
