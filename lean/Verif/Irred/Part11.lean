import Verif.Irred.Rows

/-!
# Irreducibility of table rows, part 11 (generated; evaluated by the kernel)
-/

namespace Ecgen.Irred

open Ecgen.Poly

set_option maxRecDepth 100000

theorem penta_80 : allRows pentaRow ansiPentanomials 800 10 = true := by decide +kernel
theorem penta_81 : allRows pentaRow ansiPentanomials 810 10 = true := by decide +kernel
theorem penta_82 : allRows pentaRow ansiPentanomials 820 10 = true := by decide +kernel
theorem penta_83 : allRows pentaRow ansiPentanomials 830 10 = true := by decide +kernel
theorem penta_84 : allRows pentaRow ansiPentanomials 840 10 = true := by decide +kernel
theorem penta_85 : allRows pentaRow ansiPentanomials 850 10 = true := by decide +kernel
theorem penta_86 : allRows pentaRow ansiPentanomials 860 10 = true := by decide +kernel

end Ecgen.Irred
