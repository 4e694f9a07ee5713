import Verif.Irred.Rows

/-!
# Irreducibility of table rows, part 10 (generated; evaluated by the kernel)
-/

namespace Ecgen.Irred

open Ecgen.Poly

set_option maxRecDepth 100000

theorem penta_73 : allRows pentaRow ansiPentanomials 730 10 = true := by decide +kernel
theorem penta_74 : allRows pentaRow ansiPentanomials 740 10 = true := by decide +kernel
theorem penta_75 : allRows pentaRow ansiPentanomials 750 10 = true := by decide +kernel
theorem penta_76 : allRows pentaRow ansiPentanomials 760 10 = true := by decide +kernel
theorem penta_77 : allRows pentaRow ansiPentanomials 770 10 = true := by decide +kernel
theorem penta_78 : allRows pentaRow ansiPentanomials 780 10 = true := by decide +kernel
theorem penta_79 : allRows pentaRow ansiPentanomials 790 10 = true := by decide +kernel

end Ecgen.Irred
