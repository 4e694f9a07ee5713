import Verif.Irred.Rows

/-!
# Irreducibility of table rows, part 9 (generated; evaluated by the kernel)
-/

namespace Ecgen.Irred

open Ecgen.Poly

set_option maxRecDepth 100000

theorem penta_64 : allRows pentaRow ansiPentanomials 640 10 = true := by decide +kernel
theorem penta_65 : allRows pentaRow ansiPentanomials 650 10 = true := by decide +kernel
theorem penta_66 : allRows pentaRow ansiPentanomials 660 10 = true := by decide +kernel
theorem penta_67 : allRows pentaRow ansiPentanomials 670 10 = true := by decide +kernel
theorem penta_68 : allRows pentaRow ansiPentanomials 680 10 = true := by decide +kernel
theorem penta_69 : allRows pentaRow ansiPentanomials 690 10 = true := by decide +kernel
theorem penta_70 : allRows pentaRow ansiPentanomials 700 10 = true := by decide +kernel
theorem penta_71 : allRows pentaRow ansiPentanomials 710 10 = true := by decide +kernel
theorem penta_72 : allRows pentaRow ansiPentanomials 720 10 = true := by decide +kernel

end Ecgen.Irred
