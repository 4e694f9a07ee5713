import Verif.Irred.Rows

/-!
# Irreducibility of table rows, part 8 (generated; evaluated by the kernel)
-/

namespace Ecgen.Irred

open Ecgen.Poly

set_option maxRecDepth 100000

theorem penta_53 : allRows pentaRow ansiPentanomials 530 10 = true := by decide +kernel
theorem penta_54 : allRows pentaRow ansiPentanomials 540 10 = true := by decide +kernel
theorem penta_55 : allRows pentaRow ansiPentanomials 550 10 = true := by decide +kernel
theorem penta_56 : allRows pentaRow ansiPentanomials 560 10 = true := by decide +kernel
theorem penta_57 : allRows pentaRow ansiPentanomials 570 10 = true := by decide +kernel
theorem penta_58 : allRows pentaRow ansiPentanomials 580 10 = true := by decide +kernel
theorem penta_59 : allRows pentaRow ansiPentanomials 590 10 = true := by decide +kernel
theorem penta_60 : allRows pentaRow ansiPentanomials 600 10 = true := by decide +kernel
theorem penta_61 : allRows pentaRow ansiPentanomials 610 10 = true := by decide +kernel
theorem penta_62 : allRows pentaRow ansiPentanomials 620 10 = true := by decide +kernel
theorem penta_63 : allRows pentaRow ansiPentanomials 630 10 = true := by decide +kernel

end Ecgen.Irred
