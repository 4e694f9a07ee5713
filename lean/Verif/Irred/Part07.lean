import Verif.Irred.Rows

/-!
# Irreducibility of table rows, part 7 (generated; evaluated by the kernel)
-/

namespace Ecgen.Irred

open Ecgen.Poly

set_option maxRecDepth 100000

theorem penta_38 : allRows pentaRow ansiPentanomials 380 10 = true := by decide +kernel
theorem penta_39 : allRows pentaRow ansiPentanomials 390 10 = true := by decide +kernel
theorem penta_40 : allRows pentaRow ansiPentanomials 400 10 = true := by decide +kernel
theorem penta_41 : allRows pentaRow ansiPentanomials 410 10 = true := by decide +kernel
theorem penta_42 : allRows pentaRow ansiPentanomials 420 10 = true := by decide +kernel
theorem penta_43 : allRows pentaRow ansiPentanomials 430 10 = true := by decide +kernel
theorem penta_44 : allRows pentaRow ansiPentanomials 440 10 = true := by decide +kernel
theorem penta_45 : allRows pentaRow ansiPentanomials 450 10 = true := by decide +kernel
theorem penta_46 : allRows pentaRow ansiPentanomials 460 10 = true := by decide +kernel
theorem penta_47 : allRows pentaRow ansiPentanomials 470 10 = true := by decide +kernel
theorem penta_48 : allRows pentaRow ansiPentanomials 480 10 = true := by decide +kernel
theorem penta_49 : allRows pentaRow ansiPentanomials 490 10 = true := by decide +kernel
theorem penta_50 : allRows pentaRow ansiPentanomials 500 10 = true := by decide +kernel
theorem penta_51 : allRows pentaRow ansiPentanomials 510 10 = true := by decide +kernel
theorem penta_52 : allRows pentaRow ansiPentanomials 520 10 = true := by decide +kernel

end Ecgen.Irred
