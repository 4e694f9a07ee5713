import Verif.Irred.Rows

/-!
# Irreducibility of table rows, part 6 (generated; evaluated by the kernel)
-/

namespace Ecgen.Irred

open Ecgen.Poly

set_option maxRecDepth 100000

theorem penta_0 : allRows pentaRow ansiPentanomials 0 10 = true := by decide +kernel
theorem penta_1 : allRows pentaRow ansiPentanomials 10 10 = true := by decide +kernel
theorem penta_2 : allRows pentaRow ansiPentanomials 20 10 = true := by decide +kernel
theorem penta_3 : allRows pentaRow ansiPentanomials 30 10 = true := by decide +kernel
theorem penta_4 : allRows pentaRow ansiPentanomials 40 10 = true := by decide +kernel
theorem penta_5 : allRows pentaRow ansiPentanomials 50 10 = true := by decide +kernel
theorem penta_6 : allRows pentaRow ansiPentanomials 60 10 = true := by decide +kernel
theorem penta_7 : allRows pentaRow ansiPentanomials 70 10 = true := by decide +kernel
theorem penta_8 : allRows pentaRow ansiPentanomials 80 10 = true := by decide +kernel
theorem penta_9 : allRows pentaRow ansiPentanomials 90 10 = true := by decide +kernel
theorem penta_10 : allRows pentaRow ansiPentanomials 100 10 = true := by decide +kernel
theorem penta_11 : allRows pentaRow ansiPentanomials 110 10 = true := by decide +kernel
theorem penta_12 : allRows pentaRow ansiPentanomials 120 10 = true := by decide +kernel
theorem penta_13 : allRows pentaRow ansiPentanomials 130 10 = true := by decide +kernel
theorem penta_14 : allRows pentaRow ansiPentanomials 140 10 = true := by decide +kernel
theorem penta_15 : allRows pentaRow ansiPentanomials 150 10 = true := by decide +kernel
theorem penta_16 : allRows pentaRow ansiPentanomials 160 10 = true := by decide +kernel
theorem penta_17 : allRows pentaRow ansiPentanomials 170 10 = true := by decide +kernel
theorem penta_18 : allRows pentaRow ansiPentanomials 180 10 = true := by decide +kernel
theorem penta_19 : allRows pentaRow ansiPentanomials 190 10 = true := by decide +kernel
theorem penta_20 : allRows pentaRow ansiPentanomials 200 10 = true := by decide +kernel
theorem penta_21 : allRows pentaRow ansiPentanomials 210 10 = true := by decide +kernel
theorem penta_22 : allRows pentaRow ansiPentanomials 220 10 = true := by decide +kernel
theorem penta_23 : allRows pentaRow ansiPentanomials 230 10 = true := by decide +kernel
theorem penta_24 : allRows pentaRow ansiPentanomials 240 10 = true := by decide +kernel
theorem penta_25 : allRows pentaRow ansiPentanomials 250 10 = true := by decide +kernel
theorem penta_26 : allRows pentaRow ansiPentanomials 260 10 = true := by decide +kernel
theorem penta_27 : allRows pentaRow ansiPentanomials 270 10 = true := by decide +kernel
theorem penta_28 : allRows pentaRow ansiPentanomials 280 10 = true := by decide +kernel
theorem penta_29 : allRows pentaRow ansiPentanomials 290 10 = true := by decide +kernel
theorem penta_30 : allRows pentaRow ansiPentanomials 300 10 = true := by decide +kernel
theorem penta_31 : allRows pentaRow ansiPentanomials 310 10 = true := by decide +kernel
theorem penta_32 : allRows pentaRow ansiPentanomials 320 10 = true := by decide +kernel
theorem penta_33 : allRows pentaRow ansiPentanomials 330 10 = true := by decide +kernel
theorem penta_34 : allRows pentaRow ansiPentanomials 340 10 = true := by decide +kernel
theorem penta_35 : allRows pentaRow ansiPentanomials 350 10 = true := by decide +kernel
theorem penta_36 : allRows pentaRow ansiPentanomials 360 10 = true := by decide +kernel
theorem penta_37 : allRows pentaRow ansiPentanomials 370 10 = true := by decide +kernel

end Ecgen.Irred
