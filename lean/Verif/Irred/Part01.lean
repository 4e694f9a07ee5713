import Verif.Irred.Rows

/-!
# Irreducibility of table rows, part 1 (generated; evaluated by the kernel)
-/

namespace Ecgen.Irred

open Ecgen.Poly

set_option maxRecDepth 100000

theorem hpTri : allRows triRow hpTrinomials 0 97 = true := by decide +kernel
theorem hpPenta : allRows pentaRow hpPentanomials 0 61 = true := by decide +kernel
theorem tri_0 : allRows triRow ansiTrinomials 0 10 = true := by decide +kernel
theorem tri_1 : allRows triRow ansiTrinomials 10 10 = true := by decide +kernel
theorem tri_2 : allRows triRow ansiTrinomials 20 10 = true := by decide +kernel
theorem tri_3 : allRows triRow ansiTrinomials 30 10 = true := by decide +kernel
theorem tri_4 : allRows triRow ansiTrinomials 40 10 = true := by decide +kernel
theorem tri_5 : allRows triRow ansiTrinomials 50 10 = true := by decide +kernel
theorem tri_6 : allRows triRow ansiTrinomials 60 10 = true := by decide +kernel
theorem tri_7 : allRows triRow ansiTrinomials 70 10 = true := by decide +kernel
theorem tri_8 : allRows triRow ansiTrinomials 80 10 = true := by decide +kernel
theorem tri_9 : allRows triRow ansiTrinomials 90 10 = true := by decide +kernel
theorem tri_10 : allRows triRow ansiTrinomials 100 10 = true := by decide +kernel
theorem tri_11 : allRows triRow ansiTrinomials 110 10 = true := by decide +kernel
theorem tri_12 : allRows triRow ansiTrinomials 120 10 = true := by decide +kernel
theorem tri_13 : allRows triRow ansiTrinomials 130 10 = true := by decide +kernel
theorem tri_14 : allRows triRow ansiTrinomials 140 10 = true := by decide +kernel
theorem tri_15 : allRows triRow ansiTrinomials 150 10 = true := by decide +kernel
theorem tri_16 : allRows triRow ansiTrinomials 160 10 = true := by decide +kernel
theorem tri_17 : allRows triRow ansiTrinomials 170 10 = true := by decide +kernel
theorem tri_18 : allRows triRow ansiTrinomials 180 10 = true := by decide +kernel
theorem tri_19 : allRows triRow ansiTrinomials 190 10 = true := by decide +kernel
theorem tri_20 : allRows triRow ansiTrinomials 200 10 = true := by decide +kernel
theorem tri_21 : allRows triRow ansiTrinomials 210 10 = true := by decide +kernel
theorem tri_22 : allRows triRow ansiTrinomials 220 10 = true := by decide +kernel
theorem tri_23 : allRows triRow ansiTrinomials 230 10 = true := by decide +kernel
theorem tri_24 : allRows triRow ansiTrinomials 240 10 = true := by decide +kernel
theorem tri_25 : allRows triRow ansiTrinomials 250 10 = true := by decide +kernel
theorem tri_26 : allRows triRow ansiTrinomials 260 10 = true := by decide +kernel
theorem tri_27 : allRows triRow ansiTrinomials 270 10 = true := by decide +kernel
theorem tri_28 : allRows triRow ansiTrinomials 280 10 = true := by decide +kernel
theorem tri_29 : allRows triRow ansiTrinomials 290 10 = true := by decide +kernel
theorem tri_30 : allRows triRow ansiTrinomials 300 10 = true := by decide +kernel
theorem tri_31 : allRows triRow ansiTrinomials 310 10 = true := by decide +kernel
theorem tri_32 : allRows triRow ansiTrinomials 320 10 = true := by decide +kernel
theorem tri_33 : allRows triRow ansiTrinomials 330 10 = true := by decide +kernel
theorem tri_34 : allRows triRow ansiTrinomials 340 10 = true := by decide +kernel
theorem tri_35 : allRows triRow ansiTrinomials 350 10 = true := by decide +kernel
theorem tri_36 : allRows triRow ansiTrinomials 360 10 = true := by decide +kernel
theorem tri_37 : allRows triRow ansiTrinomials 370 10 = true := by decide +kernel
theorem tri_38 : allRows triRow ansiTrinomials 380 10 = true := by decide +kernel
theorem tri_39 : allRows triRow ansiTrinomials 390 10 = true := by decide +kernel
theorem tri_40 : allRows triRow ansiTrinomials 400 10 = true := by decide +kernel
theorem tri_41 : allRows triRow ansiTrinomials 410 10 = true := by decide +kernel
theorem tri_42 : allRows triRow ansiTrinomials 420 10 = true := by decide +kernel
theorem tri_43 : allRows triRow ansiTrinomials 430 10 = true := by decide +kernel
theorem tri_44 : allRows triRow ansiTrinomials 440 10 = true := by decide +kernel
theorem tri_45 : allRows triRow ansiTrinomials 450 10 = true := by decide +kernel

end Ecgen.Irred
