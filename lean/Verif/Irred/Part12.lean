import Verif.Irred.Rows

/-!
# Irreducibility of table rows, part 12 (generated; evaluated by the kernel)
-/

namespace Ecgen.Irred

open Ecgen.Poly

set_option maxRecDepth 100000

theorem penta_87 : allRows pentaRow ansiPentanomials 870 10 = true := by decide +kernel
theorem penta_88 : allRows pentaRow ansiPentanomials 880 10 = true := by decide +kernel

end Ecgen.Irred
