import Verif.Irred.Check
import Verif.Poly.Tables

/-!
# The test applied to rows of the tables
-/

namespace Ecgen.Irred

open Ecgen.Poly

noncomputable section

def triRow (l8 l4 : List (Nat × Nat)) (r : Row) : Bool := testTri l8 l4 r.m r.e1

def pentaRow (l8 l4 : List (Nat × Nat)) (r : Row) : Bool := testPenta l8 l4 r.m r.e1 r.e2 r.e3

/-- the test for `n` rows from row `i` on -/
def allRows (t : List (Nat × Nat) → List (Nat × Nat) → Row → Bool) (l : List Row) (i n : Nat) : Bool :=
  ((l.drop i).take n).all (t (levels 8 layout8) (levels 4 layout4))

end

end Ecgen.Irred
