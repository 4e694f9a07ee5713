import Mathlib.GroupTheory.SpecificGroups.Cyclic

/-!
# What PARI promises about generators
-/

namespace Ecgen.Group

open AddSubgroup

variable {A : Type} [AddCommGroup A]

/-- contract of `ellff_get_gens`: no generator for the trivial group, one generator of a cyclic group, otherwise two
independent generators `g`, `h` of the group with the order of `h` dividing that of `g` -/
def GensSpec (A : Type) [AddCommGroup A] : List A → Prop
  | [] => ∀ x : A, x = 0
  | [g] => g ≠ 0 ∧ ∀ x : A, x ∈ zmultiples g
  | [g, h] => h ≠ 0 ∧ addOrderOf h ∣ addOrderOf g ∧ Disjoint (zmultiples g) (zmultiples h) ∧
      ∀ x : A, ∃ a b : ℤ, x = a • g + b • h
  | _ => False

end Ecgen.Group
