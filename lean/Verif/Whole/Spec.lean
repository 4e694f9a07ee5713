import Verif.Output.Spec
import Verif.Cli.Model
import Mathlib.AlgebraicGeometry.EllipticCurve.Affine.Point
import Mathlib.RingTheory.AdjoinRoot
import Mathlib.Algebra.Field.ZMod
import Mathlib.GroupTheory.OrderOfElement

/-!
# What the user asked for (C75)

The meaning of a printed curve, from the numbers read back from the text (`Output.CurveV`) and Mathlib's elliptic curves alone: the field of a
description, the element of a number, the curve of two numbers, its group of points; and what the options of the command line ask of them.
-/

namespace Ecgen.Whole

open Polynomial Output Output.Spec

/-! ## Fields -/

/-- the reduction polynomial with the exponents `m`, `e1`, `e2`, `e3`, where zero stands for an absent term -/
noncomputable def modulus (m e1 e2 e3 : Nat) : (ZMod 2)[X] :=
  X ^ m + (([e1, e2, e3].filter (· ≠ 0)).map fun e => X ^ e).sum + 1

/-- the exponents decrease, up to the absent terms at the end -/
def Shape (m e1 e2 e3 : Nat) : Prop := e1 < m ∧ (e2 < e1 ∨ e2 = 0) ∧ (e3 < e2 ∨ e3 = 0)

/-- the description is that of a field: a prime, or an irreducible polynomial -/
def Good : FieldV → Prop
  | .prime p => p.Prime
  | .binary m e1 e2 e3 => Shape m e1 e2 e3 ∧ Irreducible (modulus m e1 e2 e3)

/-- descriptions of fields -/
abbrev Fld := { f : FieldV // Good f }

/-- the elements of a field -/
def Carrier : Fld → Type
  | ⟨.prime p, _⟩ => ZMod p
  | ⟨.binary m e1 e2 e3, _⟩ => AdjoinRoot (modulus m e1 e2 e3)

noncomputable instance (f : Fld) : Field (Carrier f) :=
  match f with
  | ⟨.prime p, h⟩ => haveI : Fact p.Prime := ⟨h⟩; inferInstanceAs (Field (ZMod p))
  | ⟨.binary m e1 e2 e3, h⟩ => haveI : Fact (Irreducible (modulus m e1 e2 e3)) := ⟨h.2⟩; inferInstanceAs (Field (AdjoinRoot (modulus m e1 e2 e3)))

noncomputable instance (f : Fld) : DecidableEq (Carrier f) := Classical.decEq _

/-- the polynomial whose coefficients are the binary digits of a number -/
noncomputable def bitPoly (n : Nat) : (ZMod 2)[X] := ∑ i ∈ Finset.range n.size, if n.testBit i then X ^ i else 0

/-- the element of a number: the residue class, or the class of the polynomial of its binary digits -/
noncomputable def elem : (f : Fld) → Nat → Carrier f
  | ⟨.prime p, _⟩, n => (n : ZMod p)
  | ⟨.binary m e1 e2 e3, _⟩, n => AdjoinRoot.mk (modulus m e1 e2 e3) (bitPoly n)

/-- the number of elements -/
def fieldSize : FieldV → Nat
  | .prime p => p
  | .binary m _ _ _ => 2 ^ m

/-! ## Curves -/

/-- `y² = x³ + ax + b` over prime fields, `y² + xy = x³ + ax² + b` over binary fields -/
noncomputable def equation (f : Fld) (a b : Carrier f) : WeierstrassCurve.Affine (Carrier f) :=
  match f.1 with
  | .prime _ => ⟨0, 0, 0, a, b⟩
  | .binary .. => ⟨1, a, 0, 0, b⟩

/-- the numbers `x`, `y`, both below the size of the field, are the coordinates of the point `P` -/
def At (f : Fld) (E : WeierstrassCurve.Affine (Carrier f)) (x y : Nat) (P : E.Point) : Prop :=
  x < fieldSize f.1 ∧ y < fieldSize f.1 ∧ ∃ h : E.Nonsingular (elem f x) (elem f y), P = .some _ _ h

/-! ## Requests -/

open Cli (Config)

/-- what the options say about the field. A random field has the size asked for; a typed prime has at most that many bits (up to the bound
itself, which is prime for one bit). A binary field has the degree asked for, of at most 16 bits. -/
def FieldAsked (c : Config) : FieldV → Prop
  | .prime p => c.field = 1 ∧ (c.random &&& 2 ≠ 0 → 2 ≤ c.bits → p.size = c.bits) ∧ p ≤ 2 ^ c.bits
  | .binary m _ _ _ => c.field = 2 ∧ m = c.bits ∧ m ≤ 65536

/-- what the options say about the order: `--prime`, `--cofactor=k`, `--smooth=n`. The C program reads `k` and `n` as unsigned 64-bit numbers. -/
def OrderAsked (c : Config) (n : Nat) : Prop :=
  (c.prime = true → n.Prime) ∧
  (c.cofactor = true → ∃ q : Nat, q.Prime ∧ n = Cli.toSize c.cofactorValue * q) ∧
  (c.smooth = true → ∀ q : Nat, q.Prime → q ∣ n → q < 2 ^ Cli.toSize c.smoothValue)

/-- what `--koblitz` says about the coefficients; together with `--ansi` it is reported as unused -/
def KoblitzAsked (c : Config) (a b : Nat) : Prop := c.koblitz = true → c.seedAlgo = .none → (a : Int) = c.koblitzValue ∧ b = 1

/-- a generator as printed, for a curve of `n` points: a point of the printed order, and the cofactor completes the order -/
def GeneratorOk {f : Fld} {E : WeierstrassCurve.Affine (Carrier f)} (n : Nat) (g : PointV) (G : E.Point) : Prop :=
  At f E g.x g.y G ∧ g.order = addOrderOf G ∧ ∃ k, g.cofactor = some k ∧ g.order * k = n

/-- the orders of the points `--points` asks for in a subgroup of order `n`; nothing is said for random points -/
def pointOrders (c : Config) (n : Nat) : Option (Nat → Prop) :=
  match c.pointsType with
  | .prime => some fun d => d.Prime ∧ d ∣ n
  | .nonprime => some fun d => 1 < d ∧ ¬ d.Prime ∧ d ∣ n
  | .all => some fun d => 1 < d ∧ d ∣ n
  | .none => some fun _ => False
  | .random => none

/-- the points listed for the generator `G`: multiples of it, other than the point at infinity, of the printed orders; one for each order asked
for, in increasing order -/
def PointsOk {f : Fld} {E : WeierstrassCurve.Affine (Carrier f)} (c : Config) (g : PointV) (G : E.Point) (ps : List PointV) : Prop :=
  (∀ p ∈ ps, ∃ P : E.Point, At f E p.x p.y P ∧ P ∈ AddSubgroup.zmultiples G ∧ p.order = addOrderOf P ∧ p.cofactor = none) ∧
  ∀ Q, pointOrders c g.order = some Q → (ps.map (·.order)).Pairwise (· < ·) ∧ ∀ d, d ∈ ps.map (·.order) ↔ Q d

/-- the generators as a whole, for a curve of `n` points. With `--unique` there is one generator of the whole group (none, if there is but one
point). With `--cofactor=k` the first generator has the order `n / k` and the others generate the group. -/
def GeneratorsOk {f : Fld} {E : WeierstrassCurve.Affine (Carrier f)} (c : Config) (n : Nat) (gs : List E.Point) : Prop :=
  (c.unique = true → (n = 1 ∧ gs = []) ∨ ∃ G, gs = [G] ∧ addOrderOf G = n) ∧
  (c.unique = false → c.cofactor = true → ∃ G l, gs = G :: l ∧ AddSubgroup.closure {P | P ∈ l} = ⊤ ∧
    n = Cli.toSize c.cofactorValue * addOrderOf G ∧ (addOrderOf G).Prime) ∧
  (c.unique = true ∨ c.cofactor = false → AddSubgroup.closure {P | P ∈ gs} = ⊤)

/-- **the printed curve is one that was asked for**. The first coefficient that `--ansi` prints is a number that need not be below the size of the field
(`ansi_unreduced_false`). -/
def Asked (c : Config) (v : CurveV) : Prop :=
  (v.seed.isSome ↔ c.seedAlgo ≠ .none) ∧ ∃ f : Fld, v.field = f.1 ∧ FieldAsked c v.field ∧
    (c.seedAlgo = .none → v.a < fieldSize v.field) ∧ v.b < fieldSize v.field ∧ KoblitzAsked c v.a v.b ∧
    (equation f (elem f v.a) (elem f v.b)).Δ ≠ 0 ∧
    v.order = Nat.card (equation f (elem f v.a) (elem f v.b)).Point ∧ OrderAsked c v.order ∧
    ∃ gs : List (equation f (elem f v.a) (elem f v.b)).Point,
      List.Forall₂ (fun g G => GeneratorOk v.order g.1 G ∧ PointsOk c g.1 G g.2) v.gens gs ∧ GeneratorsOk c v.order gs ∧
      (c.pointsType = .random → c.pointsAmount ≠ 0 → (v.gens.map fun g => g.2.length).sum = c.pointsAmount)

end Ecgen.Whole
