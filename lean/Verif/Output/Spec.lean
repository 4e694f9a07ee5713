import Verif.Output.Model
import Verif.Bits.Spec

/-!
# Specification of the printed form

`readCurve` reads a printed curve back, without reference to how it was printed.
-/

namespace Ecgen.Output.Spec

open Bits (ofHex)

/-- the number denoted by `0x…` -/
def readHex : Text → Option Nat
  | '0' :: 'x' :: c :: s => ofHex (c :: s)
  | _ => none

/-- the number denoted by `0x…` or `-0x…` -/
def readSigned : Text → Option Int
  | '-' :: s => (readHex s).map fun n => -(n : Int)
  | s => (readHex s).map fun n => (n : Int)

/-- the value of a name in a list of names and values -/
def find (k : String) : List (String × Json) → Option Json
  | [] => none
  | (k', v) :: l => if k' = k then some v else find k l

/-- the value of a name in an object -/
def member (k : String) : Json → Option Json
  | .obj l => find k l
  | _ => none

/-- a text -/
def text : Json → Option Text
  | .str s => some s
  | _ => none

/-- the number printed under a name -/
def number (k : String) (j : Json) : Option Nat := (member k j).bind fun v => (text v).bind readHex

/-- the items of an array, none when it is missing -/
def items : Option Json → Option (List Json)
  | none => some []
  | some (.arr l) => some l
  | _ => none

/-- the values of a point: coordinates, order and cofactor -/
structure PointV where
  x : Nat
  y : Nat
  order : Nat
  cofactor : Option Nat
  deriving DecidableEq, Repr

/-- the values of a field: the prime, or the exponents of the modulus -/
inductive FieldV where
  | prime (p : Nat)
  | binary (m e1 e2 e3 : Nat)
  deriving DecidableEq, Repr

/-- the values of a curve -/
structure CurveV where
  field : FieldV
  seed : Option Int
  a : Nat
  b : Nat
  order : Nat
  gens : List (PointV × List PointV)
  deriving DecidableEq, Repr

/-- read a point -/
def readPoint (j : Json) : Option PointV :=
  (number "x" j).bind fun x => (number "y" j).bind fun y => (number "order" j).bind fun o =>
    match member "cofactor" j with
    | none => some ⟨x, y, o, none⟩
    | some v => ((text v).bind readHex).map fun c => ⟨x, y, o, some c⟩

/-- read a subgroup -/
def readSubgroup (j : Json) : Option (PointV × List PointV) :=
  (readPoint j).bind fun p => (items (member "points" j)).bind fun l => (allSome (l.map readPoint)).map fun ps => (p, ps)

/-- read a field -/
def readField (j : Json) : Option FieldV :=
  match member "p" j with
  | some v => ((text v).bind readHex).map .prime
  | none =>
    (number "m" j).bind fun m => (number "e1" j).bind fun e1 => (number "e2" j).bind fun e2 => (number "e3" j).map fun e3 =>
      .binary m e1 e2 e3

/-- read a curve -/
def readCurve (j : Json) : Option CurveV :=
  ((member "field" j).bind readField).bind fun f =>
  (match member "seed" j with
    | none => some none
    | some v => ((text v).bind readSigned).map some).bind fun s =>
  (number "a" j).bind fun a => (number "b" j).bind fun b => (number "order" j).bind fun o =>
  (items (member "subgroups" j)).bind fun l => (allSome (l.map readSubgroup)).map fun g => ⟨f, s, a, b, o, g⟩

/-! ## The values of a curve -/

/-- the exponents of the nonzero terms of a modulus, the constant excepted, highest first -/
def exponents (modulus : List Bool) : List Nat :=
  ((List.range modulus.length).reverse.filter fun i => i ≠ 0 ∧ modulus.reverse.getD i false)

/-- an element of a field in its normal form -/
def Elem : Field → Elt → Prop
  | .prime p, .intmod n q => q = p ∧ n < p
  | .binary modulus, .ff v => v.length < modulus.length ∧ v.head? ≠ some false
  | _, _ => False

/-- the number that stands for an element: the residue, or the polynomial evaluated at 2 -/
def eltV : Elt → Nat
  | .int n => n
  | .intmod n p => n % p
  | .ff v => ((List.range v.length).map fun i => if v.reverse.getD i false then 2 ^ i else 0).sum

/-- the size of a field -/
def size : Field → Nat
  | .prime p => p
  | .binary modulus => 2 ^ (modulus.length - 1)

def pointV (p : Point) : PointV := ⟨eltV p.x, eltV p.y, p.order, p.cofactor⟩

def fieldV : Field → FieldV
  | .prime p => .prime p
  | .binary modulus => .binary ((exponents modulus).getD 0 0) ((exponents modulus).getD 1 0) ((exponents modulus).getD 2 0)
      ((exponents modulus).getD 3 0)

/-- the signed value of a seed -/
def seedV (s : Bits.Bits) : Int := if s.sign then -(Bits.ofBits s.val : Int) else Bits.ofBits s.val

def curveV (c : Curve) : CurveV :=
  ⟨fieldV c.field, c.seed.map seedV, eltV c.a, eltV c.b, c.order, c.gens.map fun g => (pointV g.generator, g.points.map pointV)⟩

/-- `p` occurs in `s` -/
def Occurs (p s : Text) : Prop := ∃ a b, s = a ++ p ++ b

/-- the hex digits of a number, filled up with zeros to the given width, without prefix -/
def digitsOf (width n : Nat) : Text :=
  List.replicate (width - (Nat.toDigits 16 n).length) '0' ++ Nat.toDigits 16 n

/-- the digits of the coordinates of a point -/
def pointDigits (width : Nat) (p : Point) : List Text := [digitsOf width (eltV p.x), digitsOf width (eltV p.y)]

/-- the digits of the parameters that the hex search looks at: seed, prime, coefficients, order, and the coordinates of the generators and
points -/
def searched (width : Nat) (c : Curve) : List Text :=
  (match c.seed.bind Bits.toHex with
    | some h => [h]
    | none => []) ++
  (match c.field with
    | .prime p => [digitsOf width p]
    | .binary _ => []) ++
  [digitsOf width (eltV c.a), digitsOf width (eltV c.b), digitsOf width c.order] ++
  c.gens.flatMap (fun g => pointDigits width g.generator) ++ c.gens.flatMap (fun g => g.points.flatMap (pointDigits width))

end Ecgen.Output.Spec
