import Verif.Parson.Model
import Verif.Output.Model
import Verif.Json.Model

/-!
# Model of the printing of curves as bytes (`/repo/src/io/output.c`)

The same code as in `Verif.Output.Model`, now with the calls of parson it makes, and the text behind them. Texts made by PARI are sequences of characters in
UTF-8; all of them are ASCII in fact. `cfg->metadata` is off when `info` is empty.
-/

namespace Ecgen.Parson

open Output (Curve Point Subgroup Field px elementi seedText fieldParams)

/-- the bytes of a text -/
def utf8 (t : List Char) : List Byte := t.flatMap String.utf8EncodeChar

/-- the bytes of a string constant -/
def name (k : String) : List Byte := utf8 k.toList

/-- a result of parson that is not looked at: a failure leaves the object as it was -/
def ignore (o : Obj) (r : R Obj) : R Obj :=
  match r with
  | .error .fail => .ok o
  | r => r

/-- `output_json_point`, output.c:27-49 -/
def pointObj (width : Nat) (p : Point) : R Obj := do
  let o ← ignore ([], []) (setString ([], []) (name "x") (utf8 (px width (elementi p.x))))
  let o ← ignore o (setString o (name "y") (utf8 (px width (elementi p.y))))
  let o ← ignore o (setString o (name "order") (utf8 (px 0 p.order)))
  match p.cofactor with
  | some c => ignore o (setString o (name "cofactor") (utf8 (px 0 c)))
  | none => .ok o

/-- `json_value_get_object` of an object and back -/
def objValue (o : Obj) : Value := .obj o.1 o.2

/-- the inner loop, output.c:124-128: `json_array_append_value` (parson.c:1686-1691) puts the value at the end -/
def pointsLoop (width : Nat) : List Point → List Value → R (List Value)
  | [], items => .ok items
  | p :: ps, items => do
    let o ← pointObj width p
    pointsLoop width ps (items ++ [objValue o])

/-- one pass of the outer loop, output.c:116-131 -/
def subgroupValue (width : Nat) (g : Subgroup) : R Value := do
  let o ← pointObj width g.generator
  if g.points ≠ [] then
    let items ← pointsLoop width g.points []
    let o ← ignore o (setValue o (name "points") (.arr items))
    return objValue o
  else return objValue o

/-- the outer loop, output.c:115-132 -/
def gensLoop (width : Nat) : List Subgroup → List Value → R (List Value)
  | [], items => .ok items
  | g :: gs, items => do
    let v ← subgroupValue width g
    gensLoop width gs (items ++ [v])

/-- the field, output.c:57-83 -/
def fieldObj (width : Nat) (f : Field) : R Obj :=
  match f with
  | .prime p => dotsetString ([], []) (name "field.p") (utf8 (px width p))
  | .binary modulus =>
    match fieldParams modulus with
    | none => .error .ub
    | some e => do
      let o ← dotsetString ([], []) (name "field.m") (utf8 (px 0 (e.getD 0 0)))
      let o ← dotsetString o (name "field.e1") (utf8 (px 0 (e.getD 1 0)))
      let o ← dotsetString o (name "field.e2") (utf8 (px 0 (e.getD 2 0)))
      dotsetString o (name "field.e3") (utf8 (px 0 (e.getD 3 0)))

/-- the seed, output.c:84-101 -/
def seedObj (seed : Option Bits.Bits) (o : Obj) : R Obj :=
  match seed with
  | none => .ok o
  | some s =>
    match seedText s with
    | none => .error .ub
    | some t => ignore o (setString o (name "seed") (utf8 t))

/-- the subgroups, output.c:112-134 -/
def gensObj (width : Nat) (gens : List Subgroup) (o : Obj) : R Obj :=
  if gens ≠ [] then do
    let items ← gensLoop width gens []
    ignore o (setValue o (name "subgroups") (.arr items))
  else .ok o

/-- the metadata, output.c:135-173, for the entries that are not `NULL` -/
def metaLoop : List (String × Output.Text) → Obj → R Obj
  | [], o => .ok o
  | x :: xs, o => do
    let o ← dotsetString o (name ("meta." ++ x.1)) (utf8 x.2)
    metaLoop xs o

/-- `output_jjson`, output.c:51-177 -/
def outputJjson (width : Nat) (c : Curve) : R Value := do
  let o ← fieldObj width c.field
  let o ← seedObj c.seed o
  let o ← ignore o (setString o (name "a") (utf8 (px width (elementi c.a))))
  let o ← ignore o (setString o (name "b") (utf8 (px width (elementi c.b))))
  let o ← ignore o (setString o (name "order") (utf8 (px width c.order)))
  let o ← gensObj width c.gens o
  let o ← metaLoop c.info o
  return objValue o

/-- `output_sjson`, output.c:179-185 -/
def outputSjson (malloc : Nat → List Byte) (width : Nat) (c : Curve) : R (List Byte) := do
  let v ← outputJjson width c
  toStringPretty malloc v

/-- the text printed for one step of `exhaustive_generate`: `output_sjson_begin`, `_separator` and `_end` (output.c:187-191), or the text of a curve -/
def tokText {κ : Type} (text : κ → List Byte) : Json.Tok κ → List Byte
  | .open => [91, 10]
  | .comma => [44, 10]
  | .close => [93, 10]
  | .obj c => text c

/-- all that `exhaustive_generate` prints -/
def outputText {κ : Type} (text : κ → List Byte) (ts : List (Json.Tok κ)) : List Byte := ts.flatMap (tokText text)

end Ecgen.Parson
