/-!
# JSON texts

The grammar of RFC 8259 on bytes, with the value that a text denotes. Left out: numbers, which ecgen never prints, and pairs of `\u` escapes for
characters above U+FFFF.
-/

namespace Ecgen.Parson

abbrev Byte := UInt8

/-- `"` -/
def quote : Byte := 34
/-- `\` -/
def backslash : Byte := 92

/-- JSON values. Strings are UTF-8 bytes; the members of an object are in order, names and values in two lists as in `JSON_Object`. -/
inductive Value where
  | null
  | bool (b : Bool)
  | str (s : List Byte)
  | arr (items : List Value)
  | obj (names : List (List Byte)) (values : List Value)

namespace Spec

/-- RFC 8259, section 2: insignificant white space -/
def White (w : List Byte) : Prop := ∀ c ∈ w, c = 32 ∨ c = 9 ∨ c = 10 ∨ c = 13

/-- the byte that a two-character escape denotes, section 7 -/
def short : Byte → Option Byte
  | 34 => some 34
  | 92 => some 92
  | 47 => some 47
  | 98 => some 8
  | 102 => some 12
  | 110 => some 10
  | 114 => some 13
  | 116 => some 9
  | _ => none

/-- the value of a hex digit, either case -/
def hexDigit (c : Byte) : Option Nat :=
  if 48 ≤ c ∧ c ≤ 57 then some (c.toNat - 48)
  else if 97 ≤ c ∧ c ≤ 102 then some (c.toNat - 87)
  else if 65 ≤ c ∧ c ≤ 70 then some (c.toNat - 55)
  else none

/-- the character of four hex digits; none for surrogates -/
def unicode (a b c d : Byte) : Option Char :=
  match hexDigit a, hexDigit b, hexDigit c, hexDigit d with
  | some w, some x, some y, some z =>
    let n := 4096 * w + 256 * x + 16 * y + z
    if 0xd800 ≤ n ∧ n ≤ 0xdfff then none else some (Char.ofNat n)
  | _, _, _, _ => none

/-- the text between the quotes of a string, and the bytes it denotes -/
inductive Chars : List Byte → List Byte → Prop
  | nil : Chars [] []
  | plain (c : Byte) {t s} : 0x20 ≤ c → c ≠ quote → c ≠ backslash → Chars t s → Chars (c :: t) (c :: s)
  | short (c d : Byte) {t s} : short c = some d → Chars t s → Chars (backslash :: c :: t) (d :: s)
  | unicode (a b c d : Byte) (x : Char) {t s} : unicode a b c d = some x → Chars t s →
      Chars (backslash :: 117 :: a :: b :: c :: d :: t) (String.utf8EncodeChar x ++ s)

mutual
/-- the text of a value -/
inductive Text : List Byte → Value → Prop
  | null : Text [110, 117, 108, 108] .null
  | true : Text [116, 114, 117, 101] (.bool true)
  | false : Text [102, 97, 108, 115, 101] (.bool false)
  | str {t s} : Chars t s → Text (quote :: (t ++ [quote])) (.str s)
  | arrEmpty {w} : White w → Text (91 :: (w ++ [93])) (.arr [])
  | arr {t vs} : Items t vs → Text (91 :: (t ++ [93])) (.arr vs)
  | objEmpty {w} : White w → Text (123 :: (w ++ [125])) (.obj [] [])
  | obj {t ns vs} : Members t ns vs → Text (123 :: (t ++ [125])) (.obj ns vs)
/-- one or more values separated by commas -/
inductive Items : List Byte → List Value → Prop
  | one {w t w' v} : White w → Text t v → White w' → Items (w ++ (t ++ w')) [v]
  | more {w t w' v r vs} : White w → Text t v → White w' → Items r vs → Items (w ++ (t ++ (w' ++ 44 :: r))) (v :: vs)
/-- one or more members separated by commas -/
inductive Members : List Byte → List (List Byte) → List Value → Prop
  | one {w k n w1 w2 t w' v} : White w → Chars k n → White w1 → White w2 → Text t v → White w' →
      Members (w ++ quote :: (k ++ quote :: (w1 ++ 58 :: (w2 ++ (t ++ w'))))) [n] [v]
  | more {w k n w1 w2 t w' v r ns vs} : White w → Chars k n → White w1 → White w2 → Text t v → White w' → Members r ns vs →
      Members (w ++ quote :: (k ++ quote :: (w1 ++ 58 :: (w2 ++ (t ++ (w' ++ 44 :: r)))))) (n :: ns) (v :: vs)
end

/-- a JSON document -/
def Document (t : List Byte) (v : Value) : Prop := ∃ w t' w', White w ∧ Text t' v ∧ White w' ∧ t = w ++ (t' ++ w')

end Spec
end Ecgen.Parson
