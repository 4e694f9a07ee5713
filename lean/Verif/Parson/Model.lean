import Verif.Parson.Spec

/-!
# Model of the parts of parson that ecgen uses (`/repo/lib/parson/parson.c`)

A C string is a list of nonzero bytes, followed by a zero that may be read. Values are trees: the `parent` pointers (only used to refuse a value that is
already part of a tree, which ecgen never tries), the capacities of the arrays (`grow` below) and the allocations themselves are left out, as are numbers.
-/

namespace Ecgen.Parson

/-- how a function ends early: undefined behaviour, or the return value -1 / `NULL` / `JSONFailure` -/
inductive Err where
  | ub
  | fail
  deriving DecidableEq, Repr

abbrev R := Except Err

/-- a character constant -/
def chr (c : Char) : Byte := UInt8.ofNat c.toNat

/-! ## UTF-8 -/

/-- `string[i]`; the terminating zero may be read -/
def peek (s : List Byte) (i : Nat) : R Byte :=
  match s[i]? with
  | some c => .ok c
  | none => if i = s.length then .ok 0 else .error .ub

/-- `IS_CONT`, parson.c:58 -/
def isCont (b : Byte) : Bool := b &&& 0xC0 == 0x80

/-- `num_bytes_in_utf8_sequence`, parson.c:184-197 -/
def numBytes (c : Byte) : Nat :=
  if c = 0xC0 ∨ c = 0xC1 ∨ c > 0xF4 ∨ isCont c = true then 0
  else if c &&& 0x80 = 0 then 1
  else if c &&& 0xE0 = 0xC0 then 2
  else if c &&& 0xF0 = 0xE0 then 3
  else if c &&& 0xF8 = 0xF0 then 4
  else 0

/-- a chain of `&&` over `IS_CONT(string[i])`, evaluated from the left -/
def conts (s : List Byte) : List Nat → R Bool
  | [] => .ok true
  | i :: is => do
    let c ← peek s i
    if isCont c then conts s is else .ok false

/-- the code point, parson.c:203-216: the bits of the first byte under `mask`, then six bits of each of the next bytes -/
def codePoint (s : List Byte) (mask : Byte) (is : List Nat) : R Nat := do
  let c ← peek s 0
  is.foldlM (fun cp i => do
    let d ← peek s i
    return cp <<< 6 ||| (d &&& 0x3F).toNat) (c &&& mask).toNat

/-- the checks of the code point, parson.c:221-236 -/
def cpOk (cp len : Nat) : Bool :=
  if (cp < 0x80 ∧ len > 1) ∨ (cp < 0x800 ∧ len > 2) ∨ (cp < 0x10000 ∧ len > 3) then false
  else if cp > 0x10FFFF then false
  else if cp ≥ 0xD800 ∧ cp ≤ 0xDFFF then false
  else true

/-- `verify_utf8_sequence`, parson.c:199-239: the result and `*len` -/
def verifySeq (s : List Byte) : R (Bool × Nat) := do
  let c ← peek s 0
  let len := numBytes c
  if len = 1 then return (cpOk c.toNat 1, 1)
  if len = 2 then
    if ← conts s [1] then return (cpOk (← codePoint s 0x1F [1]) 2, 2)
  if len = 3 then
    if ← conts s [1, 2] then return (cpOk (← codePoint s 0xF [1, 2]) 3, 3)
  if len = 4 then
    if ← conts s [1, 2, 3] then return (cpOk (← codePoint s 0x7 [1, 2, 3]) 4, 4)
  return (false, len)

/-- the loop of `is_valid_utf8`, parson.c:241-251; `fuel` bounds the number of iterations -/
def validLoop : Nat → List Byte → R Bool
  | 0, s => .ok s.isEmpty
  | fuel + 1, s => do
    if s.isEmpty then return true
    let (ok, len) ← verifySeq s
    if !ok then return false
    validLoop fuel (s.drop len)

/-- `is_valid_utf8` -/
def isValidUtf8 (s : List Byte) : R Bool := validLoop s.length s

/-! ## Trees -/

/-- the capacity of the arrays of an object or array with `count` entries before one is added, parson.c:363-368 and 489-494 -/
def grow (count capacity : Nat) : Nat := if count ≥ capacity then max (capacity * 2) 16 else capacity

/-- the members of an object -/
abbrev Obj := List (List Byte) × List Value

/-- the loops of `json_object_getn_value`, parson.c:412-424, and of `json_object_set_value`, parson.c:1750: the first index with the name -/
def indexOf (name : List Byte) : List (List Byte) → Option Nat
  | [] => none
  | n :: ns => if n = name then some 0 else (indexOf name ns).map (· + 1)

/-- `json_object_getn_value` -/
def getn {α : Type} (ns : List (List Byte)) (vs : List α) (name : List Byte) : Option α := (indexOf name ns).bind fun i => vs[i]?

/-- `json_object_addn`, parson.c:357-380 -/
def addn (o : Obj) (name : List Byte) (v : Value) : R Obj :=
  match getn o.1 o.2 name with
  | some _ => .error .fail
  | none => .ok (o.1 ++ [name], o.2 ++ [v])

/-- `json_object_set_value`, parson.c:1741-1760 -/
def setValue (o : Obj) (name : List Byte) (v : Value) : R Obj :=
  match getn o.1 o.2 name with
  | some _ =>
    match indexOf name o.1 with
    | some i => .ok (o.1, o.2.set i v)
    | none => addn o name v
  | none => addn o name v

/-- `json_value_init_string`, parson.c:1343-1363 -/
def initString (s : List Byte) : R Value := do
  if ← isValidUtf8 s then return .str s else .error .fail

/-- `json_object_set_string`, parson.c:1762-1764; a failure leaves the object as it is, and ecgen does not look at the result -/
def setString (o : Obj) (name s : List Byte) : R Obj :=
  match initString s with
  | .ok v => setValue o name v
  | .error .fail => .ok o
  | .error .ub => .error .ub

/-- the part of a name before the first `.`, and the rest behind it -/
def splitDot : List Byte → List Byte × Option (List Byte)
  | [] => ([], none)
  | c :: s => if c = chr '.' then ([], some s) else ((splitDot s).1 |> (c :: ·), (splitDot s).2)

theorem splitDot_lt (s r : List Byte) (h : (splitDot s).2 = some r) : r.length < s.length := by
  induction s with
  | nil => simp [splitDot] at h
  | cons c s ih =>
    unfold splitDot at h
    split at h
    · simp only [Option.some.injEq] at h
      subst h
      simp
    · have := ih h
      simp only [List.length_cons]
      omega

/-- `json_object_dotset_value`, parson.c:1778-1818 -/
def dotset (o : Obj) (name : List Byte) (v : Value) : R Obj :=
  match _h : (splitDot name).2 with
  | none => setValue o name v
  | some rest =>
    match getn o.1 o.2 (splitDot name).1, indexOf (splitDot name).1 o.1 with
    | some (.obj ns vs), some i => do
      let o' ← dotset (ns, vs) rest v
      return (o.1, o.2.set i (.obj o'.1 o'.2))
    | some _, _ => .error .fail
    | none, _ => do
      let o' ← dotset ([], []) rest v
      addn o (splitDot name).1 (.obj o'.1 o'.2)
termination_by name.length
decreasing_by all_goals exact splitDot_lt _ _ (by assumption)

/-- `json_object_dotset_string`, parson.c:1820-1830; as for `setString` a failure is ignored -/
def dotsetString (o : Obj) (name s : List Byte) : R Obj :=
  match initString s with
  | .ok v =>
    match dotset o name v with
    | .error .fail => .ok o
    | r => r
  | .error .fail => .ok o
  | .error .ub => .error .ub

/-! ## Serialisation -/

/-- the output buffer; `none` is `NULL`, for the first pass that only counts -/
abbrev Mem := Option (List Byte)

/-- `buf[i] = c` -/
def poke (m : List Byte) (i : Nat) (c : Byte) : R (List Byte) := if i < m.length then .ok (m.set i c) else .error .ub

/-- the bytes of `s` are written from `pos` on -/
def pokes (m : List Byte) (pos : Nat) : List Byte → R (List Byte)
  | [] => .ok m
  | c :: s => do
    let m ← poke m pos c
    pokes m (pos + 1) s

/-- the local variables `buf` (an offset into the memory) and `written_total` -/
structure Acc where
  mem : Mem
  pos : Nat
  total : Int

/-- `written_total += written`; signed overflow is undefined -/
def addInt (a b : Int) : R Int := if a + b ≤ 2147483647 then .ok (a + b) else .error .ub

/-- `if (buf != NULL) { buf += written; } written_total += written;` -/
def advance (a : Acc) (mem : Mem) (written : Int) : R Acc := do
  if written < 0 then throw .fail
  let total ← addInt a.total written
  return { mem := mem, pos := if mem.isSome then a.pos + written.toNat else a.pos, total := total }

/-- `append_string`, parson.c:1075-1080: `sprintf(buf, "%s", string)` also writes the terminating zero -/
def appendString (m : Mem) (pos : Nat) (s : List Byte) : R (Int × Mem) :=
  match m with
  | none => .ok (s.length, none)
  | some m => do
    let m ← pokes m pos (s ++ [0])
    return (s.length, some m)

/-- `APPEND_STRING`, parson.c:859-863 -/
def app (s : List Byte) (a : Acc) : R Acc := do
  let (w, m) ← appendString a.mem a.pos s
  advance a m w

/-- a call of a function that gets `buf` and returns the number of bytes written, and the lines after it -/
def call (f : Mem → Nat → R (Int × Mem)) (a : Acc) : R Acc := do
  let (w, m) ← f a.mem a.pos
  advance a m w

/-- a function with the local variables `buf` and `written_total = 0` that returns `written_total` -/
def body (g : Acc → R Acc) (m : Mem) (pos : Nat) : R (Int × Mem) := do
  let a ← g ⟨m, pos, 0⟩
  return (a.total, a.mem)

/-- `if (c) { … }` -/
def ifDo (c : Bool) (f : Acc → R Acc) (a : Acc) : R Acc := if c then f a else .ok a

/-- `append_indent`, parson.c:1066-1073 -/
def appendIndent (level : Nat) : Mem → Nat → R (Int × Mem) :=
  body fun a => (List.range level).foldlM (fun a _ => app (List.replicate 4 (chr ' ')) a) a

/-- `\u00hl` -/
def u4 (h l : Char) : List Byte := [chr '\\', chr 'u', chr '0', chr '0', chr h, chr l]

/-- the `switch` of `json_serialize_string`, parson.c:1012-1052; the zero of `case '\x00'` does not occur -/
def escape : Byte → Option (List Byte)
  | 34 => some [chr '\\', chr '"']
  | 92 => some [chr '\\', chr '\\']
  | 47 => some [chr '\\', chr '/']
  | 8 => some [chr '\\', chr 'b']
  | 12 => some [chr '\\', chr 'f']
  | 10 => some [chr '\\', chr 'n']
  | 13 => some [chr '\\', chr 'r']
  | 9 => some [chr '\\', chr 't']
  | 0 => some (u4 '0' '0')
  | 1 => some (u4 '0' '1')
  | 2 => some (u4 '0' '2')
  | 3 => some (u4 '0' '3')
  | 4 => some (u4 '0' '4')
  | 5 => some (u4 '0' '5')
  | 6 => some (u4 '0' '6')
  | 7 => some (u4 '0' '7')
  | 0x0b => some (u4 '0' 'b')
  | 0x0e => some (u4 '0' 'e')
  | 0x0f => some (u4 '0' 'f')
  | 0x10 => some (u4 '1' '0')
  | 0x11 => some (u4 '1' '1')
  | 0x12 => some (u4 '1' '2')
  | 0x13 => some (u4 '1' '3')
  | 0x14 => some (u4 '1' '4')
  | 0x15 => some (u4 '1' '5')
  | 0x16 => some (u4 '1' '6')
  | 0x17 => some (u4 '1' '7')
  | 0x18 => some (u4 '1' '8')
  | 0x19 => some (u4 '1' '9')
  | 0x1a => some (u4 '1' 'a')
  | 0x1b => some (u4 '1' 'b')
  | 0x1c => some (u4 '1' 'c')
  | 0x1d => some (u4 '1' 'd')
  | 0x1e => some (u4 '1' 'e')
  | 0x1f => some (u4 '1' 'f')
  | _ => none

/-- the `default` of that switch: `buf[0] = c; buf += 1; written_total += 1` -/
def putChar (c : Byte) (a : Acc) : R Acc :=
  match a.mem with
  | none => advance a none 1
  | some m => do
    let m ← poke m a.pos c
    advance a (some m) 1

/-- one character, parson.c:1012-1059 -/
def putEscaped (c : Byte) (a : Acc) : R Acc :=
  match escape c with
  | some e => app e a
  | none => putChar c a

/-- the loop over the characters, parson.c:1010-1060 -/
def stringLoop : List Byte → Acc → R Acc
  | [], a => .ok a
  | c :: s, a => do
    let a ← putEscaped c a
    stringLoop s a

/-- `json_serialize_string`, parson.c:1005-1064 -/
def serString (s : List Byte) : Mem → Nat → R (Int × Mem) :=
  body fun a => do
    let a ← app [quote] a
    let a ← stringLoop s a
    app [quote] a

/-- `json_serialize_to_buffer_r` for a value, as a function of `level`, `buf` -/
abbrev Fn := Nat → Mem → Nat → R (Int × Mem)

/-- the loop over the items of an array, parson.c:887-906 -/
def arrLoop (pretty : Bool) (level count : Nat) : Nat → List Fn → Acc → R Acc
  | _, [], a => .ok a
  | i, f :: fs, a => do
    let a ← ifDo pretty (call (appendIndent (level + 1))) a
    let a ← call (f (level + 1)) a
    let a ← ifDo (i < count - 1) (app [chr ',']) a
    let a ← ifDo pretty (app [chr '\n']) a
    arrLoop pretty level count (i + 1) fs a

/-- the call for a value that was looked up; for `NULL` it fails, parson.c:998 -/
def callValue (f : Option Fn) (level : Nat) (a : Acc) : R Acc :=
  match f with
  | some f => call (f level) a
  | none => .error .fail

/-- the loop over the members of an object, parson.c:919-954; the value is looked up by the name -/
def objLoop (pretty : Bool) (level count : Nat) (names : List (List Byte)) (fs : List Fn) : Nat → List (List Byte) → Acc → R Acc
  | _, [], a => .ok a
  | i, key :: keys, a => do
    let a ← ifDo pretty (call (appendIndent (level + 1))) a
    let a ← call (serString key) a
    let a ← app [chr ':'] a
    let a ← ifDo pretty (app [chr ' ']) a
    let a ← callValue (getn names fs key) (level + 1) a
    let a ← ifDo (i < count - 1) (app [chr ',']) a
    let a ← ifDo pretty (app [chr '\n']) a
    objLoop pretty level count names fs (i + 1) keys a

/-- what is around the loops, parson.c:883-886, 907-911, 915-918 and 955-959 -/
def around (pretty : Bool) (level count : Nat) (opening closing : Byte) (loop : Acc → R Acc) : Mem → Nat → R (Int × Mem) :=
  body fun a => do
    let a ← app [opening] a
    let a ← ifDo (count > 0 && pretty) (app [chr '\n']) a
    let a ← loop a
    let a ← ifDo (count > 0 && pretty) (call (appendIndent level)) a
    app [closing] a

mutual
/-- `json_serialize_to_buffer_r`, parson.c:869-1003 -/
def ser (pretty : Bool) : Value → Fn
  | .null => fun _ => body (app [chr 'n', chr 'u', chr 'l', chr 'l'])
  | .bool true => fun _ => body (app [chr 't', chr 'r', chr 'u', chr 'e'])
  | .bool false => fun _ => body (app [chr 'f', chr 'a', chr 'l', chr 's', chr 'e'])
  | .str s => fun _ => body (call (serString s))
  | .arr items => fun level => around pretty level items.length (chr '[') (chr ']') (arrLoop pretty level items.length 0 (sers pretty items))
  | .obj names values => fun level =>
    around pretty level names.length (chr '{') (chr '}') (objLoop pretty level names.length names (sers pretty values) 0 names)
def sers (pretty : Bool) : List Value → List Fn
  | [] => []
  | v :: vs => ser pretty v :: sers pretty vs
end

/-- `json_serialization_size_pretty`, parson.c:1540-1544: 0 stands for a failure -/
def serSize (v : Value) : R Nat :=
  match ser true v 0 none 0 with
  | .ok (w, _) => (addInt w 1).map Int.toNat
  | .error .fail => .ok 0
  | .error .ub => .error .ub

/-- `json_serialize_to_buffer_pretty`, parson.c:1546-1557 -/
def serBuffer (v : Value) (m : List Byte) : R (List Byte) := do
  let need ← serSize v
  if need = 0 ∨ m.length < need then throw .fail
  let (_, m) ← ser true v 0 (some m) 0
  return m.getD []

/-- `json_serialize_to_string_pretty`, parson.c:1581-1598; `malloc` gives a block of the size asked for, with any contents -/
def toStringPretty (malloc : Nat → List Byte) (v : Value) : R (List Byte) := do
  let size ← serSize v
  if size = 0 then throw .fail
  serBuffer v (malloc size)

/-- the C string at the start of a block -/
def cstring (m : List Byte) : List Byte := m.takeWhile (· ≠ 0)

end Ecgen.Parson
