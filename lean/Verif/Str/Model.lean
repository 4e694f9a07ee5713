/-!
# Model of `/repo/src/util/str.c`

A C string is the list of its characters before the terminating NUL. A heap buffer holding a string is
its size together with the string; operations that would write or read outside it give `none`.
`size_t` arithmetic wraps modulo `2^64`. `try_calloc` is assumed to return a zeroed block of the
requested size (memory.c:33-44 exits otherwise). `isxdigit` is the C locale's (and, as in glibc,
false on negative `char`s).
-/

namespace Ecgen.Str

/-- `isxdigit` in the C locale -/
def isxdigit (c : Char) : Bool :=
  (48 ≤ c.toNat && c.toNat ≤ 57) || (65 ≤ c.toNat && c.toNat ≤ 70) || (97 ≤ c.toNat && c.toNat ≤ 102)

/-- the loop str.c:18-22: `false` when it returns `NULL` -/
def allHex : List Char → Bool
  | [] => true
  | c :: s => if !isxdigit c then false else allHex s

/-- `str_is_hex`, str.c:11-24: the offset of the returned pointer, `none` for `NULL` -/
def strIsHexOff (s : List Char) : Option Nat :=
  let start :=
    if s.length > 2 then
      if s[0]? = some '0' ∧ (s[1]? = some 'x' ∨ s[1]? = some 'X') then 2 else 0
    else 0
  if allHex (s.drop start) then some start else none

/-- the string the returned pointer of `str_is_hex` denotes -/
def strIsHex (s : List Char) : Option (List Char) := (strIsHexOff s).map fun k => s.drop k

/-- a heap block of `size` bytes holding a NUL-terminated string -/
structure Buf where
  size : Nat
  str : List Char
  deriving DecidableEq, Repr

/-- `try_calloc(n)`: the zeroed block holds the empty string, if it has room for the NUL -/
def calloc (n : Nat) : Option Buf := if n = 0 then none else some ⟨n, []⟩

/-- `strcat(dst, s)` -/
def strcat (b : Buf) (s : List Char) : Option Buf :=
  if b.str.length + s.length + 1 ≤ b.size then some { b with str := b.str ++ s } else none

/-- `if (strings[i]) total += strlen(strings[i])`, str.c:29 -/
def addLen (t : Nat) : Option (List Char) → Nat
  | some s => (t + s.length) % 2 ^ 64
  | none => t

/-- `if (strings[i]) strcat(result, strings[i])`, str.c:34-36 -/
def catOpt (b : Buf) : Option (List Char) → Option Buf
  | some s => strcat b s
  | none => some b

/-- `len - 1` on `size_t` -/
def pred (n : Nat) : Nat := (n + (2 ^ 64 - 1)) % 2 ^ 64

/-- `if (separator && i != len - 1) strcat(result, separator)`, str.c:37-39 -/
def catSep (sep : Option (List Char)) (len i : Nat) (b : Buf) : Option Buf :=
  match sep with
  | some sep => if i ≠ pred len then strcat b sep else some b
  | none => some b

/-- str.c:27-31 -/
def joinTotal (sep : Option (List Char)) (strings : List (Option (List Char))) : Nat :=
  let total := strings.foldl addLen 1
  match sep with
  | some sep => (total + pred strings.length * sep.length) % 2 ^ 64
  | none => total

/-- the loop str.c:33-40 from index `i`, over the strings not yet handled -/
def joinLoop (sep : Option (List Char)) (len : Nat) : Nat → List (Option (List Char)) → Buf → Option Buf
  | _, [], b => some b
  | i, s :: rest, b =>
    (catOpt b s).bind fun b => (catSep sep len i b).bind fun b => joinLoop sep len (i + 1) rest b

/-- `str_join(separator, strings, len)`, str.c:26-42; `none` in `strings` is a null pointer. The result is
`none` when a write (or the reading of the returned string) leaves the buffer. -/
def strJoin (sep : Option (List Char)) (strings : List (Option (List Char))) : Option (List Char) :=
  (calloc (joinTotal sep strings)).bind fun b =>
    (joinLoop sep strings.length 0 strings b).map Buf.str

/-- the collecting loop of `str_joinv`, str.c:48-57: `cap` is the number of slots allocated, `i` the
number filled; `len` stays 5 -/
def collect : Nat → Nat → List (List Char) → Option Unit
  | _, _, [] => some ()
  | cap, i, _ :: rest =>
    let cap := if i = 5 then 10 else cap
    if i < cap then collect cap (i + 1) rest else none

/-- `str_joinv(separator, ..., NULL)`, str.c:44-63 -/
def strJoinv (sep : Option (List Char)) (args : List (List Char)) : Option (List Char) :=
  (collect 5 0 args).bind fun _ => strJoin sep (args.map some)

/-- `str_concat`, str.c:65-67 -/
def strConcat (strings : List (Option (List Char))) : Option (List Char) := strJoin none strings

/-- the loop of `str_cnt`, str.c:69-74: `str` is the text from the pointer on, `result` the counter;
`str[result]` past the NUL gives `none` -/
def cntLoop (c : Char) : Nat → List Char → Nat → Option Nat
  | 0, _, _ => none
  | fuel + 1, str, result =>
    if result > str.length then none
    else match str[result]? with
      | none => some result
      | some x => if x = c then cntLoop c fuel str (result + 1) else cntLoop c fuel str.tail result

/-- `str_cnt` -/
def strCnt (s : List Char) (c : Char) : Option Nat := cntLoop c (s.length + 1) s 0

end Ecgen.Str
