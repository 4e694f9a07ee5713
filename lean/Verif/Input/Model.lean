/-!
# Model of `/repo/src/io/input.c` and of the generators that read integers

The input stream is the list of characters not yet read. PARI's `strtoi` is transliterated from its
documentation (decimal, or hexadecimal/binary after `0x`/`0b`; reading stops at the first character that
is no digit). Read errors other than end of file are not modelled.
-/

namespace Ecgen.Input

/-- `getdelim`: the line including the delimiter if there is one, whether the end of the file was hit,
and the rest of the stream. An empty line means that nothing could be read. -/
def getdelim (d : Char) : List Char → List Char × Bool × List Char
  | [] => ([], true, [])
  | c :: s =>
    if c = d then ([c], false, s)
    else
      let r := getdelim d s
      (c :: r.1, r.2.1, r.2.2)

/-- digit value in the given base -/
def digitVal (base : Nat) (c : Char) : Option Nat :=
  let v :=
    if 48 ≤ c.toNat ∧ c.toNat ≤ 57 then some (c.toNat - 48)
    else if 97 ≤ c.toNat ∧ c.toNat ≤ 102 then some (c.toNat - 87)
    else if 65 ≤ c.toNat ∧ c.toNat ≤ 70 then some (c.toNat - 55)
    else none
  match v with
  | some v => if v < base then some v else none
  | none => none

/-- read digits as long as there are any -/
def readDigits (base : Nat) : Nat → List Char → Nat
  | acc, [] => acc
  | acc, c :: s =>
    match digitVal base c with
    | some v => readDigits base (base * acc + v) s
    | none => acc

/-- PARI `strtoi` -/
def strtoi : List Char → Int
  | '0' :: 'x' :: s => readDigits 16 0 s
  | '0' :: 'X' :: s => readDigits 16 0 s
  | '0' :: 'b' :: s => readDigits 2 0 s
  | '0' :: 'B' :: s => readDigits 2 0 s
  | s => readDigits 10 0 s

/-- `input_i`, input.c:13-52: the returned integer and the rest of the stream -/
def inputI (d : Char) (bits : Nat) (s : List Char) : Int × List Char :=
  match getdelim d s with
  | (line, eof, rest) =>
    if line.length = 0 then (-2, rest)
    else if line.length = 1 ∧ eof = false then (-1, rest)
    else
      let sign := line.head? = some '-'
      let v := if sign then -strtoi (line.drop 1) else strtoi line
      if v ≤ 2 ^ bits then (v, rest) else (-1, rest)

/-- `input_prime`, input.c:54-66 -/
def inputPrime (isprime : Int → Bool) (d : Char) (bits : Nat) (s : List Char) : Int × List Char :=
  let r := inputI d bits s
  if r.1 = -1 ∨ r.1 = -2 then r
  else if isprime r.1 then r else (-1, r.2)

/-- `input_int`, input.c:68-70 -/
def inputInt (d : Char) (bits : Nat) (s : List Char) : Int × List Char := inputI d bits s

/-- `input_short`, input.c:72 -/
def inputShort (d : Char) (s : List Char) : Int × List Char := inputI d 16 s

/-- `input_string`, input.c:74-94: the last character is always dropped -/
def inputString (d : Char) (s : List Char) : List Char × List Char :=
  match getdelim d s with
  | (line, _, rest) => if line.length ≤ 1 then ([], rest) else (line.dropLast, rest)

/-- what a generator reports: the value stored, 0 (ask again) or `INT_MIN` (give up) -/
inductive Res (α : Type) where
  | ok (v : α)
  | again
  | abort
  deriving DecidableEq, Repr

/-- `a_gen_input` / `b_gen_input`, equation.c:14-32, 68-86; `elem` is `field_ielement` -/
def coeffInput {α : Type} (elem : Int → Option α) (d : Char) (bits : Nat) (s : List Char) :
    Res α × List Char :=
  let r := inputInt d bits s
  if r.1 = -1 then (.again, r.2)
  else if r.1 = -2 then (.abort, r.2)
  else match elem r.1 with
    | none => (.again, r.2)
    | some e => (.ok e, r.2)

/-- `field_gen_input` over prime fields, field.c:39-50 -/
def fieldInput (isprime : Int → Bool) (d : Char) (bits : Nat) (s : List Char) : Res Int × List Char :=
  let r := inputPrime isprime d bits s
  if r.1 = -1 then (.again, r.2)
  else if r.1 = -2 then (.abort, r.2)
  else (.ok r.1, r.2)

/-- `field_gen_once`, field.c:105-119, as long as no field has been read: every failure becomes 0 -/
def fieldOnce (isprime : Int → Bool) (d : Char) (bits : Nat) (s : List Char) : Res Int × List Char :=
  match fieldInput isprime d bits s with
  | (.ok v, rest) => (.ok v, rest)
  | (_, rest) => (.again, rest)

/-- `if (gsigne(e) == 1) gel(v, itos(e) + 1) = gen_1`, field.c:85-87 (the PARI index is one more) -/
def setExp (v : List Bool) (e : Int) : List Bool := if 0 < e then v.set e.toNat true else v

/-- `field_gen_input` over binary fields, field.c:51-96: the coefficients of the polynomial, constant term first; `irr` is
the irreducibility test `polisirreducible`. Exponents above `m = bits` are rejected, so the accesses to the vector of
`bits + 1` entries are in bounds. -/
def binaryInput (irr : List Bool → Bool) (d : Char) (bits : Nat) (s : List Char) :
    Res (List Bool) × List Char :=
  let m := inputShort d s
  if m.1 ≠ bits then (.again, m.2)
  else
    let e1 := inputShort d m.2
    if e1.1 = -1 ∨ m.1 < e1.1 then (.again, e1.2)
    else
      let e2 := inputShort d e1.2
      if e2.1 = -1 ∨ m.1 < e2.1 then (.again, e2.2)
      else
        let e3 := inputShort d e2.2
        if e3.1 = -1 ∨ m.1 < e3.1 then (.again, e3.2)
        else if e1.1 = 0 ∧ e2.1 = 0 ∧ e3.1 = 0 then (.again, e3.2)
        else
          let v := (List.replicate (bits + 1) false).set m.1.toNat true
          let v := setExp (setExp (setExp v e1.1) e2.1) e3.1
          let v := v.set 0 true
          if irr v then (.ok v, e3.2) else (.again, e3.2)

/-- `order_gen_input`, order.c:12-24: the end of the input is not recognised -/
def orderInput (d : Char) (bits : Nat) (s : List Char) : Res Int × List Char :=
  let r := inputInt d bits s
  if r.1 = -1 then (.again, r.2) else (.ok r.1, r.2)

/-- `family_gen_seed_input`, family.c:87-93: the seed `z` -/
def familySeed (d : Char) (bits : Nat) (s : List Char) : Res Int × List Char :=
  let r := inputInt d bits s
  (.ok r.1, r.2)

/-- repeated attempts at reading, as the engine does for the result 0 (without a retry limit): the first
other result, `none` if there is none within `fuel` attempts -/
def ask {α : Type} (gen : List Char → Res α × List Char) : Nat → List Char → Option (Res α × List Char)
  | 0, _ => none
  | n + 1, s =>
    match gen s with
    | (.again, rest) => ask gen n rest
    | r => some r

end Ecgen.Input
