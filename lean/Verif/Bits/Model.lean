import Verif.CLoop

/-!
# Model of `/repo/src/util/bits.c` and the macros of `/repo/src/util/bits.h`

* `unsigned char` is `BitVec 8`; a buffer is a list of bytes whose length is the size of the memory
  block. Every access is checked: `none` stands for an access outside the block (undefined
  behaviour).
* `size_t` values that cannot exceed the size of memory are `Nat`; where the C code relies on
  unsigned wrap-around (`bits_shiftrz`, `bits_shortenz`) the reduction modulo `2^64` is explicit.
* `long amount` is `Int` (the negation of `LONG_MIN` is not modelled).
* Memory returned by `realloc` beyond the old block is filled with an arbitrary byte `junk`.
* PARI: an integer `GEN` is `Int`; `binary_zv x` is `binaryZv x.natAbs`; `signe(x) == -1` is `x < 0`.
  `setsigne(r, -1)` on a zero `r` produces an invalid PARI object; the model returns `0`.
* Allocation never fails (`try_calloc` etc. abort the program).
* `unsigned char original_bits[bits->allocated]` (bits.c:340, 372, 395) is an array without elements for an empty string, which C does not define; the
  model takes it for an empty block.
-/

namespace Ecgen.Bits

abbrev Byte := BitVec 8

/-- `bits_t`, src/misc/types.h: `bits`, `sign`, `bitlen`, `allocated`. -/
structure Bits where
  bits : List Byte
  sign : Bool
  bitlen : Nat
  allocated : Nat
  deriving DecidableEq, Repr

/-- `BYTE_LEN`, bits.h:13-14 -/
def byteLen (n : Nat) : Nat := if n % 8 = 0 then n / 8 else n / 8 + 1

/-- `p[i]` -/
def rd (buf : List Byte) (i : Nat) : Option Byte := buf[i]?

/-- `p[i] = v` -/
def wr (buf : List Byte) (i : Nat) (v : Byte) : Option (List Byte) :=
  if i < buf.length then some (buf.set i v) else none

/-- `1 << (7 - (pos % 8))` as a byte -/
def bitMask (pos : Nat) : Byte := (1 : Byte) <<< (7 - pos % 8)

/-- `GET_BIT`, bits.h:16-18; the value is 0 or 1. -/
def getBit (buf : List Byte) (pos : Nat) : Option Byte :=
  (rd buf (pos / 8)).map fun b => (b &&& bitMask pos) >>> (7 - pos % 8)

/-- `SET_BIT`, bits.h:20-28 -/
def setBit (buf : List Byte) (pos : Nat) (v : Byte) : Option (List Byte) :=
  (rd buf (pos / 8)).bind fun b =>
    if v = 1 then wr buf (pos / 8) (b ||| bitMask pos) else wr buf (pos / 8) (b &&& ~~~ bitMask pos)

/-- `bits[pos / 8] |= v << (7 - (pos % 8))`, the idiom used throughout bits.c -/
def orBit (buf : List Byte) (pos : Nat) (v : Byte) : Option (List Byte) :=
  (rd buf (pos / 8)).bind fun b => wr buf (pos / 8) (b ||| (v <<< (7 - pos % 8)))

/-- `realloc`: the old content is kept, new bytes are indeterminate. -/
def realloc (junk : Byte) (buf : List Byte) (n : Nat) : List Byte :=
  buf.take n ++ List.replicate (n - buf.length) junk

/-- PARI `binary_zv`: binary digits, most significant first; empty for 0. -/
def binaryZv (n : Nat) : List Bool :=
  if n = 0 then [] else binaryZv (n / 2) ++ [n % 2 == 1]
termination_by n
decreasing_by omega

/-- `bits_new`, bits.c:10-17 -/
def new (bitLen : Nat) : Bits :=
  { bits := List.replicate (byteLen bitLen) 0, sign := false, bitlen := bitLen,
    allocated := byteLen bitLen }

/-- `bits_new_rand`, bits.c:19-31. `rnd i k` is the result of the `i`-th call of PARI's
`random_bits(k)`, a number below `2^k`. -/
def newRand (rnd : Nat → Nat → Nat) (bitLen : Nat) : Option Bits :=
  let r := new bitLen
  (forN (fun i buf =>
    if i = r.allocated - 1 then
      let last := bitLen % 8
      wr buf i (BitVec.ofNat 8 (rnd i last * 2 ^ (8 - last)))
    else wr buf i (BitVec.ofNat 8 (rnd i 8))) r.allocated r.bits).map
    fun buf => { r with bits := buf }

/-- `memset(p + off, 0, n)` -/
def memset0 (buf : List Byte) (off n : Nat) : Option (List Byte) :=
  forN (fun i b => wr b (off + i) 0) n buf

/-- `memcpy(dst, src, n)` -/
def memcpy (dst src : List Byte) (n : Nat) : Option (List Byte) :=
  forN (fun i b => (rd src i).bind (wr b i)) n dst

/-- `bits_cpy`, bits.c:33-48 -/
def cpy (junk : Byte) (dest src : Bits) : Option Bits :=
  if src.bitlen = 0 then some dest
  else
    let d1 :=
      if src.allocated < dest.allocated then
        memset0 dest.bits src.allocated (dest.allocated - src.allocated)
      else if src.allocated > dest.allocated then some (realloc junk dest.bits src.allocated)
      else some dest.bits
    d1.bind fun d1 => (memcpy d1 src.bits src.allocated).map fun d2 =>
      { bits := d2, allocated := src.allocated, bitlen := src.bitlen, sign := src.sign }

/-- `try_memdup(p, n)`: a new block of `n` bytes read from `p`. -/
def memdup (src : List Byte) (n : Nat) : Option (List Byte) :=
  memcpy (List.replicate n 0) src n

/-- `bits_copy`, bits.c:50-58 -/
def copy (b : Bits) : Option Bits :=
  if b.allocated ≠ 0 then
    (memdup b.bits b.allocated).map fun d => { b with bits := d }
  else some { b with bits := [] }

/-- `bits_from_i`, bits.c:70-83 -/
def fromI (i : Int) : Option Bits :=
  let v := binaryZv i.natAbs
  let r := new v.length
  (forN (fun j buf => if v[j]? = some true then orBit buf j 1 else some buf) v.length r.bits).map
    fun buf => { r with bits := buf, sign := decide (i < 0) }

/-- `bits_from_i_len`, bits.c:85-102 -/
def fromILen (i : Int) (bitLen : Nat) : Option Bits :=
  let v := binaryZv i.natAbs
  let r := new bitLen
  let offset := if v.length < bitLen then bitLen - v.length else 0
  (forN (fun j buf =>
      if j < v.length ∧ v[j]? = some true then orBit buf (j + offset) 1 else some buf)
    bitLen r.bits).map fun buf => { r with bits := buf, sign := decide (i < 0) }

/-- the digit value computed in bits.c:108-116 (0 for a character that is no hex digit) -/
def nibble (c : Char) : Nat :=
  if '0'.toNat ≤ c.toNat ∧ c.toNat ≤ '9'.toNat then c.toNat - '0'.toNat
  else if 'a'.toNat ≤ c.toNat ∧ c.toNat ≤ 'f'.toNat then c.toNat - 'a'.toNat + 10
  else if 'A'.toNat ≤ c.toNat ∧ c.toNat ≤ 'F'.toNat then c.toNat - 'A'.toNat + 10
  else 0

/-- `bits_from_hex`, bits.c:104-120 -/
def fromHex (s : List Char) : Option Bits :=
  let r := new (s.length * 4)
  (forN (fun i buf => (rd buf (i / 2)).bind fun b =>
      wr buf (i / 2) (b ||| BitVec.ofNat 8 (nibble (s.getD i ' ') * 2 ^ ((1 - i % 2) * 4))))
    s.length r.bits).map fun buf => { r with bits := buf }

/-- `bits_from_bin`, bits.c:122-131 -/
def fromBin (s : List Char) : Option Bits :=
  let r := new s.length
  (forN (fun i buf => if s[i]? = some '1' then orBit buf i 1 else some buf) s.length r.bits).map
    fun buf => { r with bits := buf }

/-- `bits_from_raw`, bits.c:133-139. `raw` is the block the argument points to. -/
def fromRaw (raw : List Byte) (bitLen : Nat) : Option Bits :=
  if bitLen > 0 then
    (memdup raw (byteLen bitLen)).map fun d =>
      { bits := d, sign := false, bitlen := bitLen, allocated := byteLen bitLen }
  else some { bits := [], sign := false, bitlen := bitLen, allocated := byteLen bitLen }

/-- `bits_from_bitvec`, bits.c:141-148. The `t_VECSMALL` is a list of Booleans (entry equal 1). -/
def fromBitvec (v : List Bool) : Option Bits :=
  let r := new v.length
  (forN (fun j buf => if v[j]? = some true then orBit buf j 1 else some buf) v.length r.bits).map
    fun buf => { r with bits := buf }

/-- `bits_to_i`, bits.c:150-161 -/
def toI (b : Bits) : Option Int :=
  (forN (fun i (r : Nat) => (getBit b.bits i).map fun x =>
      if x ≠ 0 then r + 2 ^ (b.bitlen - i - 1) else r) b.bitlen 0).map
    fun r => if b.sign then - (r : Int) else (r : Int)

/-- a lower-case hex digit as printed by `%x` -/
def hexDigit (n : Nat) : Char :=
  if n < 10 then Char.ofNat ('0'.toNat + n) else Char.ofNat ('a'.toNat + (n - 10))

/-- `sprintf("%02x", v)` -/
def hex2 (v : Byte) : List Char := [hexDigit (v.toNat / 16), hexDigit (v.toNat % 16)]

/-- `bits_to_hex`, bits.c:163-194. The `sprintf` calls write consecutive pairs of characters, so the
string is built by appending. -/
def toHex (b : Bits) : Option (List Char) :=
  let offset := b.bitlen % 8
  forN (fun i (acc : List Char) =>
      let value : Option Byte :=
        if offset ≠ 0 then
          (rd b.bits i).bind fun x =>
            let v := x >>> (8 - offset)
            if i ≠ 0 then
              (rd b.bits (i - 1)).map fun y =>
                v ||| ((y &&& ~~~ ((1 : Byte) <<< (8 - offset))) <<< offset)
            else some v
        else rd b.bits i
      value.map fun v => acc ++ hex2 v)
    (byteLen b.bitlen) (if b.sign then ['-'] else [])

/-- `bits_to_bin`, bits.c:196-206 -/
def toBin (b : Bits) : Option (List Char) :=
  forN (fun i (acc : List Char) => (getBit b.bits i).map fun x =>
      acc ++ [if x = 0 then '0' else '1'])
    b.bitlen (if b.sign then ['-'] else [])

/-- `bits_to_raw`, bits.c:208-213; the outer `none` is undefined behaviour, `some none` is `NULL`. -/
def toRaw (b : Bits) : Option (Option (List Byte)) :=
  if b.bitlen = 0 then some none else (memdup b.bits (byteLen b.bitlen)).map some

/-- `bits_to_bitvec`, bits.c:217-223 -/
def toBitvec (b : Bits) : Option (List Bool) :=
  forN (fun i (v : List Bool) => (getBit b.bits i).map fun x =>
      if x ≠ 0 then v.set i true else v) b.bitlen (List.replicate b.bitlen false)

/-- `bits_bitwise`, bits.c:233-263 -/
def bitwise (f : Byte → Byte → Byte) (one other : Bits) : Option Bits :=
  let shorter := if one.bitlen > other.bitlen then other else one
  let longer := if one.bitlen > other.bitlen then one else other
  let r := new longer.bitlen
  (forN (fun i buf =>
      let longerPos := longer.bitlen - i - 1
      (getBit longer.bits longerPos).bind fun lb =>
      (if shorter.bitlen > i then getBit shorter.bits (shorter.bitlen - i - 1) else some 0).bind
        fun sb => orBit buf longerPos (f lb sb)) longer.bitlen r.bits).map
    fun buf => { r with bits := buf }

/-- `bits_or`, bits.c:225-227, 306-308 -/
def or (one other : Bits) : Option Bits := bitwise (fun a b => a ||| b) one other

/-- `bits_and`, bits.c:229-231, 310-312 -/
def and (one other : Bits) : Option Bits := bitwise (fun a b => a &&& b) one other

/-- growing the buffer with zeros: bits.c:271-277 and bits.c:447-453 -/
def grow (junk : Byte) (b : Bits) (newAlloc : Nat) : Option Bits :=
  if newAlloc > b.allocated then
    (forN (fun i buf => wr buf (b.allocated + i) 0) (newAlloc - b.allocated)
      (realloc junk b.bits newAlloc)).map fun buf => { b with bits := buf, allocated := newAlloc }
  else some b

/-- one iteration of `bits_concatzv`, bits.c:267-282 -/
def concat1 (junk : Byte) (one next : Bits) : Option Bits :=
  if next.bitlen = 0 then some one
  else
    let newBitlen := one.bitlen + next.bitlen
    (grow junk one (byteLen newBitlen)).bind fun one =>
      (forN (fun j buf => (getBit next.bits j).bind (setBit buf (one.bitlen + j)))
        next.bitlen one.bits).map fun buf => { one with bits := buf, bitlen := newBitlen }

/-- `bits_concatz(one, next1, ..., NULL)`, bits.c:265-292. The operands are values: the aliasing call
`bits_concatz(x, x, NULL)`, which the program does not make, is not modelled. -/
def concatz (junk : Byte) (one : Bits) : List Bits → Option Bits
  | [] => some one
  | n :: ns => (concat1 junk one n).bind fun o => concatz junk o ns

/-- `bits_concat`, bits.c:294-304 -/
def concat (junk : Byte) (one : Bits) (rest : List Bits) : Option Bits :=
  (copy one).bind fun c => concatz junk c rest

/-- the mask with the `n` highest bits set computed in bits.c:320-325 and bits.c:502-507 -/
def topMask (n : Nat) : Byte :=
  let rec go : Nat → Nat → Byte → Byte
    | 0, _, m => m
    | i + 1, n, m =>
      let m := m ||| ((1 : Byte) <<< (i + 1))
      if n - 1 = 0 then m else go i (n - 1) m
  go 7 n 0

/-- `bits_notz`, bits.c:314-331 -/
def notz (b : Bits) : Option Bits :=
  if b.bitlen = 0 then some b
  else
    (forN (fun i buf => (rd buf i).bind fun x => wr buf i (~~~ x)) (b.bitlen / 8) b.bits).bind
      fun buf =>
        if b.bitlen % 8 ≠ 0 then
          let mask := topMask (b.bitlen % 8)
          (rd buf (b.bitlen / 8)).bind fun last =>
            (wr buf (b.bitlen / 8) ((~~~ last &&& mask) ||| (last &&& ~~~ mask))).map
              fun buf => { b with bits := buf }
        else some { b with bits := buf }

/-- `bits_not`, bits.c:333-337 -/
def not (b : Bits) : Option Bits := (copy b).bind notz

/-- the prologue shared by `bits_rotz`, `bits_shiftz` and `bits_shiftrz`: copy the buffer to
`original_bits` and zero it (bits.c:340-344, 372-376, 395-399) -/
def saveAndZero (b : Bits) : Option (List Byte × List Byte) :=
  (memcpy (List.replicate b.allocated 0) b.bits b.allocated).bind fun orig =>
    (memset0 b.bits 0 b.allocated).map fun z => (orig, z)

/-- `bits_rotz`, bits.c:339-362 -/
def rotz (b : Bits) : Option Bits :=
  (saveAndZero b).bind fun (orig, z) =>
    (forN (fun i buf =>
        let left := i
        let right := b.bitlen - i - 1
        (getBit orig left).bind fun lb => (getBit orig right).bind fun rb =>
          (orBit buf right lb).bind fun buf => orBit buf left rb) (b.bitlen / 2) z).bind fun buf =>
      if b.bitlen % 2 = 1 then
        (getBit orig (b.bitlen / 2)).bind fun mb =>
          (orBit buf (b.bitlen / 2) mb).map fun buf => { b with bits := buf }
      else some { b with bits := buf }

/-- `bits_rot`, bits.c:364-368 -/
def rot (b : Bits) : Option Bits := (copy b).bind rotz

/-- `bits_shiftz`, bits.c:370-385 -/
def shiftz (b : Bits) (amount : Int) : Option Bits :=
  if amount = 0 then some b
  else
    (saveAndZero b).bind fun (orig, z) =>
      (forN (fun i buf =>
          (if (amount > 0 ∧ (i : Int) + amount < b.bitlen) ∨ (amount < 0 ∧ (i : Int) ≥ -amount) then
            getBit orig ((i : Int) + amount).toNat else some 0).bind fun x => orBit buf i x)
        b.bitlen z).map fun buf => { b with bits := buf }

/-- `bits_shift`, bits.c:387-391 -/
def shift (b : Bits) (amount : Int) : Option Bits := (copy b).bind fun c => shiftz c amount

/-- `bits_shiftrz`, bits.c:393-415. In the wrapping branch for negative amounts,
`amount % bits->bitlen` converts `amount` to `unsigned long` first. -/
def shiftrz (b : Bits) (amount : Int) : Option Bits :=
  if amount = 0 then some b
  else
    (saveAndZero b).bind fun (orig, z) =>
      (forN (fun i buf =>
          let newPos : Nat :=
            if (amount > 0 ∧ (i : Int) + amount < b.bitlen) ∨ (amount < 0 ∧ (i : Int) ≥ -amount) then
              ((i : Int) + amount).toNat
            else if amount > 0 then ((i : Int) + amount).toNat % b.bitlen
            else
              let modAmount := (amount % (2 ^ 64 : Int)).toNat % b.bitlen
              (i + modAmount) % b.bitlen
          (getBit orig newPos).bind fun x => orBit buf i x) b.bitlen z).map
        fun buf => { b with bits := buf }

/-- `bits_shiftr`, bits.c:417-421 -/
def shiftr (b : Bits) (amount : Int) : Option Bits := (copy b).bind fun c => shiftrz c amount

/-- `bits_lengthenz`, bits.c:437-459 -/
def lengthenz (junk : Byte) (b : Bits) (amount : Int) : Option Bits :=
  if amount = 0 then some b
  else
    (grow junk b (byteLen (b.bitlen + amount.natAbs))).bind fun g =>
      let g := { g with bitlen := b.bitlen + amount.natAbs }
      if amount > 0 then shiftz g (-amount) else some g

/-- `bits_lengthen`, bits.c:461-465 -/
def lengthen (junk : Byte) (b : Bits) (amount : Int) : Option Bits :=
  (copy b).bind fun c => lengthenz junk c amount

/-- `bits_shortenz`, bits.c:467-481. `new_bits` is a `size_t` and wraps around if the amount exceeds
the length. -/
def shortenz (b : Bits) (amount : Int) : Option Bits :=
  if amount > 0 then
    let newBits := (((b.bitlen : Int) - amount) % (2 ^ 64 : Int)).toNat
    (shiftz b amount).map fun s => { s with bitlen := newBits }
  else if amount < 0 then
    let newBits := (((b.bitlen : Int) + amount) % (2 ^ 64 : Int)).toNat
    (forN (fun i buf =>
        let pos := newBits + i
        (rd buf (pos / 8)).bind fun x => wr buf (pos / 8) (x &&& ~~~ bitMask pos))
      (b.bitlen - newBits) b.bits).map fun buf => { b with bits := buf, bitlen := newBits }
  else some b

/-- `bits_shorten`, bits.c:483-487 -/
def shorten (b : Bits) (amount : Int) : Option Bits := (copy b).bind fun c => shortenz c amount

/-- `bits_shiftiz`, bits.c:423-429 -/
def shiftiz (junk : Byte) (b : Bits) (amount : Int) : Option Bits :=
  if amount > 0 then lengthenz junk b (-amount)
  else if amount < 0 then shortenz b amount
  else some b

/-- `bits_shifti`, bits.c:431-435 -/
def shifti (junk : Byte) (b : Bits) (amount : Int) : Option Bits :=
  (copy b).bind fun c => shiftiz junk c amount

/-- `bits_eq`, bits.c:496-514 (`memcmp` compares the first `bitlen / 8` bytes) -/
def eq (one other : Bits) : Option Bool :=
  if one.sign ≠ other.sign then some false
  else if one.bitlen ≠ other.bitlen then some false
  else if one.bitlen = 0 then some true
  else
    (forN (fun i (acc : Bool) => (rd one.bits i).bind fun x => (rd other.bits i).map fun y =>
        acc && (x == y)) (one.bitlen / 8) true).bind fun same =>
      if !same then some false
      else if one.bitlen % 8 ≠ 0 then
        let mask := topMask (one.bitlen % 8)
        (rd one.bits (one.bitlen / 8)).bind fun x => (rd other.bits (one.bitlen / 8)).map fun y =>
          (x &&& mask) == (y &&& mask)
      else some true

/-- the bytes `bits_sha1` hashes, bits.c:489-494: the first `BYTE_LEN(bitlen)` bytes -/
def sha1Input (b : Bits) : Option (List Byte) := memdup b.bits (byteLen b.bitlen)

end Ecgen.Bits
