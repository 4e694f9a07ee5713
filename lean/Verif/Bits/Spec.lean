import Verif.Bits.Model

/-!
# Specification vocabulary for bit strings

A bit string represents a list of Booleans, most significant (leftmost) bit first.
-/

namespace Ecgen.Bits

/-- bit number `i` of a byte buffer, counting from the most significant bit of byte 0 -/
def bitAt (buf : List Byte) (i : Nat) : Bool := (buf.getD (i / 8) 0).getMsbD (i % 8)

/-- the bit sequence a `bits_t` stands for -/
def Bits.val (b : Bits) : List Bool := (List.range b.bitlen).map (bitAt b.bits)

/-- the allocation invariant: the block has at least `allocated` bytes and covers the length -/
def Bits.WF (b : Bits) : Prop := b.allocated ≤ b.bits.length ∧ byteLen b.bitlen ≤ b.allocated

/-- the bits past the length are zero -/
def Bits.Clean (b : Bits) : Prop :=
  ∀ i, b.bitlen ≤ i → i < 8 * b.allocated → bitAt b.bits i = false

/-- the natural number with the given binary digits, most significant first -/
def ofBits (l : List Bool) : Nat := l.foldl (fun n b => 2 * n + b.toNat) 0

/-- the value of a hex digit, `none` if it is none -/
def hexVal (c : Char) : Option Nat :=
  if '0' ≤ c ∧ c ≤ '9' then some (c.toNat - 48)
  else if 'a' ≤ c ∧ c ≤ 'f' then some (c.toNat - 87)
  else if 'A' ≤ c ∧ c ≤ 'F' then some (c.toNat - 55)
  else none

/-- the number denoted by a string of hex digits -/
def ofHex : List Char → Option Nat
  | l => l.foldl (fun n c => n.bind fun n => (hexVal c).map fun d => 16 * n + d) (some 0)

/-- the four bits of a hex digit -/
def digitBits (d : Nat) : List Bool :=
  [d / 8 % 2 == 1, d / 4 % 2 == 1, d / 2 % 2 == 1, d % 2 == 1]

/-- bit `i` counted from the right end -/
def fromRight (l : List Bool) (i : Nat) : Bool := l.reverse.getD i false

/-- the bit sequence moved by `amount` to the left (negative: to the right), filled with zeros -/
def shiftList (l : List Bool) (amount : Int) : List Bool :=
  (List.range l.length).map fun (i : Nat) =>
    if 0 ≤ (i : Int) + amount then l.getD ((i : Int) + amount).toNat false else false

/-- the bit sequence rotated by `amount` to the left -/
def rotateList (l : List Bool) (amount : Int) : List Bool :=
  (List.range l.length).map fun (i : Nat) => l.getD (((i : Int) + amount) % l.length).toNat false

/-- a Boolean as the 0/1 byte used by the C code -/
def b2b (b : Bool) : Byte := if b then 1 else 0

end Ecgen.Bits
