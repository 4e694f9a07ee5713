import Verif.Sha1.Model

/-!
# SHA-1 as specified in FIPS 180-4

Sections 2.2.2 (rotation), 4.1.1 (functions), 4.2.1 (constants), 5.1.1 (padding), 5.3.1 (initial
value), 6.1.2 (hash computation). Messages are byte strings. Only the names `Word`, `Byte`, `Hash` are
shared with the model.
-/

namespace Ecgen.Sha1.Spec

/-- 2.2.2 `ROTL` -/
def rotl (n : Nat) (x : Word) : Word := x.rotateLeft n

/-- 4.1.1 -/
def f (t : Nat) (x y z : Word) : Word :=
  if t < 20 then (x &&& y) ^^^ (~~~ x &&& z)
  else if t < 40 then x ^^^ y ^^^ z
  else if t < 60 then (x &&& y) ^^^ (x &&& z) ^^^ (y &&& z)
  else x ^^^ y ^^^ z

/-- 4.2.1 -/
def K (t : Nat) : Word :=
  if t < 20 then 0x5a827999 else if t < 40 then 0x6ed9eba1 else if t < 60 then 0x8f1bbcdc
  else 0xca62c1d6

/-- `n` as `k` bytes, big endian -/
def be : Nat → Nat → List Byte
  | 0, _ => []
  | k + 1, n => be k (n / 256) ++ [BitVec.ofNat 8 (n % 256)]

/-- 5.1.1: append 1, then zeros up to 448 mod 512 bits, then the length in bits as 64 bits -/
def pad (m : List Byte) : List Byte :=
  m ++ [0x80] ++ List.replicate ((119 - m.length % 64) % 64) 0 ++ be 8 (8 * m.length)

/-- 5.2.1: the `t`-th 32-bit word of a block -/
def word (blk : List Byte) (t : Nat) : Word :=
  (blk.getD (4 * t) 0 ++ blk.getD (4 * t + 1) 0 ++ blk.getD (4 * t + 2) 0 ++ blk.getD (4 * t + 3) 0 :
    BitVec 32)

/-- 6.1.2 step 1 -/
def W (M : Nat → Word) (t : Nat) : Word :=
  if t < 16 then M t
  else rotl 1 (W M (t - 3) ^^^ W M (t - 8) ^^^ W M (t - 14) ^^^ W M (t - 16))
termination_by t
decreasing_by all_goals omega

/-- 6.1.2 step 3 -/
def round (M : Nat → Word) (s : Hash) (t : Nat) : Hash :=
  let T := rotl 5 s.h0 + f t s.h1 s.h2 s.h3 + s.h4 + K t + W M t
  ⟨T, s.h0, rotl 30 s.h1, s.h2, s.h3⟩

/-- 6.1.2 steps 2-4 -/
def compress (H : Hash) (M : Nat → Word) : Hash :=
  let s := (List.range 80).foldl (round M) H
  ⟨s.h0 + H.h0, s.h1 + H.h1, s.h2 + H.h2, s.h3 + H.h3, s.h4 + H.h4⟩

/-- 6.1.2: process the 512-bit blocks in order (a trailing incomplete block is ignored) -/
def process (H : Hash) (m : List Byte) : Hash :=
  if m.length < 64 then H else process (compress H (word (m.take 64))) (m.drop 64)
termination_by m.length
decreasing_by rw [List.length_drop]; omega

/-- 5.3.1 -/
def H0 : Hash := ⟨0x67452301, 0xefcdab89, 0x98badcfe, 0x10325476, 0xc3d2e1f0⟩

/-- the 160-bit digest as 20 bytes, big endian -/
def digest (h : Hash) : List Byte :=
  be 4 h.h0.toNat ++ be 4 h.h1.toNat ++ be 4 h.h2.toNat ++ be 4 h.h3.toNat ++ be 4 h.h4.toNat

/-- SHA-1 of a message -/
def sha1 (m : List Byte) : List Byte := digest (process H0 (pad m))

end Ecgen.Sha1.Spec
