import Verif.Sha1.Props
import Verif.Pari

/-!
# Model of `/repo/src/exhaustive/ansi.c`

`junk` is the content of fresh `realloc` memory, see `Verif.Bits.Model`. PARI's modular functions are the fields of
`FpOps` (Verif/Pari.lean).
-/

namespace Ecgen.Ansi

open Ecgen.Bits

/-- `seed_t` with its `ansi` part: the bit string, its SHA-1 digest and `t`, `s`, `h` -/
structure Seed where
  bits : Bits
  hash20 : List Byte
  t : Nat
  s : Nat
  h : Nat

/-- `seed_hash` and `seed_tsh`, ansi.c:25-37, for a field of `t ≥ 1` bits. The quotient of reals in `seed_tsh` has 64
bits of precision, which is the exact floor for the sizes at hand. -/
def mkSeed (b : Bits) (t : Nat) : Option Seed :=
  (Sha1.bitsSha1 b).map fun d => { bits := b, hash20 := d, t := t, s := (t - 1) / 160, h := t - (t - 1) / 160 * 160 }

/-- `ansi_gen_seed_random`, ansi.c:39-46; `x` is the result of `random_int(160)` -/
def genSeedRandom (x : Nat) (t : Nat) : Option Seed := (fromI x).bind fun b => mkSeed b t

/-- `ansi_gen_seed_argument` and `ansi_gen_seed_input` after validation, ansi.c:48-73; `s` is the digits after the
optional `0x` -/
def genSeedHex (s : List Char) (t : Nat) : Option Seed := (fromHex s).bind fun b => mkSeed b t

/-- the body of the loop of `seed_process`, ansi.c:84-99; `k` counts from 0, `z` is the integer value of the seed -/
def processStep (junk : Byte) (g : Nat) (z : Int) (k : Nat) (result : Bits) : Option Bits :=
  (fromI ((z + (k + 1 : Nat)) % (2 ^ g : Int))).bind fun toHash =>
  (if toHash.bitlen < g then lengthenz junk toHash ((g - toHash.bitlen : Nat) : Int) else some toHash).bind fun toHash =>
  (Sha1.bitsSha1 toHash).bind fun d =>
  (fromRaw d 160).bind fun wi => concatz junk result [wi]

/-- `seed_process`, ansi.c:75-104 -/
def seedProcess (junk : Byte) (seed : Seed) (first : Bits) : Option Bits :=
  (copy first).bind fun result =>
  (toI seed.bits).bind fun z => forN (processStep junk seed.bits.bitlen z) seed.s result

/-- the first `h` bits: ansi.c:108-109 and 148-149 -/
def firstPart (seed : Seed) : Option Bits :=
  (fromRaw seed.hash20 160).bind fun c => shortenz c (160 - (seed.h : Int))

/-- `W` of the prime field case, ansi.c:111-114 -/
def wordFp (junk : Byte) (seed : Seed) : Option Bits :=
  (firstPart seed).bind fun c0 => (copy c0).bind fun w0 =>
  (setBit w0.bits 0 0).bind fun buf => seedProcess junk seed { w0 with bits := buf }

/-- `r`, ansi.c:116-121 -/
def derivedR (junk : Byte) (seed : Seed) : Option Nat :=
  (wordFp junk seed).bind fun w =>
  forN (fun i (r : Nat) => (getBit w.bits i).map fun x => r + x.toNat * 2 ^ (seed.t - (i + 1))) seed.t 0

/-- one pass of the loop ansi.c:127-130: `draws k` is the `k`-th value of `random_int` -/
def tryA (P : FpOps) (draws : Nat → Nat) (rInv : Int) (k : Nat) : Option (Step Nat (Nat × Int)) :=
  let b2 := (draws k : Int) ^ 3 * rInv
  if P.issquare b2 then some (.done (draws k, P.sqrt b2)) else some (.cont (k + 1))

/-- `ansi_gen_equation_fp`, ansi.c:106-143: `r`, `a` and `b`. A missing inverse is a null pointer dereference. -/
def genEquationFp (junk : Byte) (P : FpOps) (draws : Nat → Nat) (fuel : Nat) (seed : Seed) :
    Option (Option (Nat × Nat × Int)) :=
  (derivedR junk seed).bind fun r =>
  (P.invsafe r).bind fun rInv =>
  (loopN (tryA P draws rInv) fuel 0).map fun o => o.map fun ab => (r, ab.1, ab.2)

/-- `ansi_gen_equation_f2m`, ansi.c:145-166: `.error ()` is the return value -3; otherwise the integers whose binary
digits are the coefficients of `a` and `b` (see `field_ielement`) -/
def genEquationF2m (junk : Byte) (a : Nat) (seed : Seed) : Option (Except Unit (Nat × Int)) :=
  (firstPart seed).bind fun b0 => (seedProcess junk seed b0).bind fun b => (toI b).map fun ib =>
    if ib = 0 then .error () else .ok (a, ib)

end Ecgen.Ansi
