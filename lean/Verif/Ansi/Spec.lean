import Verif.SeedSpec

/-!
# ANSI X9.62, A.3.3: verifiably random curves

A seed is a bit string `S` of `g` bits, the field has `t` bits, `s = ⌊(t-1)/160⌋`, `h = t - 160 s`.
-/

namespace Ecgen.Ansi.Spec

open Ecgen.Bits Ecgen.SeedSpec

/-- the rightmost `h` bits -/
def low (h : Nat) (l : List Bool) : List Bool := l.drop (l.length - h)

/-- `W_1 ‖ … ‖ W_s`, `W_i` the digest of `(z + i) mod 2^g` written with `g` bits, `z` the value of the seed -/
def tailWords (S : List Bool) (s : Nat) : List Bool :=
  (List.range s).flatMap fun i => H (toBits S.length ((ofBits S + (i + 1)) % 2 ^ S.length))

/-- A.3.3.2 steps 1-5, the integer `r` of a prime field: the leftmost bit of `W_0` is set to zero -/
def expandFp (S : List Bool) (t : Nat) : List Bool :=
  (low (t - 160 * ((t - 1) / 160)) (H S)).set 0 false ++ tailWords S ((t - 1) / 160)

/-- A.3.3.1 steps 1-4, the coefficient `b` of a binary field -/
def expandF2m (S : List Bool) (t : Nat) : List Bool :=
  low (t - 160 * ((t - 1) / 160)) (H S) ++ tailWords S ((t - 1) / 160)

end Ecgen.Ansi.Spec
