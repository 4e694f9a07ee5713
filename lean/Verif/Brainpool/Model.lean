import Verif.Sha1.Props
import Verif.Pari

/-!
# Model of `/repo/src/exhaustive/brainpool.c` and `brainpool_rfc.c` (seeds, field, equation)

The nested `do … while` loops are flattened to one transition per pass: `loopN` of `Verif/CLoop.lean` runs them. `junk`
is the content of fresh `realloc` memory. For `v = 0` the array `hashout` has length zero, which gcc allows.
-/

namespace Ecgen.Brainpool

open Ecgen.Bits

/-- the part of `seed_t` that changes: the bit string and the flag `update_seed` -/
structure St where
  seed : Bits
  upd : Bool

/-- `seed_wv`, brainpool.c:22-28, for `L ≥ 1` -/
def vOf (L : Nat) : Nat := (L - 1) / 160

/-- see `vOf` -/
def wOf (L : Nat) : Nat := L - 160 * vOf L - 1

/-- `brainpool_update_seed`, brainpool.c:30-38 -/
def updateSeed (junk : Byte) (s : Bits) : Option Bits :=
  (toI s).bind fun z => (fromILen ((z + 1) % (2 ^ 160 : Int)) 160).bind fun r => cpy junk s r

/-- the loop of `brainpool_hash`, brainpool.c:48-52; the digests are written one after the other -/
def hashRest (z : Int) (v : Nat) : Option (List Byte) :=
  forN (fun i (acc : List Byte) =>
    (fromILen ((z + (i + 1 : Nat)) % (2 ^ 160 : Int)) 160).bind fun si =>
    (Sha1.bitsSha1 si).map fun d => acc ++ d) v []

/-- `brainpool_hash`, brainpool.c:40-60 -/
def hash (junk : Byte) (s : Bits) (w v : Nat) : Option Bits :=
  (Sha1.bitsSha1 s).bind fun h => (toI s).bind fun z => (hashRest z v).bind fun hashout =>
  (fromRaw h 160).bind fun result => (shortenz result (160 - (w : Int))).bind fun result =>
  (fromRaw hashout (20 * v * 8)).bind fun rest => concatz junk result [rest]

/-- hash a seed and convert to an integer -/
def hashI (junk : Byte) (s : Bits) (w v : Nat) : Option Int := (hash junk s w v).bind toI

/-- `if (update_seed) { update; update_seed = false; }` -/
def applyFlag (junk : Byte) (s : St) : Option Bits := if s.upd then updateSeed junk s.seed else some s.seed

/-- one pass of the loops of `brainpool_gen_field`, brainpool.c:104-142. `none` in the second component: at the top of
the outer loop; `some p`: in the inner loop with the current value of `p`. -/
def fieldStep (junk : Byte) (np : Int → Int) (isprime : Int → Bool) (L : Nat) :
    St × Option Int → Option (Step (St × Option Int) (Int × St))
  | (s, none) =>
    (applyFlag junk s).bind fun sd => (hashI junk sd (wOf L + 1) (vOf L)).map fun c => .cont (⟨sd, false⟩, some c)
  | (s, some q) =>
    let p := np (q + 1)
    if p % 4 ≠ 3 then some (.cont (s, some p))
    else if p ≤ 2 ^ (L - 1) - 1 ∨ 2 ^ L ≤ p then (updateSeed junk s.seed).map fun sd => .cont (⟨sd, s.upd⟩, none)
    else if !isprime p then (updateSeed junk s.seed).map fun sd => .cont (⟨sd, s.upd⟩, none)
    else some (.done (p, ⟨s.seed, true⟩))

/-- `brainpool_gen_field` -/
def genField (junk : Byte) (np : Int → Int) (isprime : Int → Bool) (L fuel : Nat) (s : St) :
    Option (Option (Int × St)) := loopN (fieldStep junk np isprime L) fuel (s, none)

/-- the test for a zero discriminant, brainpool.c:193-194 -/
def discZero (p : Nat) (a b : Int) : Bool := (-16 * (4 * a ^ 3 + 27 * b ^ 2)) % (p : Int) == 0

/-- one pass of the loop of `brainpool_gen_equation`, brainpool.c:149-209 -/
def equationStep (junk : Byte) (p : Nat) (P : FpOps) (L : Nat) (s : St) : Option (Step St ((Int × Int) × St)) :=
  (applyFlag junk s).bind fun sd => (hashI junk sd (wOf L) (vOf L)).bind fun a =>
    match P.invsafe a with
    | none => (updateSeed junk sd).map fun sd => .cont ⟨sd, false⟩
    | some am =>
      match P.root4 (am * -3) with
      | none => (updateSeed junk sd).map fun sd => .cont ⟨sd, false⟩
      | some _ => (updateSeed junk sd).bind fun sd => (hashI junk sd (wOf L) (vOf L)).bind fun b =>
        if !P.issquare b then (updateSeed junk sd).map fun sd => .cont ⟨sd, false⟩
        else if discZero p a b then (updateSeed junk sd).map fun sd => .cont ⟨sd, false⟩
        else some (.done ((a % p, b % p), ⟨sd, true⟩))

/-- `brainpool_gen_equation` -/
def genEquation (junk : Byte) (p : Nat) (P : FpOps) (L fuel : Nat) (s : St) :
    Option (Option ((Int × Int) × St)) := loopN (equationStep junk p P L) fuel s

/-- one pass of the loops of `brainpool_rfc_gen_equation`, brainpool_rfc.c:36-96; `some a`: in the inner loop -/
def rfcStep (junk : Byte) (p : Nat) (P : FpOps) (L : Nat) :
    St × Option Int → Option (Step (St × Option Int) ((Int × Int) × St))
  | (s, none) =>
    (applyFlag junk s).bind fun sd => (hashI junk sd (wOf L) (vOf L)).bind fun a =>
      match P.invsafe a with
      | none => (updateSeed junk sd).map fun sd => .cont (⟨sd, false⟩, none)
      | some am =>
        match P.root4 (am * -3) with
        | none => (updateSeed junk sd).map fun sd => .cont (⟨sd, false⟩, none)
        | some _ => some (.cont (⟨sd, false⟩, some a))
  | (s, some a) =>
    (updateSeed junk s.seed).bind fun sd => (hashI junk sd (wOf L) (vOf L)).bind fun b =>
      if P.issquare b then some (.cont (⟨sd, s.upd⟩, some a))
      else if discZero p a b then (updateSeed junk sd).map fun sd => .cont (⟨sd, s.upd⟩, none)
      else some (.done ((a % p, b % p), ⟨sd, true⟩))

/-- `brainpool_rfc_gen_equation` -/
def genEquationRfc (junk : Byte) (p : Nat) (P : FpOps) (L fuel : Nat) (s : St) :
    Option (Option ((Int × Int) × St)) := loopN (rfcStep junk p P L) fuel (s, none)

end Ecgen.Brainpool
