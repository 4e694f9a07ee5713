import Verif.Bits.Hex

/-!
Sequences of bit-string operations: a small command language over a store of bit strings, used to
state memory safety of arbitrary uses of the API (C12).
-/

namespace Ecgen.Bits

/-- One call of the bit-string API. Arguments are indices into the store of live strings. Commands
with a result append it; `set` commands replace the string they edit. -/
inductive Cmd where
  | new (n : Nat)
  | newRand (rnd : Nat → Nat → Nat) (n : Nat)
  | fromI (i : Int)
  | fromILen (i : Int) (n : Nat)
  | fromHex (s : List Char)
  | fromBin (s : List Char)
  | fromRaw (raw : List Byte) (n : Nat)
  | fromBitvec (v : List Bool)
  | cpy (dst src : Nat)
  | copy (x : Nat)
  | or (x y : Nat)
  | and (x y : Nat)
  | concatz (x : Nat) (ys : List Nat)
  | concat (x : Nat) (ys : List Nat)
  | notz (x : Nat)
  | not (x : Nat)
  | rotz (x : Nat)
  | rot (x : Nat)
  | shiftz (x : Nat) (a : Int)
  | shift (x : Nat) (a : Int)
  | shiftrz (x : Nat) (a : Int)
  | shiftr (x : Nat) (a : Int)
  | shiftiz (x : Nat) (a : Int)
  | shifti (x : Nat) (a : Int)
  | lengthenz (x : Nat) (a : Int)
  | lengthen (x : Nat) (a : Int)
  | shortenz (x : Nat) (a : Int)
  | shorten (x : Nat) (a : Int)
  | toI (x : Nat)
  | toHex (x : Nat)
  | toBin (x : Nat)
  | toRaw (x : Nat)
  | toBitvec (x : Nat)
  | eq (x y : Nat)
  | sha1 (x : Nat)

/-- the string in slot `x`; an empty one for unused slots -/
def slot (st : List Bits) (x : Nat) : Bits := st.getD x (new 0)

/-- Execute one command; `none` is undefined behaviour. -/
def Cmd.exec (junk : Byte) (st : List Bits) : Cmd → Option (List Bits)
  | .new n => some (st ++ [Bits.new n])
  | .newRand rnd n => (Bits.newRand rnd n).map fun r => st ++ [r]
  | .fromI i => (Bits.fromI i).map fun r => st ++ [r]
  | .fromILen i n => (Bits.fromILen i n).map fun r => st ++ [r]
  | .fromHex s => (Bits.fromHex s).map fun r => st ++ [r]
  | .fromBin s => (Bits.fromBin s).map fun r => st ++ [r]
  | .fromRaw raw n => (Bits.fromRaw raw n).map fun r => st ++ [r]
  | .fromBitvec v => (Bits.fromBitvec v).map fun r => st ++ [r]
  | .cpy d s => (Bits.cpy junk (slot st d) (slot st s)).map fun r => st.set d r
  | .copy x => (Bits.copy (slot st x)).map fun r => st ++ [r]
  | .or x y => (Bits.or (slot st x) (slot st y)).map fun r => st ++ [r]
  | .and x y => (Bits.and (slot st x) (slot st y)).map fun r => st ++ [r]
  | .concatz x ys => (Bits.concatz junk (slot st x) (ys.map (slot st))).map fun r => st.set x r
  | .concat x ys => (Bits.concat junk (slot st x) (ys.map (slot st))).map fun r => st ++ [r]
  | .notz x => (Bits.notz (slot st x)).map fun r => st.set x r
  | .not x => (Bits.not (slot st x)).map fun r => st ++ [r]
  | .rotz x => (Bits.rotz (slot st x)).map fun r => st.set x r
  | .rot x => (Bits.rot (slot st x)).map fun r => st ++ [r]
  | .shiftz x a => (Bits.shiftz (slot st x) a).map fun r => st.set x r
  | .shift x a => (Bits.shift (slot st x) a).map fun r => st ++ [r]
  | .shiftrz x a => (Bits.shiftrz (slot st x) a).map fun r => st.set x r
  | .shiftr x a => (Bits.shiftr (slot st x) a).map fun r => st ++ [r]
  | .shiftiz x a => (Bits.shiftiz junk (slot st x) a).map fun r => st.set x r
  | .shifti x a => (Bits.shifti junk (slot st x) a).map fun r => st ++ [r]
  | .lengthenz x a => (Bits.lengthenz junk (slot st x) a).map fun r => st.set x r
  | .lengthen x a => (Bits.lengthen junk (slot st x) a).map fun r => st ++ [r]
  | .shortenz x a => (Bits.shortenz (slot st x) a).map fun r => st.set x r
  | .shorten x a => (Bits.shorten (slot st x) a).map fun r => st ++ [r]
  | .toI x => (Bits.toI (slot st x)).map fun _ => st
  | .toHex x => (Bits.toHex (slot st x)).map fun _ => st
  | .toBin x => (Bits.toBin (slot st x)).map fun _ => st
  | .toRaw x => (Bits.toRaw (slot st x)).map fun _ => st
  | .toBitvec x => (Bits.toBitvec (slot st x)).map fun _ => st
  | .eq x y => (Bits.eq (slot st x) (slot st y)).map fun _ => st
  | .sha1 x => (sha1Input (slot st x)).map fun _ => st

/-- The caller's obligations: a raw block is as large as announced, nothing is shortened by more than
its length (which is a machine word). -/
def Cmd.InRange (st : List Bits) : Cmd → Prop
  | .fromRaw raw n => byteLen n ≤ raw.length
  | .shortenz x a | .shorten x a => a.natAbs ≤ (slot st x).bitlen ∧ (slot st x).bitlen < 2 ^ 64
  | .shiftiz x a | .shifti x a =>
      a < 0 → a.natAbs ≤ (slot st x).bitlen ∧ (slot st x).bitlen < 2 ^ 64
  | _ => True

/-- Run a program; `none` is undefined behaviour. -/
def runCmds (junk : Byte) : List Cmd → List Bits → Option (List Bits)
  | [], st => some st
  | c :: cs, st => (c.exec junk st).bind (runCmds junk cs)

/-- Every command of the program meets its obligations when it is reached. -/
def AllInRange (junk : Byte) : List Cmd → List Bits → Prop
  | [], _ => True
  | c :: cs, st => c.InRange st ∧ ∀ st', c.exec junk st = some st' → AllInRange junk cs st'

theorem lengthenz_safe (junk : Byte) (b : Bits) (h : b.WF) (amount : Int) :
    ∃ r, lengthenz junk b amount = some r ∧ r.WF := by
  unfold lengthenz
  by_cases ha : amount = 0
  · rw [if_pos ha]; exact ⟨b, rfl, h⟩
  · rw [if_neg ha]
    obtain ⟨g, hg, g1, g2, g3, g4, g5, g6, g7⟩ := grow_spec junk b h (byteLen (b.bitlen + amount.natAbs))
    simp only [hg, Option.bind_some]
    have wf' : ({ g with bitlen := b.bitlen + amount.natAbs } : Bits).WF := ⟨g3.1, g5⟩
    by_cases hp : amount > 0
    · rw [if_pos hp]
      obtain ⟨r, hr, r1, _⟩ := shiftz_spec _ wf' (-amount)
      exact ⟨r, hr, r1⟩
    · rw [if_neg hp]
      exact ⟨_, rfl, wf'⟩

theorem shiftrz_safe (b : Bits) (h : b.WF) (amount : Int) :
    ∃ r, shiftrz b amount = some r ∧ r.WF := by
  by_cases ha : amount = 0
  · exact ⟨b, by simp [shiftrz, ha], h⟩
  · obtain ⟨r, hr, r1, _⟩ := shiftrz_gen b h amount ha
    exact ⟨r, hr, r1⟩

theorem cpy_safe (junk : Byte) (d s : Bits) (hd : d.WF) (hs : s.WF) :
    ∃ r, cpy junk d s = some r ∧ r.WF := by
  by_cases h0 : s.bitlen = 0
  · exact ⟨d, by simp [cpy, h0], hd⟩
  · obtain ⟨r, hr, r1, _⟩ := cpy_spec junk d s hd hs h0
    exact ⟨r, hr, r1⟩

theorem shiftiz_safe (junk : Byte) (b : Bits) (h : b.WF) (a : Int)
    (hr : a < 0 → a.natAbs ≤ b.bitlen ∧ b.bitlen < 2 ^ 64) :
    ∃ r, shiftiz junk b a = some r ∧ r.WF := by
  unfold shiftiz
  by_cases h1 : a > 0
  · rw [if_pos h1]; exact lengthenz_safe junk b h (-a)
  · rw [if_neg h1]
    by_cases h2 : a < 0
    · rw [if_pos h2]
      obtain ⟨r, hr, r1, _⟩ := shortenz_spec b h (hr h2).2 a (hr h2).1
      exact ⟨r, hr, r1⟩
    · rw [if_neg h2]; exact ⟨b, rfl, h⟩

/-- combining a copy with an in-place operation -/
theorem copy_bind_safe {f : Bits → Option Bits} (b : Bits) (h : b.WF)
    (hf : ∀ c : Bits, c.WF → c.bitlen = b.bitlen → ∃ r, f c = some r ∧ r.WF) :
    ∃ r, (copy b).bind f = some r ∧ r.WF := by
  obtain ⟨c, hc, c1, _, _, c2, _⟩ := copy_spec b h
  rw [hc]
  exact hf c c1 c2

end Ecgen.Bits
