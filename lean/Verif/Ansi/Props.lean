import Verif.Ansi.Model
import Verif.Ansi.Spec
import Mathlib.Tactic.Ring
import Mathlib.Tactic.LinearCombination
import Mathlib.Data.ZMod.Basic

/-!
# ANSI X9.62 verifiably random curves (C16, C17)
-/

namespace Ecgen.Ansi

open Ecgen.Bits Ecgen.SeedSpec

/-- a bit string object as the seed generators produce them -/
def Good (b : Bits) : Prop := b.WF ∧ b.Clean ∧ b.sign = false ∧ b.bitlen < 2 ^ 31

theorem mkSeed_spec (b : Bits) (hb : Good b) (t : Nat) :
    ∃ sd, mkSeed b t = some sd ∧ sd.bits = b ∧ sd.t = t ∧ sd.s = (t - 1) / 160 ∧
      sd.h = t - (t - 1) / 160 * 160 ∧ sd.hash20 = Sha1.Spec.sha1 (Sha1.pack b.val) := by
  unfold mkSeed
  rw [Sha1.bitsSha1_correct b hb.1 hb.2.1 hb.2.2.2]
  exact ⟨_, rfl, rfl, rfl, rfl, rfl, rfl⟩

theorem processStep_spec (junk : Byte) (g n k : Nat) (hg : g < 2 ^ 31) (r : Bits) (hr : r.WF) :
    ∃ r', processStep junk g n k r = some r' ∧ r'.WF ∧ r'.sign = r.sign ∧
      r'.val = r.val ++ H (toBits g ((n + (k + 1)) % 2 ^ g)) := by
  unfold processStep
  have e : ((n : Int) + (k + 1 : Nat)) % (2 ^ g : Int) = (((n + (k + 1)) % 2 ^ g : Nat) : Int) := by
    push_cast; rfl
  rw [e]
  have hlt : (n + (k + 1)) % 2 ^ g < 2 ^ g := Nat.mod_lt _ (Nat.two_pow_pos g)
  generalize (n + (k + 1)) % 2 ^ g = x at hlt ⊢
  obtain ⟨th, h1, h2, h3, h4, h5⟩ := fromI_spec (x : Int)
  rw [h1, Option.bind_some]
  have hx : (x : Int).natAbs = x := by simp
  rw [hx] at h5
  have hlen : th.bitlen ≤ g := by
    rw [← val_length, h5]; exact (binaryZv_length_le x g).2 hlt
  have hval : ∃ th', (if th.bitlen < g then lengthenz junk th ((g - th.bitlen : Nat) : Int) else some th) = some th' ∧
      th'.WF ∧ th'.Clean ∧ th'.val = toBits g x := by
    by_cases hl : th.bitlen < g
    · rw [if_pos hl]
      obtain ⟨q, q1, q2, q3, q4, q5⟩ := lengthenz_spec junk th h2 h3 ((g - th.bitlen : Nat) : Int)
      refine ⟨q, q1, q2, q3, ?_⟩
      rw [if_pos (Int.natCast_nonneg _), Int.toNat_natCast] at q5
      apply eq_toBits
      · rw [q5, List.length_append, List.length_replicate, val_length]; omega
      · rw [q5, ofBits_zeros_append, h5, ofBits_binaryZv, Nat.mod_eq_of_lt hlt]
    · rw [if_neg hl]
      refine ⟨th, rfl, h2, h3, ?_⟩
      apply eq_toBits
      · rw [val_length]; omega
      · rw [h5, ofBits_binaryZv, Nat.mod_eq_of_lt hlt]
  obtain ⟨th', e1, e2, e3, e4⟩ := hval
  rw [e1, Option.bind_some]
  have hbl : th'.bitlen = g := by rw [← val_length, e4, toBits_length]
  rw [Sha1.bitsSha1_correct th' e2 e3 (by omega), Option.bind_some, e4]
  obtain ⟨w, w1, w2, w3, w4⟩ := fromRaw_unpack (Sha1.Spec.sha1 (Sha1.pack (toBits g x))) 20 (Sha1.sha1_length _)
  rw [show (160 : Nat) = 8 * 20 from rfl, w1, Option.bind_some]
  obtain ⟨r', r1, r2, r3, r4⟩ := concatz_val junk r [w] hr (by simpa using w2)
  refine ⟨r', r1, r2, r3, ?_⟩
  rw [r4]
  simp [w4, H]

theorem seedProcess_spec (junk : Byte) (sd : Seed) (hb : Good sd.bits) (first : Bits) (hf : first.WF) :
    ∃ r, seedProcess junk sd first = some r ∧ r.WF ∧ r.sign = first.sign ∧
      r.val = first.val ++ Spec.tailWords sd.bits.val sd.s := by
  unfold seedProcess
  obtain ⟨c, c0, c1, _, c3, _, _, c6⟩ := copy_spec first hf
  rw [c0, Option.bind_some, toI_spec _ hb.1, hb.2.2.1, Option.bind_some]
  simp only [Bool.false_eq_true, if_false]
  obtain ⟨y, hy, h1, h2, h3⟩ := forN_inv (f := processStep junk sd.bits.bitlen (ofBits sd.bits.val))
    (n := sd.s) (a := c)
    (P := fun k y => y.WF ∧ y.sign = first.sign ∧ y.val = first.val ++ Spec.tailWords sd.bits.val k)
    ⟨c1, c3, by simp [c6, Spec.tailWords]⟩ (by
      intro k x _ ⟨x1, x2, x3⟩
      obtain ⟨y, y1, y2, y3, y4⟩ := processStep_spec junk sd.bits.bitlen (ofBits sd.bits.val) k hb.2.2.2 x x1
      refine ⟨y, y1, y2, by rw [y3, x2], ?_⟩
      rw [y4, x3, Spec.tailWords, Spec.tailWords, List.range_succ, List.flatMap_append, val_length]
      simp)
  exact ⟨y, hy, h1, h2, h3⟩

/-- the length arithmetic of the expansion -/
theorem parts (t : Nat) (ht : 1 ≤ t) : 1 ≤ t - (t - 1) / 160 * 160 ∧ t - (t - 1) / 160 * 160 ≤ 160 ∧
    (t - 1) / 160 * 160 ≤ t := by omega

theorem firstPart_spec (b : Bits) (t : Nat) (ht : 1 ≤ t) (sd : Seed)
    (hh : sd.h = t - (t - 1) / 160 * 160) (hd : sd.hash20 = Sha1.Spec.sha1 (Sha1.pack b.val)) :
    ∃ r, firstPart sd = some r ∧ r.WF ∧ r.sign = false ∧
      r.val = Spec.low (t - 160 * ((t - 1) / 160)) (H b.val) := by
  have hp := parts t ht
  rw [← hh] at hp
  unfold firstPart
  obtain ⟨w, w1, w2, w3, w4⟩ := fromRaw_unpack sd.hash20 20 (by rw [hd]; exact Sha1.sha1_length _)
  rw [show (160 : Nat) = 8 * 20 from rfl, w1, Option.bind_some]
  have hl : w.bitlen = 160 := by rw [← val_length, w4, unpack_length, hd, Sha1.sha1_length]
  have e : (160 - (sd.h : Int)) = ((160 - sd.h : Nat) : Int) := by omega
  obtain ⟨r, r1, r2, r3, r4⟩ := shorten_val w w2 (by rw [hl]; decide) (160 - (sd.h : Int)) (by omega)
  refine ⟨r, r1, r2, by rw [r3, w3], ?_⟩
  rw [r4, if_pos (by omega), w4, Spec.low, H_length, hd, e, Int.toNat_natCast, hh, Nat.mul_comm 160]
  rfl

/-- C17 (binary fields): the bit string that becomes `b` is the standard's expansion, of exactly `t` bits. -/
theorem expansion_f2m (junk : Byte) (b : Bits) (hb : Good b) (t : Nat) (ht : 1 ≤ t) (sd : Seed)
    (hs : mkSeed b t = some sd) :
    ∃ r, ((firstPart sd).bind fun b0 => seedProcess junk sd b0) = some r ∧ r.WF ∧ r.sign = false ∧
      r.val = Spec.expandF2m b.val t := by
  obtain ⟨sd', h0, h1, h2, h3, h4, h5⟩ := mkSeed_spec b hb t
  rw [hs] at h0
  cases h0
  obtain ⟨f, f1, f2, f3, f4⟩ := firstPart_spec b t ht sd h4 h5
  rw [f1, Option.bind_some]
  obtain ⟨r, r1, r2, r3, r4⟩ := seedProcess_spec junk sd (by rw [h1]; exact hb) f f2
  exact ⟨r, r1, r2, by rw [r3, f3], by rw [r4, f4, h1, h3]; rfl⟩

/-- C17 (prime fields): likewise for `W`, whose top bit is cleared. -/
theorem expansion_fp (junk : Byte) (b : Bits) (hb : Good b) (t : Nat) (ht : 1 ≤ t) (sd : Seed)
    (hs : mkSeed b t = some sd) :
    ∃ r, wordFp junk sd = some r ∧ r.WF ∧ r.sign = false ∧ r.val = Spec.expandFp b.val t := by
  obtain ⟨sd', h0, h1, h2, h3, h4, h5⟩ := mkSeed_spec b hb t
  rw [hs] at h0
  cases h0
  have hp := parts t ht
  obtain ⟨f, f1, f2, f3, f4⟩ := firstPart_spec b t ht sd h4 h5
  unfold wordFp
  rw [f1, Option.bind_some]
  obtain ⟨c, c0, c1, c2, c3, c4, c5, c6⟩ := copy_spec f f2
  rw [c0, Option.bind_some]
  have hlen : 0 < c.bitlen := by
    rw [c4, ← val_length, f4, Spec.low, List.length_drop, H_length]; omega
  obtain ⟨buf, b1, b2, b3⟩ := setBit_eq (wf_pos c1 hlen) false
  rw [show (0 : Byte) = b2b false from rfl, b1, Option.bind_some]
  have hw : Bits.WF { c with bits := buf } := ⟨by rw [show ({ c with bits := buf } : Bits).bits = buf from rfl, b2]; exact c1.1, c1.2⟩
  obtain ⟨r, r1, r2, r3, r4⟩ := seedProcess_spec junk sd (by rw [h1]; exact hb) { c with bits := buf } hw
  refine ⟨r, r1, r2, by rw [r3]; show c.sign = false; rw [c3, f3], ?_⟩
  rw [r4, h1, h3]
  unfold Spec.expandFp
  congr 1
  rw [← f4, ← c6]
  apply val_eq_of
  · simp
  · intro i hi
    rw [List.getElem_set, b3]
    by_cases h0 : i = 0
    · simp [h0]
    · rw [if_neg h0, if_neg (Ne.symm h0), val_getElem]

/-- C17: the expansions have exactly `t` bits, and the integer of a prime field is below `2^(t-1)`. -/
theorem expansion_size (S : List Bool) (t : Nat) (ht : 1 ≤ t) :
    (Spec.expandFp S t).length = t ∧ (Spec.expandF2m S t).length = t ∧
      ofBits (Spec.expandFp S t) < 2 ^ (t - 1) := by
  have hp := parts t ht
  have ht' : ∀ s, (Spec.tailWords S s).length = s * 160 := by
    intro s
    unfold Spec.tailWords
    induction s with
    | zero => rfl
    | succ s ih =>
      rw [List.range_succ, List.flatMap_append, List.length_append, ih]
      simp [H_length]; omega
  have hlow : (Spec.low (t - 160 * ((t - 1) / 160)) (H S)).length = t - (t - 1) / 160 * 160 := by
    rw [Spec.low, List.length_drop, H_length]; omega
  have h1 : (Spec.expandFp S t).length = t := by
    rw [Spec.expandFp, List.length_append, List.length_set, hlow, ht']; omega
  refine ⟨h1, by rw [Spec.expandF2m, List.length_append, hlow, ht']; omega, ?_⟩
  have hh : ∃ l, Spec.expandFp S t = false :: l := by
    unfold Spec.expandFp
    cases hc : Spec.low (t - 160 * ((t - 1) / 160)) (H S) with
    | nil => rw [hc] at hlow; simp at hlow; omega
    | cons x l => exact ⟨l ++ Spec.tailWords S ((t - 1) / 160), rfl⟩
  obtain ⟨l, hl⟩ := hh
  rw [hl] at h1 ⊢
  have : ofBits (false :: l) = ofBits l := by
    have := ofBits_zeros_append 1 l
    simpa using this
  rw [this]
  have := ofBits_lt l
  simp at h1
  rwa [show l.length = t - 1 by omega] at this

/-- the value `r` computed by the program is the standard's -/
theorem derivedR_spec (junk : Byte) (b : Bits) (hb : Good b) (t : Nat) (ht : 1 ≤ t) (sd : Seed)
    (hs : mkSeed b t = some sd) : derivedR junk sd = some (ofBits (Spec.expandFp b.val t)) := by
  obtain ⟨w, w1, w2, w3, w4⟩ := expansion_fp junk b hb t ht sd hs
  obtain ⟨sd', h0, -, h2, -⟩ := mkSeed_spec b hb t
  rw [hs] at h0
  cases h0
  have hlen : w.bitlen = t := by rw [← val_length, w4, (expansion_size b.val t ht).1]
  unfold derivedR
  rw [w1, Option.bind_some, h2]
  obtain ⟨y, hy, h1⟩ := forN_inv (f := fun i (r : Nat) => (getBit w.bits i).map fun x =>
      r + x.toNat * 2 ^ (t - (i + 1))) (n := t) (a := 0)
    (P := fun k y => y = ofBits (w.val.take k) * 2 ^ (t - k))
    (by simp [ofBits]) (by
      intro k x hk hx
      have hlk : k < w.val.length := by rw [val_length, hlen]; exact hk
      rw [getBit_eq (wf_pos w2 (by omega))]
      refine ⟨_, rfl, ?_⟩
      rw [hx, List.take_add_one, List.getElem?_eq_getElem hlk, Option.toList_some, ofBits_snoc, val_getElem,
        show t - k = (t - (k + 1)) + 1 by omega, Nat.pow_succ, Nat.add_mul]
      have : (b2b (bitAt w.bits k)).toNat = (bitAt w.bits k).toNat := by
        cases bitAt w.bits k <;> rfl
      beta_reduce
      rw [this]
      ring)
  rw [hy, h1, List.take_of_length_le (by rw [val_length, hlen]), w4]
  simp

/-- C16: for a generated curve the standard's relation `r b² = a³` with the value derived from the seed holds modulo
the field prime, and `b` is reduced. -/
theorem relation (junk : Byte) (p : Nat) (P : FpOps) (hP : FpSpec p P) (draws : Nat → Nat) (fuel : Nat)
    (b : Bits) (hb : Good b) (t : Nat) (ht : 1 ≤ t) (sd : Seed) (hs : mkSeed b t = some sd) (r a : Nat) (bb : Int)
    (h : genEquationFp junk P draws fuel sd = some (some (r, a, bb))) :
    r = ofBits (Spec.expandFp b.val t) ∧ (r : Int) * bb ^ 2 ≡ (a : Int) ^ 3 [ZMOD p] ∧ 0 ≤ bb ∧ bb < p ∧
      ∃ k, a = draws k := by
  unfold genEquationFp at h
  rw [derivedR_spec junk b hb t ht sd hs, Option.bind_some] at h
  cases hi : P.invsafe (ofBits (Spec.expandFp b.val t) : Nat) with
  | none => rw [hi] at h; cases h
  | some rInv =>
    rw [hi, Option.bind_some] at h
    cases hl : loopN (tryA P draws rInv) fuel 0 with
    | none => rw [hl] at h; cases h
    | some o =>
      rw [hl, Option.map_some, Option.some.injEq] at h
      cases o with
      | none => cases h
      | some ab =>
        rw [Option.map_some, Option.some.injEq, Prod.mk.injEq, Prod.mk.injEq] at h
        obtain ⟨h1, h2, h3⟩ := h
        obtain ⟨k, tr, -, -, -, hd⟩ := loopN_done hl
        unfold tryA at hd
        by_cases hsq : P.issquare ((draws (tr k) : Int) ^ 3 * rInv) = true
        · simp only [hsq, if_true, Option.some.injEq, Step.done.injEq] at hd
          have hsq' := hP.sqrt _ hsq
          rw [← hd] at h2 h3
          simp only at h2 h3
          refine ⟨h1.symm, ?_, by rw [← h3]; exact hsq'.2.1, by rw [← h3]; exact hsq'.2.2, tr k, h2.symm⟩
          have hinv := hP.invsafe_some _ _ hi
          rw [← h1, ← h2, ← h3]
          calc ((ofBits (Spec.expandFp b.val t) : Nat) : Int) * P.sqrt ((draws (tr k) : Int) ^ 3 * rInv) ^ 2
              ≡ (ofBits (Spec.expandFp b.val t) : Nat) * ((draws (tr k) : Int) ^ 3 * rInv) [ZMOD p] :=
                Int.ModEq.mul_left _ hsq'.1
            _ = (draws (tr k) : Int) ^ 3 * ((ofBits (Spec.expandFp b.val t) : Nat) * rInv) := by ring
            _ ≡ (draws (tr k) : Int) ^ 3 * 1 [ZMOD p] := Int.ModEq.mul_left _ hinv
            _ = (draws (tr k) : Int) ^ 3 := by ring
        · simp only [hsq] at hd
          cases hd

/-- The program fails (null pointer) if and only if the expansion has no inverse in the field. -/
theorem crash_iff_dvd (junk : Byte) (p : Nat) (P : FpOps) (hP : FpSpec p P) (draws : Nat → Nat) (fuel : Nat)
    (b : Bits) (hb : Good b) (t : Nat) (ht : 1 ≤ t) (sd : Seed) (hs : mkSeed b t = some sd) :
    genEquationFp junk P draws fuel sd = none ↔ p ∣ ofBits (Spec.expandFp b.val t) := by
  unfold genEquationFp
  rw [derivedR_spec junk b hb t ht sd hs, Option.bind_some]
  have hloop : ∀ rInv, ∃ o, loopN (tryA P draws rInv) fuel 0 = some o := by
    intro rInv
    rcases loopN_safe (f := tryA P draws rInv) (fun _ => True) (fun _ => True) (by
      intro s _
      unfold tryA
      simp only
      split
      · exact Or.inr ⟨_, rfl, trivial⟩
      · exact Or.inl ⟨_, rfl, trivial⟩) fuel 0 trivial with h | ⟨a, h, -⟩
    · exact ⟨_, h⟩
    · exact ⟨_, h⟩
  constructor
  · intro h
    cases hi : P.invsafe (ofBits (Spec.expandFp b.val t) : Nat) with
    | none =>
      rw [hP.invsafe_none] at hi
      exact Int.natCast_dvd_natCast.1 hi
    | some rInv =>
      rw [hi, Option.bind_some] at h
      obtain ⟨o, ho⟩ := hloop rInv
      rw [ho] at h
      cases h
  · intro h
    have : P.invsafe (ofBits (Spec.expandFp b.val t) : Nat) = none := by
      rw [hP.invsafe_none]; exact Int.natCast_dvd_natCast.2 h
    rw [this]
    rfl

/-- For a field prime of `t` bits the program fails (null pointer) only if the expansion is zero: then and only
then `r` has no inverse. -/
theorem crash_iff (junk : Byte) (p : Nat) (P : FpOps) (hP : FpSpec p P) (draws : Nat → Nat) (fuel : Nat)
    (b : Bits) (hb : Good b) (t : Nat) (ht : 1 ≤ t) (hp : 2 ^ (t - 1) ≤ p) (sd : Seed) (hs : mkSeed b t = some sd) :
    genEquationFp junk P draws fuel sd = none ↔ ofBits (Spec.expandFp b.val t) = 0 := by
  have hlt := (expansion_size b.val t ht).2.2
  rw [crash_iff_dvd junk p P hP draws fuel b hb t ht sd hs]
  refine ⟨fun h => ?_, fun h => by rw [h]; exact Nat.dvd_zero p⟩
  rcases Nat.eq_zero_or_pos (ofBits (Spec.expandFp b.val t)) with h0 | h0
  · exact h0
  · have := Nat.le_of_dvd h0 h; omega

/-- C17, binary fields: the printed `b` has the expansion as binary digits; a zero expansion is rejected. -/
theorem equation_f2m (junk : Byte) (a : Nat) (b : Bits) (hb : Good b) (t : Nat) (ht : 1 ≤ t) (sd : Seed)
    (hs : mkSeed b t = some sd) :
    genEquationF2m junk a sd = some (if ofBits (Spec.expandF2m b.val t) = 0 then .error ()
      else .ok (a, (ofBits (Spec.expandF2m b.val t) : Int))) := by
  obtain ⟨r, r1, r2, r3, r4⟩ := expansion_f2m junk b hb t ht sd hs
  unfold genEquationF2m
  cases hf : firstPart sd with
  | none => rw [hf] at r1; cases r1
  | some f =>
    rw [hf, Option.bind_some] at r1
    rw [Option.bind_some, r1, Option.bind_some, toI_spec r r2, r3, r4]
    simp

/-- Seeds given in hex (any accepted length) and random seeds are good; the hypotheses above are met. -/
theorem seeds_good (s : List Char) (hs : s.length < 2 ^ 28) (x : Nat) (hx : x ≤ 2 ^ 160) :
    (∃ b, fromHex s = some b ∧ Good b) ∧ (∃ b, fromI x = some b ∧ Good b) := by
  constructor
  · obtain ⟨r, h, h1, h2, h3, h4⟩ := fromHex_spec s
    obtain ⟨r', h', -, h5, -⟩ := fromHex_bits s
    rw [h] at h'
    cases h'
    exact ⟨r, h, h1, h2, h3, by omega⟩
  · obtain ⟨r, h, h1, h2, h3, h4⟩ := fromI_spec (x : Int)
    refine ⟨r, h, h1, h2, by rw [h3]; simp, ?_⟩
    have hx' : x < 2 ^ 161 := by
      calc x ≤ 2 ^ 160 := hx
        _ < 2 ^ 161 := by decide
    rw [← val_length, h4]
    have := (binaryZv_length_le ((x : Int).natAbs) 161).2 (by simpa using hx')
    omega

/-- A random seed has 160 bits except for the single value `2^160`, which gives 161 bits. -/
theorem random_seed_length (x : Nat) (h1 : 2 ^ 159 ≤ x) (h2 : x ≤ 2 ^ 160) :
    ∃ b, fromI x = some b ∧ (b.bitlen = 160 ∨ (x = 2 ^ 160 ∧ b.bitlen = 161)) := by
  obtain ⟨r, h, -, -, -, h4⟩ := fromI_spec (x : Int)
  refine ⟨r, h, ?_⟩
  have e : (x : Int).natAbs = x := by simp
  rw [e] at h4
  have hl : r.bitlen = (binaryZv x).length := by rw [← val_length, h4]
  have g159 : ¬ (binaryZv x).length ≤ 159 := by
    rw [binaryZv_length_le]; exact Nat.not_lt.2 h1
  have g161 : (binaryZv x).length ≤ 161 := by
    rw [binaryZv_length_le]
    calc x ≤ 2 ^ 160 := h2
      _ < 2 ^ 161 := by decide
  have g160 := binaryZv_length_le x 160
  by_cases hx : x < 2 ^ 160
  · have := g160.2 hx; left; omega
  · have := fun h => hx (g160.1 h)
    right; exact ⟨Nat.le_antisymm h2 (Nat.not_lt.1 hx), by omega⟩

-- a 160-bit seed, as in the standard's examples, meets the hypotheses for a field of 192 bits
example : ∃ b sd, fromHex "3045AE6FC8422F64ED579528D38120EAE12196D5".toList = some b ∧ Good b ∧
    mkSeed b 192 = some sd ∧ sd.s = 1 ∧ sd.h = 32 := by
  obtain ⟨⟨b, hb, hg⟩, -⟩ := seeds_good "3045AE6FC8422F64ED579528D38120EAE12196D5".toList (by decide) 0 (by decide)
  obtain ⟨sd, h0, -, -, h3, h4, -⟩ := mkSeed_spec b hg 192
  exact ⟨b, sd, hb, hg, h0, h3, h4⟩

end Ecgen.Ansi
