import Verif.Bits.Safe

/-!
# Properties of bit strings (C06–C13)
-/

namespace Ecgen.Bits

/-! ## C06 integers -/

/-- C06: the bit string of an integer denotes its absolute value, carries its sign and has no leading
zero. -/
theorem fromI_value (i : Int) :
    ∃ r, fromI i = some r ∧ r.WF ∧ ofBits r.val = i.natAbs ∧ r.sign = decide (i < 0) ∧
      (i ≠ 0 → r.val.head? = some true) ∧ (i = 0 → r.bitlen = 0) := by
  obtain ⟨r, h, h1, _, h3, h4⟩ := fromI_spec i
  refine ⟨r, h, h1, by rw [h4, ofBits_binaryZv], h3, ?_, ?_⟩
  · intro hi
    have hn : i.natAbs ≠ 0 := by omega
    have hh := binaryZv_head hn
    have hv := ofBits_binaryZv i.natAbs
    rw [h4]
    cases hb : binaryZv i.natAbs with
    | nil => rw [hb] at hv; simp [ofBits] at hv; omega
    | cons x l =>
      rw [hb] at hv hh
      cases x with
      | true => rfl
      | false =>
        have e : ofBits (false :: l) = ofBits l := ofBits_zeros_append 1 l
        have := ofBits_lt l
        rw [e] at hv
        simp only [List.length_cons, Nat.add_sub_cancel] at hh
        omega
  · intro hi
    subst hi
    have := congrArg List.length h4
    rw [val_length] at this
    rw [this]
    show (binaryZv 0).length = 0
    rw [binaryZv_zero]; rfl

/-- C06: the integer of a bit string. -/
theorem toI_value (b : Bits) (h : b.WF) :
    toI b = some (if b.sign then - (ofBits b.val : Int) else (ofBits b.val : Int)) := toI_spec b h

/-- C06: integer → bit string → integer is the identity, for integers of any sign. -/
theorem fromI_toI (i : Int) : (fromI i).bind toI = some i := by
  obtain ⟨r, h, h1, h2, h3, _⟩ := fromI_value i
  rw [h, Option.bind_some, toI_spec r h1, h2, h3]
  by_cases hi : i < 0
  · simp [hi]; omega
  · simp [hi]; omega

/-- C06: conversion to a given length keeps the value when it fits and pads on the left. -/
theorem fromILen_fits (i : Int) (L : Nat) (h : i.natAbs < 2 ^ L) :
    ∃ r, fromILen i L = some r ∧ r.WF ∧ r.bitlen = L ∧ ofBits r.val = i.natAbs ∧
      r.sign = decide (i < 0) := by
  obtain ⟨r, hr, h1, _, h3, h4⟩ := fromILen_spec i L
  have hl := (binaryZv_length_le i.natAbs L).2 h
  refine ⟨r, hr, h1, ?_, ?_, h3⟩
  · have := congrArg List.length h4
    simp at this
    omega
  · rw [h4, ofBits_zeros_append, List.take_of_length_le hl, ofBits_binaryZv]

/-- C06: conversion to a length that is too short keeps the most significant bits. -/
theorem fromILen_truncates (i : Int) (L k : Nat) (h1 : 2 ^ (L + k) ≤ 2 * i.natAbs)
    (h2 : i.natAbs < 2 ^ (L + k)) :
    ∃ r, fromILen i L = some r ∧ r.WF ∧ r.bitlen = L ∧ ofBits r.val = i.natAbs / 2 ^ k := by
  obtain ⟨r, hr, hw, _, _, h4⟩ := fromILen_spec i L
  have hle := (binaryZv_length_le i.natAbs (L + k)).2 h2
  have hlen : (binaryZv i.natAbs).length = L + k := by
    by_cases h0 : L + k = 0
    · omega
    · have := not_congr (binaryZv_length_le i.natAbs (L + k - 1))
      have e : 2 ^ (L + k) = 2 * 2 ^ (L + k - 1) := by
        rw [← Nat.pow_succ']; congr 1; omega
      have := this.2 (by omega)
      omega
  refine ⟨r, hr, hw, ?_, ?_⟩
  · have := congrArg List.length h4
    simp at this
    omega
  · have hs := List.take_append_drop L (binaryZv i.natAbs)
    have hv := ofBits_binaryZv i.natAbs
    rw [← hs, ofBits_append] at hv
    have hd : ((binaryZv i.natAbs).drop L).length = k := by simp; omega
    have hlt := ofBits_lt ((binaryZv i.natAbs).drop L)
    rw [hd] at hv hlt
    rw [h4, hlen]
    have : L - (L + k) = 0 := by omega
    rw [this, List.replicate_zero, List.nil_append]
    generalize ofBits ((binaryZv i.natAbs).take L) = A at hv ⊢
    rw [← hv, Nat.add_comm,
      Nat.add_mul_div_right _ _ (Nat.two_pow_pos k), Nat.div_eq_of_lt hlt, Nat.zero_add]

/-- C06: bit string → integer → bit string of the same length is the identity on the bits. -/
theorem toI_fromILen (b : Bits) (h : b.WF) :
    ∃ r, (toI b).bind (fun i => fromILen i b.bitlen) = some r ∧ r.val = b.val := by
  rw [toI_spec b h, Option.bind_some]
  generalize hi : (if b.sign then - (ofBits b.val : Int) else (ofBits b.val : Int)) = i
  have hn : i.natAbs = ofBits b.val := by
    rw [← hi]; split <;> omega
  have hlt : i.natAbs < 2 ^ b.bitlen := by
    rw [hn]; have := ofBits_lt b.val; rwa [val_length] at this
  obtain ⟨r, hr, _, h2, h3, _⟩ := fromILen_fits i b.bitlen hlt
  exact ⟨r, hr, ofBits_inj (by simp [h2]) (by rw [h3, hn])⟩

example : (fromI (-300)).bind toI = some (-300) := fromI_toI _
example : (fromILen 5 8).map Bits.val =
    some [false, false, false, false, false, true, false, true] := by decide +kernel
example : (fromILen 0xabc 8).map (ofBits ·.val) = some 0xab := by decide +kernel

/-! ## C07 text and raw bytes -/

/-- C07: reading hex. Each digit contributes its four bits; other characters count as 0. -/
theorem fromHex_bits (s : List Char) :
    ∃ r, fromHex s = some r ∧ r.WF ∧ r.bitlen = 4 * s.length ∧ r.sign = false ∧
      r.val = s.flatMap (fun c => digitBits ((hexVal c).getD 0)) := by
  obtain ⟨r, h, h1, _, h3, h4⟩ := fromHex_spec s
  refine ⟨r, h, h1, ?_, h3, h4⟩
  have := congrArg List.length h4
  rw [val_length, length_flatMap4 _ (fun c => rfl)] at this
  omega

/-- C07: reading a string of hex digits yields the number it denotes. -/
theorem fromHex_value (s : List Char) (n : Nat) (hs : ofHex s = some n) :
    ∃ r, fromHex s = some r ∧ ofBits r.val = n := by
  obtain ⟨r, h, h1, h2, h3, h4⟩ := fromHex_bits s
  refine ⟨r, h, ?_⟩
  have hd : ∀ c ∈ s, (hexVal c).isSome := by
    clear h h1 h2 h3 h4 r
    induction s using List.reverseRecOn generalizing n with
    | nil => simp
    | append_singleton s c ih =>
      unfold ofHex at hs
      rw [List.foldl_append] at hs
      cases hf : s.foldl (fun n c => n.bind fun n => (hexVal c).map fun d => 16 * n + d) (some 0) with
      | none => rw [hf] at hs; simp at hs
      | some m =>
        rw [hf] at hs
        intro d hd
        rcases List.mem_append.1 hd with hd | hd
        · exact ih m hf d hd
        · simp only [List.mem_singleton] at hd
          subst hd
          simp only [List.foldl_cons, List.foldl_nil, Option.bind_some] at hs
          cases hx : hexVal d with
          | none => rw [hx] at hs; simp at hs
          | some _ => rfl
  have := ofHex_bits s hd
  rw [hs, Option.some.injEq] at this
  rw [h4, this]

/-- C07: printed hex has two digits per started byte and denotes the integer of the bit string, for
every bit length and every padding content. -/
theorem toHex_value (b : Bits) (h : b.WF) :
    ∃ s, toHex b = some ((if b.sign then ['-'] else []) ++ s) ∧ s.length = 2 * ((b.bitlen + 7) / 8) ∧
      ofHex s = some (ofBits b.val) := by
  obtain ⟨s, h1, h2, _, h4⟩ := toHex_spec b h
  exact ⟨s, h1, by rw [h2, byteLen_eq], h4⟩

/-- C07: hex text of whole bytes reads back. -/
theorem toHex_fromHex (b : Bits) (h : b.WF) (hs : b.sign = false) (h8 : b.bitlen % 8 = 0) :
    ∃ r, (toHex b).bind fromHex = some r ∧ r.val = b.val := by
  obtain ⟨s, h1, h2, h4⟩ := toHex_value b h
  rw [h1, hs]
  simp only [Bool.false_eq_true, if_false, List.nil_append, Option.bind_some]
  obtain ⟨r, hr, hv⟩ := fromHex_value s _ h4
  obtain ⟨r', hr', _, hl, _, _⟩ := fromHex_bits s
  rw [hr] at hr'
  cases hr'
  exact ⟨r, hr, ofBits_inj (by simp; omega) hv⟩

/-- C07: binary text. -/
theorem toBin_text (b : Bits) (h : b.WF) :
    toBin b = some ((if b.sign then ['-'] else []) ++ b.val.map fun x => if x then '1' else '0') :=
  toBin_spec b h

theorem fromBin_text (s : List Char) :
    ∃ r, fromBin s = some r ∧ r.WF ∧ r.sign = false ∧ r.val = s.map (· == '1') := by
  obtain ⟨r, h, h1, _, h3, h4⟩ := fromBin_spec s
  exact ⟨r, h, h1, h3, h4⟩

/-- C07: binary text reads back. -/
theorem toBin_fromBin (b : Bits) (h : b.WF) (hs : b.sign = false) :
    ∃ r, (toBin b).bind fromBin = some r ∧ r.val = b.val := by
  rw [toBin_spec b h, hs]
  simp only [Bool.false_eq_true, if_false, List.nil_append, Option.bind_some]
  obtain ⟨r, hr, _, _, h4⟩ := fromBin_text (b.val.map fun x => if x then '1' else '0')
  refine ⟨r, hr, ?_⟩
  rw [h4, List.map_map]
  have : ((fun x : Char => x == '1') ∘ fun x : Bool => if x then '1' else '0') = id := by
    funext x; cases x <;> rfl
  rw [this, List.map_id]

/-- C07: raw bytes. Reading announces `L` bits of a block that has at least the needed bytes. -/
theorem fromRaw_bits (raw : List Byte) (L : Nat) (h : (L + 7) / 8 ≤ raw.length) :
    ∃ r, fromRaw raw L = some r ∧ r.WF ∧ r.sign = false ∧
      r.val = (List.range L).map (bitAt raw) := by
  obtain ⟨r, h1, h2, h3, h4, h5⟩ := fromRaw_spec raw L (by rw [byteLen_eq]; exact h)
  refine ⟨r, h1, h2, h3, ?_⟩
  unfold Bits.val
  rw [h4]
  apply List.map_congr_left
  intro q hq
  exact h5 q (by simpa using hq)

/-- C07: raw bytes read back. -/
theorem toRaw_fromRaw (b : Bits) (h : b.WF) (h0 : b.bitlen ≠ 0) :
    ∃ raw r, toRaw b = some (some raw) ∧ raw.length = (b.bitlen + 7) / 8 ∧
      fromRaw raw b.bitlen = some r ∧ r.val = b.val := by
  have hl : (b.bitlen + 7) / 8 ≤ b.bits.length := by
    have := h.1; have h2 := h.2; rw [byteLen_eq] at h2; omega
  have hlen : (b.bits.take (byteLen b.bitlen)).length = (b.bitlen + 7) / 8 := by
    rw [List.length_take, byteLen_eq]; omega
  obtain ⟨r, h1, _, _, h4⟩ := fromRaw_bits (b.bits.take (byteLen b.bitlen)) b.bitlen (by omega)
  refine ⟨_, r, toRaw_spec b h h0, hlen, h1, ?_⟩
  rw [h4]
  apply List.map_congr_left
  intro q hq
  have hq : q < b.bitlen := by simpa using hq
  apply bitAt_congr
  rw [List.getD_eq_getElem?_getD, List.getD_eq_getElem?_getD, List.getElem?_take,
    if_pos (by rw [byteLen_eq]; omega)]

/-- C07: 0/1 vectors. -/
theorem toBitvec_value (b : Bits) (h : b.WF) : toBitvec b = some b.val := toBitvec_spec b h

theorem fromBitvec_value (v : List Bool) :
    ∃ r, fromBitvec v = some r ∧ r.WF ∧ r.sign = false ∧ r.val = v := by
  obtain ⟨r, h, h1, _, h3, h4⟩ := fromBitvec_spec v
  exact ⟨r, h, h1, h3, h4⟩

example : ((fromHex "5fA".toList).bind toHex).map String.ofList = some "05fa" := by decide +kernel
example : ((fromBin "101".toList).bind toHex).map String.ofList = some "05" := by decide +kernel

/-! ## C08 editing -/

/-- C08: concatenation. -/
theorem concat_val (junk : Byte) (a : Bits) (rest : List Bits) (ha : a.WF) (hr : ∀ b ∈ rest, b.WF) :
    ∃ r, concat junk a rest = some r ∧ r.WF ∧ r.sign = a.sign ∧
      r.val = a.val ++ (rest.map Bits.val).flatten := by
  obtain ⟨c, hc, c1, _, c2, _, _, c3⟩ := copy_spec a ha
  obtain ⟨r, h, h1, _, h3, h4⟩ := concatz_spec junk rest c c1 hr
  exact ⟨r, by simp [concat, hc, h], h1, by rw [h3, c2], by rw [h4, c3]⟩

theorem concatz_val (junk : Byte) (a : Bits) (rest : List Bits) (ha : a.WF) (hr : ∀ b ∈ rest, b.WF) :
    ∃ r, concatz junk a rest = some r ∧ r.WF ∧ r.sign = a.sign ∧
      r.val = a.val ++ (rest.map Bits.val).flatten := by
  obtain ⟨r, h, h1, _, h3, h4⟩ := concatz_spec junk rest a ha hr
  exact ⟨r, h, h1, h3, h4⟩

theorem shiftList_left (l : List Bool) (n : Nat) :
    shiftList l n = l.drop n ++ List.replicate (min n l.length) false := by
  apply List.ext_getElem
  · simp [shiftList]; omega
  · intro i h1 h2
    simp [shiftList] at h1
    simp only [shiftList, List.getElem_map, List.getElem_range]
    rw [if_pos (by omega)]
    have e : ((i : Int) + (n : Int)).toNat = i + n := by omega
    rw [e]
    by_cases hi : i < l.length - n
    · rw [List.getElem_append_left (by simpa using hi), List.getElem_drop,
        List.getD_eq_getElem?_getD, List.getElem?_eq_getElem (by omega)]
      simp [Nat.add_comm]
    · rw [List.getElem_append_right (by simpa using hi), List.getD_eq_getElem?_getD,
        List.getElem?_eq_none (by omega)]
      simp

theorem shiftList_right (l : List Bool) (n : Nat) :
    shiftList l (-(n : Int)) = List.replicate (min n l.length) false ++ l.take (l.length - n) := by
  apply List.ext_getElem
  · simp [shiftList]; omega
  · intro i h1 h2
    simp [shiftList] at h1
    simp only [shiftList, List.getElem_map, List.getElem_range]
    by_cases hi : i < n
    · rw [if_neg (by omega), List.getElem_append_left (by simp; omega)]; simp
    · rw [if_pos (by omega), List.getElem_append_right (by simp; omega), List.getElem_take]
      have e : ((i : Int) + -(n : Int)).toNat = i - n := by omega
      rw [e, List.getD_eq_getElem?_getD, List.getElem?_eq_getElem (by omega)]
      simp only [Option.getD_some, List.length_replicate]
      congr 1; omega

/-- C08: logical shift to the left; the length is kept, zeros enter from the right. -/
theorem shift_left (b : Bits) (h : b.WF) (n : Nat) :
    ∃ r, shiftz b n = some r ∧ r.WF ∧ r.sign = b.sign ∧
      r.val = b.val.drop n ++ List.replicate (min n b.bitlen) false := by
  obtain ⟨r, hr, r1, _, _, r2, _, r3⟩ := shiftz_spec b h n
  exact ⟨r, hr, r1, r2, by rw [r3, shiftList_left, val_length]⟩

/-- C08: logical shift to the right. -/
theorem shift_right (b : Bits) (h : b.WF) (n : Nat) :
    ∃ r, shiftz b (-(n : Int)) = some r ∧ r.WF ∧ r.sign = b.sign ∧
      r.val = List.replicate (min n b.bitlen) false ++ b.val.take (b.bitlen - n) := by
  obtain ⟨r, hr, r1, _, _, r2, _, r3⟩ := shiftz_spec b h (-(n : Int))
  exact ⟨r, hr, r1, r2, by rw [r3, shiftList_right, val_length]⟩

/-- C08: lengthening on the left (positive amount) or on the right (negative amount) by zeros. -/
theorem lengthen_val (junk : Byte) (b : Bits) (h : b.WF) (hc : b.Clean) (amount : Int) :
    ∃ r, lengthenz junk b amount = some r ∧ r.WF ∧ r.Clean ∧ r.sign = b.sign ∧
      r.val = if 0 ≤ amount then List.replicate amount.toNat false ++ b.val
        else b.val ++ List.replicate (-amount).toNat false :=
  lengthenz_spec junk b h hc amount

/-- C08: shortening from the left (positive amount) or from the right (negative amount). -/
theorem shorten_val (b : Bits) (h : b.WF) (hlen : b.bitlen < 2 ^ 64) (amount : Int)
    (hr : amount.natAbs ≤ b.bitlen) :
    ∃ r, shortenz b amount = some r ∧ r.WF ∧ r.sign = b.sign ∧
      r.val = if 0 ≤ amount then b.val.drop amount.toNat
        else b.val.take (b.bitlen - (-amount).toNat) := by
  obtain ⟨r, h1, h2, _, h4, h5⟩ := shortenz_spec b h hlen amount hr
  exact ⟨r, h1, h2, h4, h5⟩

/-- C08: the integer shift multiplies by a power of two or drops low bits. -/
theorem shifti_value (junk : Byte) (b : Bits) (h : b.WF) (hc : b.Clean) (hlen : b.bitlen < 2 ^ 64)
    (amount : Int) (hr : amount < 0 → amount.natAbs ≤ b.bitlen) :
    ∃ r, shiftiz junk b amount = some r ∧ r.WF ∧
      ofBits r.val = if 0 ≤ amount then ofBits b.val * 2 ^ amount.toNat
        else ofBits b.val / 2 ^ (-amount).toNat := by
  unfold shiftiz
  by_cases h1 : amount > 0
  · rw [if_pos h1]
    obtain ⟨r, e, e1, _, _, e3⟩ := lengthenz_spec junk b h hc (-amount)
    refine ⟨r, e, e1, ?_⟩
    rw [e3, if_neg (by omega), if_pos (by omega), ofBits_append, ofBits_replicate_false]
    simp
  · rw [if_neg h1]
    by_cases h2 : amount < 0
    · rw [if_pos h2]
      obtain ⟨r, e, e1, _, e3⟩ := shorten_val b h hlen amount (hr h2)
      refine ⟨r, e, e1, ?_⟩
      rw [e3, if_neg (by omega), if_neg (by omega)]
      generalize hm : (-amount).toNat = m
      have hmb : m ≤ b.bitlen := by have := hr h2; omega
      have hs := List.take_append_drop (b.bitlen - m) b.val
      have hd : (b.val.drop (b.bitlen - m)).length = m := by simp; omega
      have hlt := ofBits_lt (b.val.drop (b.bitlen - m))
      have hv : ofBits b.val = ofBits (b.val.take (b.bitlen - m)) * 2 ^ m +
          ofBits (b.val.drop (b.bitlen - m)) := by
        have := ofBits_append (b.val.take (b.bitlen - m)) (b.val.drop (b.bitlen - m))
        rw [hs, hd] at this
        exact this
      rw [hd] at hlt
      rw [hv, Nat.add_comm, Nat.add_mul_div_right _ _ (Nat.two_pow_pos m), Nat.div_eq_of_lt hlt,
        Nat.zero_add]
    · rw [if_neg h2]
      have : amount = 0 := by omega
      subst this
      exact ⟨b, rfl, h, by simp⟩

/-- C08: complement. -/
theorem not_val (b : Bits) (h : b.WF) :
    ∃ r, notz b = some r ∧ r.WF ∧ r.sign = b.sign ∧ r.val = b.val.map (!·) := by
  obtain ⟨r, h1, h2, _, h4, h5⟩ := notz_spec b h
  exact ⟨r, h1, h2, h4, h5⟩

/-- C08: complement is an involution. -/
theorem not_not (b : Bits) (h : b.WF) :
    ∃ r, (notz b).bind notz = some r ∧ r.sign = b.sign ∧ r.val = b.val := by
  obtain ⟨r, h1, h2, h3, h4⟩ := not_val b h
  obtain ⟨q, q1, _, q3, q4⟩ := not_val r h2
  refine ⟨q, by rw [h1, Option.bind_some, q1], by rw [q3, h3], ?_⟩
  rw [q4, h4, List.map_map]
  have : ((fun x => !x) ∘ fun x : Bool => !x) = id := by funext x; simp
  rw [this, List.map_id]

/-- C08: the function called `bits_rot` reverses the bit sequence. -/
theorem rot_val (b : Bits) (h : b.WF) :
    ∃ r, rotz b = some r ∧ r.WF ∧ r.sign = b.sign ∧ r.val = b.val.reverse := by
  obtain ⟨r, h1, h2, _, h4, h5⟩ := rotz_spec b h
  exact ⟨r, h1, h2, h4, h5⟩

/-- C08: reversal is an involution. -/
theorem rot_rot (b : Bits) (h : b.WF) :
    ∃ r, (rotz b).bind rotz = some r ∧ r.sign = b.sign ∧ r.val = b.val := by
  obtain ⟨r, h1, h2, h3, h4⟩ := rot_val b h
  obtain ⟨q, q1, _, q3, q4⟩ := rot_val r h2
  exact ⟨q, by rw [h1, Option.bind_some, q1], by rw [q3, h3], by rw [q4, h4, List.reverse_reverse]⟩

/-- C08: the copying variants agree with the in-place ones. -/
theorem copying_variants_agree (junk : Byte) (b : Bits) (h : b.WF) (hc : b.Clean)
    (hlen : b.bitlen < 2 ^ 64) (a : Int) (rest : List Bits) (hrest : ∀ x ∈ rest, x.WF) :
    (∃ r q, notz b = some r ∧ not b = some q ∧ r.sign = q.sign ∧ r.val = q.val) ∧
    (∃ r q, rotz b = some r ∧ rot b = some q ∧ r.sign = q.sign ∧ r.val = q.val) ∧
    (∃ r q, shiftz b a = some r ∧ shift b a = some q ∧ r.sign = q.sign ∧ r.val = q.val) ∧
    (∃ r q, shiftrz b a = some r ∧ shiftr b a = some q ∧ r.sign = q.sign ∧ r.val = q.val) ∧
    (∃ r q, concatz junk b rest = some r ∧ concat junk b rest = some q ∧ r.sign = q.sign ∧
      r.val = q.val) ∧
    (∃ r q, lengthenz junk b a = some r ∧ lengthen junk b a = some q ∧ r.sign = q.sign ∧
      r.val = q.val) ∧
    (a.natAbs ≤ b.bitlen →
      ∃ r q, shortenz b a = some r ∧ shorten b a = some q ∧ r.sign = q.sign ∧ r.val = q.val) ∧
    ((a < 0 → a.natAbs ≤ b.bitlen) →
      ∃ r q, shiftiz junk b a = some r ∧ shifti junk b a = some q ∧ r.sign = q.sign ∧
        r.val = q.val) := by
  obtain ⟨c, e, c1, c2, c3, c4, _, c5⟩ := copy_spec b h
  have len : ∀ (junk : Byte) (a : Int), ∃ r q, lengthenz junk b a = some r ∧
      lengthenz junk c a = some q ∧ r.sign = q.sign ∧ r.val = q.val := by
    intro junk a
    obtain ⟨r, r0, _, _, r3, r4⟩ := lengthenz_spec junk b h hc a
    obtain ⟨q, q0, _, _, q3, q4⟩ := lengthenz_spec junk c c1 (c2 hc) a
    exact ⟨r, q, r0, q0, by rw [r3, q3, c3], by rw [r4, q4, c5]⟩
  have sho : ∀ a : Int, a.natAbs ≤ b.bitlen → ∃ r q, shortenz b a = some r ∧
      shortenz c a = some q ∧ r.sign = q.sign ∧ r.val = q.val := by
    intro a ha
    obtain ⟨r, r0, _, r3, r4⟩ := shorten_val b h hlen a ha
    obtain ⟨q, q0, _, q3, q4⟩ := shorten_val c c1 (by omega) a (by omega)
    exact ⟨r, q, r0, q0, by rw [r3, q3, c3], by rw [r4, q4, c5, c4]⟩
  refine ⟨?_, ?_, ?_, ?_, ?_, ?_, ?_, ?_⟩
  · obtain ⟨r, r0, _, r3, r4⟩ := not_val b h
    obtain ⟨q, q0, _, q3, q4⟩ := not_val c c1
    exact ⟨r, q, r0, by rw [not, e, Option.bind_some, q0], by rw [r3, q3, c3], by rw [r4, q4, c5]⟩
  · obtain ⟨r, r0, _, r3, r4⟩ := rot_val b h
    obtain ⟨q, q0, _, q3, q4⟩ := rot_val c c1
    exact ⟨r, q, r0, by rw [rot, e, Option.bind_some, q0], by rw [r3, q3, c3], by rw [r4, q4, c5]⟩
  · obtain ⟨r, r0, _, _, _, r3, _, r4⟩ := shiftz_spec b h a
    obtain ⟨q, q0, _, _, _, q3, _, q4⟩ := shiftz_spec c c1 a
    exact ⟨r, q, r0, by rw [shift, e, Option.bind_some, q0], by rw [r3, q3, c3],
      by rw [r4, q4, c5]⟩
  · by_cases ha : a = 0
    · subst ha
      exact ⟨b, c, rfl, by rw [shiftr, e]; rfl, c3.symm, c5.symm⟩
    · obtain ⟨r, r0, _, _, r3, r4⟩ := shiftrz_gen b h a ha
      obtain ⟨q, q0, _, _, q3, q4⟩ := shiftrz_gen c c1 a ha
      exact ⟨r, q, r0, by rw [shiftr, e, Option.bind_some, q0], by rw [r3, q3, c3],
        by rw [r4, q4, c5, c4]⟩
  · obtain ⟨r, r0, _, r3, r4⟩ := concatz_val junk b rest h hrest
    obtain ⟨q, q0, _, q3, q4⟩ := concat_val junk b rest h hrest
    exact ⟨r, q, r0, q0, by rw [r3, q3], by rw [r4, q4]⟩
  · obtain ⟨r, q, r0, q0, h1, h2⟩ := len junk a
    exact ⟨r, q, r0, by rw [lengthen, e, Option.bind_some, q0], h1, h2⟩
  · intro ha
    obtain ⟨r, q, r0, q0, h1, h2⟩ := sho a ha
    exact ⟨r, q, r0, by rw [shorten, e, Option.bind_some, q0], h1, h2⟩
  · intro ha
    rw [shifti, e, Option.bind_some]
    unfold shiftiz
    by_cases h1 : a > 0
    · simp only [if_pos h1]; exact len junk (-a)
    · simp only [if_neg h1]
      by_cases h2 : a < 0
      · simp only [if_pos h2]; exact sho a (ha h2)
      · simp only [if_neg h2]; exact ⟨b, c, rfl, rfl, c3.symm, c5.symm⟩

example : (fromBin "10110".toList).bind (fun b => (notz b).bind toBin) =
    some "01001".toList := by decide +kernel
example : (fromBin "1011010111".toList).bind (fun b => (shortenz b 3).bind toBin) =
    some "1010111".toList := by decide +kernel
example : (fromBin "1011010111".toList).bind (fun b => (lengthenz 0xaa b 3).bind toBin) =
    some "0001011010111".toList := by decide +kernel

/-! ## C09 bitwise or / and -/

theorem testBit_ofBits (l : List Bool) (i : Nat) : (ofBits l).testBit i = fromRight l i := by
  induction l using List.reverseRecOn generalizing i with
  | nil => simp [ofBits, fromRight]
  | append_singleton l b ih =>
    rw [ofBits_snoc]
    unfold fromRight
    rw [List.reverse_append]
    cases i with
    | zero => cases b <;> simp [Nat.testBit_zero]
    | succ i =>
      rw [Nat.testBit_succ]
      have : (2 * ofBits l + b.toNat) / 2 = ofBits l := by cases b <;> (simp; try omega)
      rw [this, ih]
      simp [fromRight]

theorem fromRight_ge (l : List Bool) (i : Nat) (h : l.length ≤ i) : fromRight l i = false := by
  unfold fromRight
  rw [List.getD_eq_getElem?_getD, List.getElem?_eq_none (by simpa using h)]
  rfl

/-- C09: OR denotes the bitwise OR of the numbers and is as long as the longer operand. -/
theorem or_value (a b : Bits) (ha : a.WF) (hb : b.WF) :
    ∃ r, or a b = some r ∧ r.WF ∧ r.bitlen = max a.bitlen b.bitlen ∧
      ofBits r.val = ofBits a.val ||| ofBits b.val := by
  obtain ⟨r, h, h1, _, _, h4, h5⟩ := bitwise_spec (fun a b => a ||| b) (fun a b => a || b)
    b2b_or Bool.or_comm a b ha hb
  refine ⟨r, h, h1, h4, ?_⟩
  apply Nat.eq_of_testBit_eq
  intro i
  rw [Nat.testBit_or]
  simp only [testBit_ofBits]
  by_cases hi : i < r.bitlen
  · exact h5 i hi
  · rw [fromRight_ge _ _ (by simp; omega), fromRight_ge _ _ (by simp; omega),
      fromRight_ge _ _ (by simp; omega)]; rfl

/-- C09: AND denotes the bitwise AND of the numbers and is as long as the longer operand. -/
theorem and_value (a b : Bits) (ha : a.WF) (hb : b.WF) :
    ∃ r, and a b = some r ∧ r.WF ∧ r.bitlen = max a.bitlen b.bitlen ∧
      ofBits r.val = ofBits a.val &&& ofBits b.val := by
  obtain ⟨r, h, h1, _, _, h4, h5⟩ := bitwise_spec (fun a b => a &&& b) (fun a b => a && b)
    b2b_and Bool.and_comm a b ha hb
  refine ⟨r, h, h1, h4, ?_⟩
  apply Nat.eq_of_testBit_eq
  intro i
  rw [Nat.testBit_and]
  simp only [testBit_ofBits]
  by_cases hi : i < r.bitlen
  · exact h5 i hi
  · rw [fromRight_ge _ _ (by simp; omega), fromRight_ge _ _ (by simp; omega),
      fromRight_ge _ _ (by simp; omega)]; rfl

/-- C09: both operations are commutative in value. -/
theorem or_and_comm (a b : Bits) (ha : a.WF) (hb : b.WF) :
    (∃ r q, or a b = some r ∧ or b a = some q ∧ r.val = q.val) ∧
    (∃ r q, and a b = some r ∧ and b a = some q ∧ r.val = q.val) := by
  constructor
  · obtain ⟨r, r0, _, r2, r3⟩ := or_value a b ha hb
    obtain ⟨q, q0, _, q2, q3⟩ := or_value b a hb ha
    exact ⟨r, q, r0, q0, ofBits_inj (by simp; omega) (by rw [r3, q3, Nat.or_comm])⟩
  · obtain ⟨r, r0, _, r2, r3⟩ := and_value a b ha hb
    obtain ⟨q, q0, _, q2, q3⟩ := and_value b a hb ha
    exact ⟨r, q, r0, q0, ofBits_inj (by simp; omega) (by rw [r3, q3, Nat.and_comm])⟩

example : (fromBin "1100".toList).bind (fun a => (fromBin "01".toList).bind fun b =>
    (or a b).bind toBin) = some "1101".toList := by decide +kernel

/-! ## C10 rotation -/

/-- C10 (part): rotation by a non-negative amount is a rotation; rotation by a negative amount is one
if the length divides `2^64` or nothing wraps around. The full claim (every amount) is false, see
`rotation_false`. -/
theorem rotation_partial (b : Bits) (h : b.WF) (amount : Int)
    (hr : 0 ≤ amount ∨ (2 ^ 64 : Int) % b.bitlen = 0) :
    ∃ r, shiftrz b amount = some r ∧ r.WF ∧ r.sign = b.sign ∧ r.val = rotateList b.val amount := by
  by_cases ha : amount = 0
  · refine ⟨b, by simp [shiftrz, ha], h, rfl, ?_⟩
    subst ha
    apply List.ext_getElem
    · simp [rotateList]
    · intro i h1 h2
      simp only [rotateList, List.getElem_map, List.getElem_range, Int.add_zero]
      rw [Int.emod_eq_of_lt (by omega) (by omega), Int.toNat_natCast, List.getD_eq_getElem?_getD,
        List.getElem?_eq_getElem h1]
      rfl
  · obtain ⟨r, hr', r1, _, r3, r4⟩ := shiftrz_gen b h amount ha
    refine ⟨r, hr', r1, r3, ?_⟩
    rw [r4, rotateList, val_length]
    apply List.map_congr_left
    intro i hi
    have hi : i < b.bitlen := by simpa using hi
    congr 1
    by_cases hp : 0 < amount
    · exact rotPos_pos _ _ _ hp
    · exact rotPos_neg _ _ _ hi (by omega) (by omega)

/-- C10 is false: rotating the 3-bit string 100 by -1 gives 110 instead of 010. -/
theorem rotation_false :
    ¬ ∀ (b : Bits) (amount : Int), b.WF → 0 < b.bitlen →
      ∃ r, shiftrz b amount = some r ∧ r.val = rotateList b.val amount := by
  intro h
  obtain ⟨r, h1, h2⟩ := h ⟨[0x80], false, 3, 1⟩ (-1) ⟨by decide, by decide⟩ (by decide)
  have e : (shiftrz ⟨[0x80], false, 3, 1⟩ (-1)).map Bits.val = some [true, true, false] := by
    decide +kernel
  rw [h1, Option.map_some, h2] at e
  revert e
  decide +kernel

/-- C10 is false at the length of a SHA-1 digest, too: rotating by -1 and then by 1 does not return
the original string. -/
theorem rotation_inverse_false :
    ∃ b : Bits, b.WF ∧ b.bitlen = 160 ∧
      ((shiftrz b (-1)).bind fun r => shiftrz r 1).map Bits.val ≠ some b.val := by
  refine ⟨⟨List.replicate 19 0 ++ [1], false, 160, 20⟩, ⟨by decide, by decide⟩, rfl, ?_⟩
  decide +kernel

example : (fromBin "1101000".toList).bind (fun b => (shiftrz b 2).bind toBin) =
    some "0100011".toList := by decide +kernel

/-! ## C11 equality -/

/-- C11: equality compares exactly sign, length and bits; bytes and bits past the length are
irrelevant. -/
theorem eq_iff (a b : Bits) (ha : a.WF) (hb : b.WF) :
    ∃ v, eq a b = some v ∧ (v = true ↔ a.sign = b.sign ∧ a.bitlen = b.bitlen ∧ a.val = b.val) := by
  refine ⟨_, eq_spec a b ha hb, ?_⟩
  rw [decide_eq_true_iff]
  constructor
  · intro ⟨h1, h2⟩
    refine ⟨h1, ?_, h2⟩
    have := congrArg List.length h2
    simpa using this
  · intro ⟨h1, _, h2⟩
    exact ⟨h1, h2⟩

example : eq ⟨[0xa5, 0xff], false, 11, 2⟩ ⟨[0xa5, 0xe0, 0x12], false, 11, 2⟩ = some true := by
  decide +kernel
example : eq ⟨[0xa5, 0xff], false, 11, 2⟩ ⟨[0xa5, 0xc0, 0x12], false, 11, 2⟩ = some false := by
  decide +kernel

/-! ## C12 memory safety -/

/-- C12: every API call on well-formed strings within its documented range accesses only memory inside
the blocks and leaves all strings well-formed. -/
theorem cmd_safe (junk : Byte) (st : List Bits) (hst : ∀ b ∈ st, b.WF) (c : Cmd)
    (hc : c.InRange st) : ∃ st', c.exec junk st = some st' ∧ ∀ b ∈ st', b.WF := by
  have hslot : ∀ x, (slot st x).WF := by
    intro x
    unfold slot
    rw [List.getD_eq_getElem?_getD]
    cases hx : st[x]? with
    | none => exact new_wf 0
    | some b => exact hst b (List.mem_of_getElem? hx)
  have app : ∀ o : Option Bits, (∃ r, o = some r ∧ r.WF) →
      ∃ st', o.map (fun r => st ++ [r]) = some st' ∧ ∀ b ∈ st', b.WF := by
    rintro _ ⟨r, rfl, hr⟩
    refine ⟨_, rfl, ?_⟩
    intro b hb
    rcases List.mem_append.1 hb with hb | hb
    · exact hst b hb
    · rw [List.mem_singleton.1 hb]; exact hr
  have upd : ∀ (x : Nat) (o : Option Bits), (∃ r, o = some r ∧ r.WF) →
      ∃ st', o.map (fun r => st.set x r) = some st' ∧ ∀ b ∈ st', b.WF := by
    rintro x _ ⟨r, rfl, hr⟩
    refine ⟨_, rfl, ?_⟩
    intro b hb
    rcases List.mem_or_eq_of_mem_set hb with hb | hb
    · exact hst b hb
    · rw [hb]; exact hr
  have keep : ∀ {α : Type} (o : Option α), o.isSome →
      ∃ st', o.map (fun _ => st) = some st' ∧ ∀ b ∈ st', b.WF := by
    intro α o ho
    obtain ⟨v, rfl⟩ := Option.isSome_iff_exists.1 ho
    exact ⟨st, rfl, hst⟩
  have hmap : ∀ (ys : List Nat), ∀ b ∈ ys.map (slot st), b.WF := by
    intro ys b hb
    obtain ⟨y, _, rfl⟩ := List.mem_map.1 hb
    exact hslot y
  cases c with
  | new n => exact app (some (Bits.new n)) ⟨_, rfl, new_wf n⟩
  | newRand rnd n =>
    obtain ⟨r, h, h1, _⟩ := newRand_spec rnd n; exact app _ ⟨r, h, h1⟩
  | fromI i => obtain ⟨r, h, h1, _⟩ := fromI_spec i; exact app _ ⟨r, h, h1⟩
  | fromILen i n => obtain ⟨r, h, h1, _⟩ := fromILen_spec i n; exact app _ ⟨r, h, h1⟩
  | fromHex s => obtain ⟨r, h, h1, _⟩ := fromHex_spec s; exact app _ ⟨r, h, h1⟩
  | fromBin s => obtain ⟨r, h, h1, _⟩ := fromBin_spec s; exact app _ ⟨r, h, h1⟩
  | fromRaw raw n => obtain ⟨r, h, h1, _⟩ := fromRaw_spec raw n hc; exact app _ ⟨r, h, h1⟩
  | fromBitvec v => obtain ⟨r, h, h1, _⟩ := fromBitvec_spec v; exact app _ ⟨r, h, h1⟩
  | cpy d s => exact upd d _ (cpy_safe junk _ _ (hslot d) (hslot s))
  | copy x => obtain ⟨r, h, h1, _⟩ := copy_spec _ (hslot x); exact app _ ⟨r, h, h1⟩
  | or x y =>
    obtain ⟨r, h, h1, _⟩ := or_value _ _ (hslot x) (hslot y); exact app _ ⟨r, h, h1⟩
  | and x y =>
    obtain ⟨r, h, h1, _⟩ := and_value _ _ (hslot x) (hslot y); exact app _ ⟨r, h, h1⟩
  | concatz x ys =>
    obtain ⟨r, h, h1, _⟩ := concatz_val junk _ _ (hslot x) (hmap ys); exact upd x _ ⟨r, h, h1⟩
  | concat x ys =>
    obtain ⟨r, h, h1, _⟩ := concat_val junk _ _ (hslot x) (hmap ys); exact app _ ⟨r, h, h1⟩
  | notz x => obtain ⟨r, h, h1, _⟩ := not_val _ (hslot x); exact upd x _ ⟨r, h, h1⟩
  | not x =>
    exact app _ (copy_bind_safe _ (hslot x) fun c hc _ => by
      obtain ⟨r, h, h1, _⟩ := not_val c hc; exact ⟨r, h, h1⟩)
  | rotz x => obtain ⟨r, h, h1, _⟩ := rot_val _ (hslot x); exact upd x _ ⟨r, h, h1⟩
  | rot x =>
    exact app _ (copy_bind_safe _ (hslot x) fun c hc _ => by
      obtain ⟨r, h, h1, _⟩ := rot_val c hc; exact ⟨r, h, h1⟩)
  | shiftz x a =>
    obtain ⟨r, h, h1, _⟩ := shiftz_spec _ (hslot x) a; exact upd x _ ⟨r, h, h1⟩
  | shift x a =>
    exact app _ (copy_bind_safe _ (hslot x) fun c hc _ => by
      obtain ⟨r, h, h1, _⟩ := shiftz_spec c hc a; exact ⟨r, h, h1⟩)
  | shiftrz x a => exact upd x _ (shiftrz_safe _ (hslot x) a)
  | shiftr x a => exact app _ (copy_bind_safe _ (hslot x) fun c hc _ => shiftrz_safe c hc a)
  | shiftiz x a => exact upd x _ (shiftiz_safe junk _ (hslot x) a hc)
  | shifti x a =>
    exact app _ (copy_bind_safe _ (hslot x) fun c hcw hl =>
      shiftiz_safe junk c hcw a (by rw [hl]; exact hc))
  | lengthenz x a => exact upd x _ (lengthenz_safe junk _ (hslot x) a)
  | lengthen x a =>
    exact app _ (copy_bind_safe _ (hslot x) fun c hc _ => lengthenz_safe junk c hc a)
  | shortenz x a =>
    obtain ⟨r, h, h1, _⟩ := shorten_val _ (hslot x) hc.2 a hc.1; exact upd x _ ⟨r, h, h1⟩
  | shorten x a =>
    exact app _ (copy_bind_safe _ (hslot x) fun c hcw hl => by
      obtain ⟨r, h, h1, _⟩ := shorten_val c hcw (by rw [hl]; exact hc.2) a (by rw [hl]; exact hc.1)
      exact ⟨r, h, h1⟩)
  | toI x => exact keep _ (by rw [toI_spec _ (hslot x)]; rfl)
  | toHex x =>
    obtain ⟨s, h, _⟩ := toHex_spec _ (hslot x); exact keep _ (by rw [h]; rfl)
  | toBin x => exact keep _ (by rw [toBin_spec _ (hslot x)]; rfl)
  | toRaw x =>
    refine keep _ ?_
    by_cases h0 : (slot st x).bitlen = 0
    · simp [toRaw, h0]
    · rw [toRaw_spec _ (hslot x) h0]; rfl
  | toBitvec x => exact keep _ (by rw [toBitvec_spec _ (hslot x)]; rfl)
  | eq x y => exact keep _ (by rw [eq_spec _ _ (hslot x) (hslot y)]; rfl)
  | sha1 x =>
    refine keep _ ?_
    have h := hslot x
    rw [sha1Input, memdup_take _ _ (by have := h.1; have := h.2; omega)]; rfl

/-- C12: any program of API calls, each within its range when reached, runs without undefined
behaviour and keeps every live string well-formed. -/
theorem program_safe (junk : Byte) (cs : List Cmd) (st : List Bits) (hst : ∀ b ∈ st, b.WF)
    (hc : AllInRange junk cs st) : ∃ st', runCmds junk cs st = some st' ∧ ∀ b ∈ st', b.WF := by
  induction cs generalizing st with
  | nil => exact ⟨st, rfl, hst⟩
  | cons c cs ih =>
    obtain ⟨st1, h1, h2⟩ := cmd_safe junk st hst c hc.1
    obtain ⟨st2, h3, h4⟩ := ih st1 h2 (hc.2 st1 h1)
    exact ⟨st2, by rw [runCmds, h1, Option.bind_some, h3], h4⟩

/-- The range condition on shortening is needed: shortening a 3-bit string by 5 reads outside the
block afterwards. -/
theorem shorten_out_of_range :
    runCmds 0 [.fromBin "101".toList, .shortenz 0 5, .toBitvec 0] [] = none ∨
    ∃ st b, runCmds 0 [.fromBin "101".toList, .shortenz 0 5] [] = some st ∧ b ∈ st ∧ ¬ b.WF := by
  right
  refine ⟨[⟨[0], false, 2 ^ 64 - 2, 1⟩], ⟨[0], false, 2 ^ 64 - 2, 1⟩, by decide +kernel, by simp, ?_⟩
  intro h
  have := h.2
  revert this
  decide +kernel

example : ∃ st, runCmds 7 [.fromHex "abc".toList, .lengthenz 0 9, .notz 0, .concat 0 [0, 0],
    .shorten 1 (-13), .eq 1 2] [] = some st ∧ st.map Bits.bitlen = [21, 63, 50] := by
  refine ⟨_, rfl, ?_⟩
  decide +kernel

/-! ## C13 random strings -/

/-- C13 is false: a random string whose positive length is a multiple of 8 always ends in eight zero
bits, whatever the random source returns. -/
theorem newRand_last_byte_zero (rnd : Nat → Nat → Nat) (n : Nat) (h0 : 0 < n) (h8 : n % 8 = 0) :
    ∃ r, newRand rnd n = some r ∧ r.bitlen = n ∧ r.val.drop (n - 8) = List.replicate 8 false := by
  obtain ⟨r, h, _, _, _, h4, h5⟩ := newRand_spec rnd n
  refine ⟨r, h, h4, ?_⟩
  apply List.ext_getElem
  · simp [h4]; omega
  · intro i h1 h2
    simp at h2
    rw [List.getElem_drop, val_getElem, List.getElem_replicate]
    unfold bitAt
    have hb := byteLen_eq n
    rw [h5, if_neg (by omega), if_pos (by omega), h8]
    apply shl_low <;> omega

/-- C13 refuted for 160-bit seeds: no outcome of the random source gives an odd seed. -/
theorem newRand_seed160_false :
    ¬ ∀ l : List Bool, l.length = 160 → ∃ rnd r, newRand rnd 160 = some r ∧ r.val = l := by
  intro h
  obtain ⟨rnd, r, h1, h2⟩ := h (List.replicate 160 true) (by simp)
  obtain ⟨r', h1', _, h3⟩ := newRand_last_byte_zero rnd 160 (by decide) (by decide)
  rw [h1] at h1'
  cases h1'
  rw [h2] at h3
  revert h3
  decide +kernel

/-- C13 (part): for lengths that are no multiple of 8 every value is reachable with a random source
returning `k`-bit numbers when asked for `k` bits. The full claim (every length) is false. -/
theorem newRand_surjective_partial (n : Nat) (h8 : n % 8 ≠ 0) (l : List Bool) (hl : l.length = n) :
    ∃ rnd r, (∀ i k, rnd i k < 2 ^ k) ∧ newRand rnd n = some r ∧ r.val = l := by
  have hb := byteLen_eq n
  let rnd : Nat → Nat → Nat := fun i k => ofBits ((l.drop (8 * i)).take k)
  obtain ⟨r, h, _, _, _, h4, h5⟩ := newRand_spec rnd n
  refine ⟨rnd, r, ?_, h, ?_⟩
  · intro i k
    refine Nat.lt_of_lt_of_le (ofBits_lt _) (Nat.pow_le_pow_right (by omega) ?_)
    simp only [List.length_take]; omega
  · apply val_eq_of (by omega)
    intro q hq
    unfold bitAt
    rw [h5]
    have get : ∀ (m : List Bool) (z j : Nat), m.length + z = 8 → j < m.length →
        (BitVec.ofNat 8 (ofBits m * 2 ^ z)).getMsbD j = m.getD j false := by
      intro m z j hm hj
      rw [BitVec.getMsbD]
      have hj8 : j < 8 := by omega
      simp only [hj8, decide_true, Bool.true_and, BitVec.getLsbD_ofNat]
      rw [Nat.testBit_mul_two_pow, testBit_ofBits]
      have e : 8 - 1 - j - z = m.length - 1 - j := by omega
      unfold fromRight
      rw [e, List.getD_eq_getElem?_getD, List.getElem?_reverse (by omega)]
      have e2 : m.length - 1 - (m.length - 1 - j) = j := by omega
      rw [e2, List.getD_eq_getElem?_getD]
      have h1 : 8 - 1 - j < 8 := by omega
      have h2 : z ≤ 8 - 1 - j := by omega
      simp [h2]
      intro _; omega
    by_cases h1 : q / 8 + 1 < byteLen n
    · rw [if_pos h1]
      have := get ((l.drop (8 * (q / 8))).take 8) 0 (q % 8) (by simp; omega) (by simp; omega)
      rw [Nat.pow_zero, Nat.mul_one] at this
      rw [this, List.getD_eq_getElem?_getD, List.getElem?_take, if_pos (by omega),
        List.getElem?_drop]
      have e : 8 * (q / 8) + q % 8 = q := by omega
      rw [e, List.getElem?_eq_getElem hq]; rfl
    · rw [if_neg h1, if_pos (by omega)]
      have := get ((l.drop (8 * (q / 8))).take (n % 8)) (8 - n % 8) (q % 8) (by simp; omega)
        (by simp; omega)
      rw [this, List.getD_eq_getElem?_getD, List.getElem?_take, if_pos (by omega),
        List.getElem?_drop]
      have e : 8 * (q / 8) + q % 8 = q := by omega
      rw [e, List.getElem?_eq_getElem hq]; rfl

example : (newRand (fun _ k => 2 ^ k - 1) 11).map Bits.val = some (List.replicate 11 true) := by
  decide +kernel

end Ecgen.Bits
