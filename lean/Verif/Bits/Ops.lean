import Verif.Bits.Lemmas

namespace Ecgen.Bits

/-! ### writing loops -/

theorem orBit_zero {buf : List Byte} {pos : Nat} (h : pos / 8 < buf.length) :
    orBit buf pos 0 = some buf := by
  unfold orBit
  rw [rd_eq h]
  simp only [Option.bind_some]
  rw [wr_eq h]
  congr 1
  have h0 : (0 : Byte) <<< (7 - pos % 8) = 0 := by simp
  rw [h0]
  apply List.ext_getElem
  · simp
  · intro i h1 h2
    rw [List.getElem_set]
    split
    · next hh => subst hh; simp [List.getElem?_eq_getElem h]
    · rfl

theorem orIf_eq {buf : List Byte} {pos : Nat} (h : pos / 8 < buf.length) (c : Prop) [Decidable c] :
    (if c then orBit buf pos 1 else some buf) = orBit buf pos (b2b (decide c)) := by
  by_cases hc : c
  · simp [hc, b2b]
  · simp only [hc, if_false, decide_false]
    exact (orBit_zero h).symm

/-- A loop that ORs `g k` into position `pos k` in iteration `k`. -/
theorem fill_eq {f : Nat → List Byte → Option (List Byte)} (z : List Byte) (n : Nat)
    (pos : Nat → Nat) (g : Nat → Bool)
    (hpos : ∀ k, k < n → pos k / 8 < z.length)
    (hinj : ∀ k j, k < n → j < n → pos k = pos j → k = j)
    (hf : ∀ k buf, k < n → buf.length = z.length → f k buf = orBit buf (pos k) (b2b (g k))) :
    ∃ y, forN f n z = some y ∧ y.length = z.length ∧
      (∀ k, k < n → bitAt y (pos k) = (bitAt z (pos k) || g k)) ∧
      (∀ q, (∀ k, k < n → q ≠ pos k) → bitAt y q = bitAt z q) := by
  obtain ⟨y, hy, h1, h2, h3⟩ := forN_inv (f := f) (n := n) (a := z)
    (P := fun m y => y.length = z.length ∧
      (∀ k, k < m → bitAt y (pos k) = (bitAt z (pos k) || g k)) ∧
      (∀ q, (∀ k, k < m → q ≠ pos k) → bitAt y q = bitAt z q))
    ⟨rfl, by intro k hk; omega, by intros; rfl⟩ (by
      intro m x hm ⟨hl, hA, hB⟩
      rw [hf m x hm hl]
      obtain ⟨w, hw, hwl, hwb⟩ := orBit_eq (buf := x) (pos := pos m) (by rw [hl]; exact hpos m hm) (g m)
      refine ⟨w, hw, by omega, ?_, ?_⟩
      · intro k hk
        rw [hwb]
        by_cases hkm : k = m
        · subst hkm
          rw [if_pos rfl, hB]
          intro j hj hh
          have := hinj k j hm (by omega) hh
          omega
        · rw [if_neg (by intro hh; exact hkm (hinj k m (by omega) hm hh)), hA k (by omega)]
      · intro q hq
        rw [hwb, if_neg (hq m (by omega)), hB q (fun k hk => hq k (by omega))])
  exact ⟨y, hy, h1, h2, h3⟩

/-- `fill_eq` for consecutive positions starting at 0. -/
theorem fill_id {f : Nat → List Byte → Option (List Byte)} (z : List Byte) (n : Nat)
    (g : Nat → Bool) (hpos : ∀ k, k < n → k / 8 < z.length)
    (hf : ∀ k buf, k < n → buf.length = z.length → f k buf = orBit buf k (b2b (g k))) :
    ∃ y, forN f n z = some y ∧ y.length = z.length ∧
      ∀ q, bitAt y q = (bitAt z q || (decide (q < n) && g q)) := by
  obtain ⟨y, h1, h2, h3, h4⟩ := fill_eq z n id g hpos (fun _ _ _ _ h => h) hf
  refine ⟨y, h1, h2, ?_⟩
  intro q
  by_cases hq : q < n
  · have := h3 q hq
    simpa [hq] using this
  · rw [h4 q (by intro k hk; simp; omega)]
    simp [hq]

/-! ### constructors -/

theorem new_wf (n : Nat) : (new n).WF := by simp [new, Bits.WF]

theorem new_clean (n : Nat) : (new n).Clean := by
  intro i _ _
  exact bitAt_replicate _ _

theorem new_val (n : Nat) : (new n).val = List.replicate n false := by
  apply val_eq_of
  · simp [new]
  · intro i hi
    simp only [List.getElem_replicate]
    exact bitAt_replicate _ _

theorem new_pos {n k : Nat} (h : k < n) : k / 8 < (List.replicate (byteLen n) (0 : Byte)).length := by
  rw [List.length_replicate, byteLen_eq]; omega

/-- the result of filling a fresh string with the bits of a list -/
theorem new_fill {f : Nat → List Byte → Option (List Byte)} (l : List Bool) (sgn : Bool)
    (hf : ∀ k buf, k < l.length → buf.length = (new l.length).bits.length →
      f k buf = orBit buf k (b2b (l.getD k false))) :
    ∃ r, ((forN f l.length (new l.length).bits).map
        fun buf => { new l.length with bits := buf, sign := sgn }) = some r ∧
      r.WF ∧ r.Clean ∧ r.sign = sgn ∧ r.val = l ∧ r.allocated = byteLen l.length := by
  obtain ⟨y, h1, h2, h3⟩ := fill_id (f := f) (new l.length).bits l.length (fun k => l.getD k false)
    (fun k hk => new_pos hk) hf
  rw [h1]
  refine ⟨_, rfl, ?_, ?_, rfl, ?_, rfl⟩
  · have := new_wf l.length
    constructor
    · show (new l.length).allocated ≤ y.length
      rw [h2]; exact this.1
    · exact this.2
  · intro i hi _
    show bitAt y i = false
    rw [h3]
    have hi : l.length ≤ i := hi
    have hb : bitAt (new l.length).bits i = false := bitAt_replicate _ _
    simp [hb]
    intro h; omega
  · apply val_eq_of
    · rfl
    · intro i hi
      show bitAt y i = _
      rw [h3]
      have hb : bitAt (new l.length).bits i = false := bitAt_replicate _ _
      simp [hb, hi]

theorem getElem?_eq_some_true (l : List Bool) (k : Nat) : decide (l[k]? = some true) = l.getD k false := by
  rw [List.getD_eq_getElem?_getD]
  rcases l[k]? with _ | b
  · rfl
  · cases b <;> rfl

theorem fromBitvec_spec (v : List Bool) :
    ∃ r, fromBitvec v = some r ∧ r.WF ∧ r.Clean ∧ r.sign = false ∧ r.val = v := by
  obtain ⟨r, h, h1, h2, h3, h4, _⟩ := new_fill (f := fun j buf =>
      if v[j]? = some true then orBit buf j 1 else some buf) v false (by
    intro k buf hk hl
    rw [orIf_eq (by rw [hl]; exact new_pos hk), getElem?_eq_some_true])
  exact ⟨r, h, h1, h2, h3, h4⟩

theorem fromI_spec (i : Int) :
    ∃ r, fromI i = some r ∧ r.WF ∧ r.Clean ∧ r.sign = decide (i < 0) ∧ r.val = binaryZv i.natAbs := by
  obtain ⟨r, h, h1, h2, h3, h4, _⟩ := new_fill (f := fun j buf =>
      if (binaryZv i.natAbs)[j]? = some true then orBit buf j 1 else some buf)
      (binaryZv i.natAbs) (decide (i < 0)) (by
    intro k buf hk hl
    rw [orIf_eq (by rw [hl]; exact new_pos hk), getElem?_eq_some_true])
  exact ⟨r, h, h1, h2, h3, h4⟩

theorem fromBin_spec (s : List Char) :
    ∃ r, fromBin s = some r ∧ r.WF ∧ r.Clean ∧ r.sign = false ∧ r.val = s.map (· == '1') := by
  obtain ⟨r, h, h1, h2, h3, h4, _⟩ := new_fill (f := fun j buf =>
      if s[j]? = some '1' then orBit buf j 1 else some buf) (s.map (· == '1')) false (by
    intro k buf hk hl
    have hk' : k < s.length := by simpa using hk
    rw [orIf_eq (by rw [hl]; exact new_pos hk)]
    congr 2
    rw [List.getD_eq_getElem?_getD, List.getElem?_map, List.getElem?_eq_getElem hk']
    simp
    rfl)
  rw [List.length_map] at h
  exact ⟨r, h, h1, h2, h3, h4⟩

theorem fromILen_spec (i : Int) (L : Nat) :
    ∃ r, fromILen i L = some r ∧ r.WF ∧ r.Clean ∧ r.sign = decide (i < 0) ∧
      r.val = List.replicate (L - (binaryZv i.natAbs).length) false ++ (binaryZv i.natAbs).take L := by
  unfold fromILen
  generalize binaryZv i.natAbs = v
  have hoff : (if v.length < L then L - v.length else 0) = L - v.length := by split <;> omega
  simp only [hoff]
  -- iterations past `v.length` change nothing; treat them as writing 0 to an unused target
  have hstep : ∀ m, m ≤ L → ∃ y, forN (fun j buf =>
      if j < v.length ∧ v[j]? = some true then orBit buf (j + (L - v.length)) 1 else some buf)
      m (new L).bits = some y ∧ y.length = (new L).bits.length ∧
      ∀ q, bitAt y q = (decide (L - v.length ≤ q ∧ q < L - v.length + m ∧ q < L) &&
        v.getD (q - (L - v.length)) false) := by
    intro m hm
    obtain ⟨y, hy, h1, h2⟩ := forN_inv (f := fun j buf =>
        if j < v.length ∧ v[j]? = some true then orBit buf (j + (L - v.length)) 1 else some buf)
      (n := m) (a := (new L).bits)
      (P := fun m y => y.length = (new L).bits.length ∧
        ∀ q, bitAt y q = (decide (L - v.length ≤ q ∧ q < L - v.length + m ∧ q < L) &&
          v.getD (q - (L - v.length)) false))
      ⟨rfl, by
        intro q
        have hb : bitAt (new L).bits q = false := bitAt_replicate _ _
        have hd : ¬ (L - v.length ≤ q ∧ q < L - v.length + 0 ∧ q < L) := by omega
        rw [hb, decide_eq_false hd]; rfl⟩ (by
      intro k x hk ⟨hl, hx⟩
      by_cases hkv : k < v.length
      · have hpos : (k + (L - v.length)) / 8 < x.length := by
          rw [hl]; exact new_pos (by omega)
        have hc : decide (k < v.length ∧ v[k]? = some true) = v.getD k false := by
          rw [← getElem?_eq_some_true]; simp [hkv]
        rw [orIf_eq hpos, hc]
        obtain ⟨w, hw, hwl, hwb⟩ := orBit_eq hpos (v.getD k false)
        refine ⟨w, hw, by omega, ?_⟩
        intro q
        rw [hwb, hx]
        by_cases hq : q = k + (L - v.length)
        · rw [if_pos hq, hq]
          have e1 : ¬ (L - v.length ≤ k + (L - v.length) ∧ k + (L - v.length) < L - v.length + k ∧
            k + (L - v.length) < L) := by omega
          have e2 : (L - v.length ≤ k + (L - v.length) ∧ k + (L - v.length) < L - v.length + (k + 1) ∧
            k + (L - v.length) < L) := by omega
          rw [decide_eq_false e1, decide_eq_true e2, Nat.add_sub_cancel]
          simp
        · rw [if_neg hq]
          have : (L - v.length ≤ q ∧ q < L - v.length + k ∧ q < L) ↔
            (L - v.length ≤ q ∧ q < L - v.length + (k + 1) ∧ q < L) := by omega
          rw [decide_eq_decide.2 this]
      · refine ⟨x, by rw [if_neg (by omega)], hl, ?_⟩
        intro q
        rw [hx]
        by_cases hq : L - v.length ≤ q ∧ q < L - v.length + k ∧ q < L
        · rw [decide_eq_true hq, decide_eq_true (by omega)]
        · rw [decide_eq_false hq]
          by_cases hq2 : L - v.length ≤ q ∧ q < L - v.length + (k + 1) ∧ q < L
          · rw [List.getD_eq_getElem?_getD, List.getElem?_eq_none (by omega)]
            simp
          · rw [decide_eq_false hq2])
    exact ⟨y, hy, h1, h2⟩
  obtain ⟨y, hy, h1, h2⟩ := hstep L (Nat.le_refl _)
  rw [hy]
  refine ⟨_, rfl, ?_, ?_, rfl, ?_⟩
  · have := new_wf L
    exact ⟨by show (new L).allocated ≤ y.length; rw [h1]; exact this.1, this.2⟩
  · intro q hq _
    have hq : L ≤ q := hq
    show bitAt y q = false
    rw [h2, decide_eq_false (by omega)]; rfl
  · apply val_eq_of
    · show L = _
      simp
    · intro q hq
      have hq' : q < L := by simp at hq; omega
      show bitAt y q = _
      rw [h2]
      by_cases hqv : q < L - v.length
      · rw [decide_eq_false (by omega), List.getElem_append_left (by simpa using hqv)]
        simp
      · rw [decide_eq_true (by omega), List.getElem_append_right (by simpa using hqv)]
        simp only [List.length_replicate, List.getElem_take, Bool.true_and]
        rw [List.getD_eq_getElem?_getD, List.getElem?_eq_getElem (by omega)]
        rfl

theorem fromRaw_spec (raw : List Byte) (L : Nat) (h : byteLen L ≤ raw.length) :
    ∃ r, fromRaw raw L = some r ∧ r.WF ∧ r.sign = false ∧ r.bitlen = L ∧
      ∀ q, q < L → bitAt r.bits q = bitAt raw q := by
  unfold fromRaw
  by_cases hL : L > 0
  · rw [if_pos hL]
    obtain ⟨d, h1, h2, h3⟩ := memdup_eq raw (byteLen L) h
    rw [h1]
    refine ⟨_, rfl, ⟨by simp [h2], by simp⟩, rfl, rfl, ?_⟩
    intro q hq
    apply bitAt_congr
    apply h3
    rw [byteLen_eq]; omega
  · rw [if_neg hL]
    have : L = 0 := by omega
    subst this
    refine ⟨_, rfl, ⟨by simp [byteLen], by simp⟩, rfl, rfl, ?_⟩
    intro q hq; omega

/-! ### copies -/

theorem copy_spec (b : Bits) (h : b.WF) :
    ∃ r, copy b = some r ∧ r.WF ∧ (b.Clean → r.Clean) ∧ r.sign = b.sign ∧ r.bitlen = b.bitlen ∧
      r.allocated = b.allocated ∧ r.val = b.val := by
  unfold copy
  by_cases ha : b.allocated ≠ 0
  · rw [if_pos ha]
    obtain ⟨d, h1, h2, h3⟩ := memdup_eq b.bits b.allocated h.1
    rw [h1]
    refine ⟨_, rfl, ⟨by simp [h2], h.2⟩, ?_, rfl, rfl, rfl, ?_⟩
    · intro hc i hi hi2
      show bitAt d i = false
      rw [← hc i hi hi2]
      exact bitAt_congr (h3 _ (by simp at hi2; omega))
    · refine val_congr (by rfl) ?_
      intro i hi
      exact bitAt_congr (h3 (i / 8) (wf_alloc h hi))
  · rw [if_neg ha]
    have ha : b.allocated = 0 := by omega
    have hb : b.bitlen = 0 := by
      have := h.2
      rw [byteLen_eq, ha] at this
      omega
    refine ⟨_, rfl, ⟨by simp [ha], h.2⟩, ?_, rfl, rfl, rfl, ?_⟩
    · intro _ i _ hi2
      simp [ha] at hi2
    · refine val_congr (by rfl) ?_
      intro i hi
      omega

theorem cpy_spec (junk : Byte) (dest src : Bits) (hd : dest.WF) (hs : src.WF) (h0 : src.bitlen ≠ 0) :
    ∃ r, cpy junk dest src = some r ∧ r.WF ∧ (src.Clean → r.Clean) ∧ r.sign = src.sign ∧
      r.bitlen = src.bitlen ∧ r.val = src.val := by
  unfold cpy
  rw [if_neg h0]
  have key : ∀ d1 : List Byte, src.allocated ≤ d1.length →
      ∃ r, ((memcpy d1 src.bits src.allocated).map fun d2 =>
        ({ bits := d2, allocated := src.allocated, bitlen := src.bitlen, sign := src.sign } : Bits)) =
          some r ∧ r.WF ∧ (src.Clean → r.Clean) ∧ r.sign = src.sign ∧
          r.bitlen = src.bitlen ∧ r.val = src.val := by
    intro d1 hd1
    obtain ⟨d, h1, h2, h3⟩ := memcpy_eq d1 src.bits src.allocated hd1 hs.1
    rw [h1]
    refine ⟨_, rfl, ⟨by simp [h2, hd1], hs.2⟩, ?_, rfl, rfl, ?_⟩
    · intro hc i hi hi2
      show bitAt d i = false
      rw [← hc i hi hi2]
      apply bitAt_congr
      rw [h3, if_pos (by simp at hi2; omega)]
    · refine val_congr (by rfl) ?_
      intro i hi
      apply bitAt_congr
      show d.getD _ _ = _
      rw [h3, if_pos (wf_alloc hs hi)]
  by_cases h1 : src.allocated < dest.allocated
  · simp only [if_pos h1]
    obtain ⟨d, e1, e2, _⟩ := memset0_eq dest.bits src.allocated (dest.allocated - src.allocated)
      (by have := hd.1; omega)
    rw [e1]
    exact key d (by have := hd.1; omega)
  · simp only [if_neg h1]
    by_cases h2 : src.allocated > dest.allocated
    · simp only [if_pos h2]
      exact key _ (by rw [realloc_length]; omega)
    · simp only [if_neg h2]
      exact key _ (by have := hd.1; omega)

/-! ### conversions out -/

theorem toI_spec (b : Bits) (h : b.WF) :
    toI b = some (if b.sign then - (ofBits b.val : Int) else (ofBits b.val : Int)) := by
  unfold toI
  obtain ⟨y, hy, h1⟩ := forN_inv (f := fun i (r : Nat) => (getBit b.bits i).map fun x =>
      if x ≠ 0 then r + 2 ^ (b.bitlen - i - 1) else r) (n := b.bitlen) (a := 0)
    (P := fun k y => y = ofBits (b.val.take k) * 2 ^ (b.bitlen - k))
    (by simp [ofBits]) (by
      intro k x hk hx
      rw [getBit_eq (wf_pos h hk)]
      refine ⟨_, rfl, ?_⟩
      have hk' : k < b.val.length := by simpa using hk
      rw [List.take_succ_eq_append_getElem hk', ofBits_snoc, val_getElem, hx]
      have he : b.bitlen - k = (b.bitlen - (k + 1)) + 1 := by omega
      have he2 : b.bitlen - k - 1 = b.bitlen - (k + 1) := by omega
      rw [he2, he, Nat.pow_succ]
      generalize 2 ^ (b.bitlen - (k + 1)) = P
      generalize ofBits (b.val.take k) = A
      cases bitAt b.bits k
      · simp [b2b, Nat.mul_comm, Nat.mul_left_comm]
      · simp [b2b, Nat.mul_comm, Nat.mul_left_comm, Nat.mul_add])
  rw [hy, h1]
  have : b.val.take b.bitlen = b.val := by
    apply List.take_of_length_le; simp
  simp [this]

theorem toBin_spec (b : Bits) (h : b.WF) :
    toBin b = some ((if b.sign then ['-'] else []) ++ b.val.map fun x => if x then '1' else '0') := by
  unfold toBin
  obtain ⟨y, hy, h1⟩ := forN_inv (f := fun i (acc : List Char) => (getBit b.bits i).map fun x =>
      acc ++ [if x = 0 then '0' else '1']) (n := b.bitlen) (a := if b.sign then ['-'] else [])
    (P := fun k y => y = (if b.sign then ['-'] else []) ++
      (b.val.take k).map fun x => if x then '1' else '0')
    (by simp) (by
      intro k x hk hx
      rw [getBit_eq (wf_pos h hk)]
      refine ⟨_, rfl, ?_⟩
      have hk' : k < b.val.length := by simpa using hk
      rw [List.take_succ_eq_append_getElem hk', val_getElem, hx, List.map_append]
      cases bitAt b.bits k <;> simp [b2b])
  rw [hy, h1]
  have : b.val.take b.bitlen = b.val := by
    apply List.take_of_length_le; simp
  rw [this]

theorem toBitvec_spec (b : Bits) (h : b.WF) : toBitvec b = some b.val := by
  unfold toBitvec
  obtain ⟨y, hy, h1⟩ := forN_inv (f := fun i (v : List Bool) => (getBit b.bits i).map fun x =>
      if x ≠ 0 then v.set i true else v) (n := b.bitlen) (a := List.replicate b.bitlen false)
    (P := fun k y => y = b.val.take k ++ List.replicate (b.bitlen - k) false)
    (by simp) (by
      intro k x hk hx
      rw [getBit_eq (wf_pos h hk)]
      refine ⟨_, rfl, ?_⟩
      have hk' : k < b.val.length := by simpa using hk
      rw [List.take_succ_eq_append_getElem hk', val_getElem, hx]
      have he : b.bitlen - k = (b.bitlen - (k + 1)) + 1 := by omega
      rw [he, List.replicate_succ]
      have hlen : (b.val.take k).length = k := by simp; omega
      cases bitAt b.bits k
      · simp [b2b]
      · simp [b2b, hlen])
  rw [hy, h1]
  have : b.val.take b.bitlen = b.val := by
    apply List.take_of_length_le; simp
  simp [this]

theorem toRaw_spec (b : Bits) (h : b.WF) (h0 : b.bitlen ≠ 0) :
    toRaw b = some (some (b.bits.take (byteLen b.bitlen))) := by
  unfold toRaw
  rw [if_neg h0, memdup_take _ _ (by have := h.1; have := h.2; omega)]
  rfl

end Ecgen.Bits
