import Verif.Bits.Ops2

namespace Ecgen.Bits

/-! ### hex digits -/

theorem hexVal_nibble (c : Char) : nibble c = (hexVal c).getD 0 := by
  have e : ∀ a b : Char, a ≤ b ↔ a.toNat ≤ b.toNat := fun _ _ => Iff.rfl
  unfold nibble hexVal
  simp only [e]
  have e1 : '0'.toNat = 48 := rfl
  have e2 : '9'.toNat = 57 := rfl
  have e3 : 'a'.toNat = 97 := rfl
  have e4 : 'f'.toNat = 102 := rfl
  have e5 : 'A'.toNat = 65 := rfl
  have e6 : 'F'.toNat = 70 := rfl
  rw [e1, e2, e3, e4, e5, e6]
  split
  · simp
  split
  · simp; omega
  split
  · simp; omega
  · rfl

theorem hexVal_lt {c : Char} {d : Nat} (h : hexVal c = some d) : d < 16 := by
  have e : ∀ a b : Char, a ≤ b ↔ a.toNat ≤ b.toNat := fun _ _ => Iff.rfl
  unfold hexVal at h
  simp only [e] at h
  have e2 : '9'.toNat = 57 := rfl
  have e4 : 'f'.toNat = 102 := rfl
  have e6 : 'F'.toNat = 70 := rfl
  rw [e2, e4, e6] at h
  split at h
  · simp at h; omega
  split at h
  · simp at h; omega
  split at h
  · simp at h; omega
  · simp at h

theorem nibble_lt (c : Char) : nibble c < 16 := by
  rw [hexVal_nibble]
  cases h : hexVal c with
  | none => simp
  | some d => simpa using hexVal_lt h

theorem nibble_bits (n p j : Nat) (hn : n < 16) (hp : p < 2) (hj : j < 8) :
    (BitVec.ofNat 8 (n * 2 ^ ((1 - p) * 4))).getMsbD j =
      (decide (j / 4 = p) && (digitBits n).getD (j % 4) false) := by
  have : ∀ (n : Fin 16) (p : Fin 2) (j : Fin 8),
      (BitVec.ofNat 8 (n.val * 2 ^ ((1 - p.val) * 4))).getMsbD j.val =
      (decide (j.val / 4 = p.val) && (digitBits n.val).getD (j.val % 4) false) := by decide +kernel
  exact this ⟨n, hn⟩ ⟨p, hp⟩ ⟨j, hj⟩

theorem ofBits_digitBits (n : Nat) (h : n < 16) : ofBits (digitBits n) = n := by
  have : ∀ n : Fin 16, ofBits (digitBits n.val) = n.val := by decide
  exact this ⟨n, h⟩

theorem flatMap_getD (f : Char → List Bool) (hf : ∀ c, (f c).length = 4) (s : List Char) (q : Nat)
    (hq : q < 4 * s.length) :
    (s.flatMap f).getD q false = (f (s.getD (q / 4) ' ')).getD (q % 4) false := by
  induction s generalizing q with
  | nil => simp at hq
  | cons c s ih =>
    rw [List.flatMap_cons]
    by_cases h : q < 4
    · have h1 : q / 4 = 0 := by omega
      have h2 : q % 4 = q := by omega
      rw [h1, h2, List.getD_eq_getElem?_getD, List.getElem?_append_left (by rw [hf]; exact h)]
      simp
    · have h1 : q / 4 = (q - 4) / 4 + 1 := by omega
      have h2 : q % 4 = (q - 4) % 4 := by omega
      rw [List.getD_eq_getElem?_getD, List.getElem?_append_right (by rw [hf]; omega), hf,
        ← List.getD_eq_getElem?_getD, ih (q - 4) (by simp at hq; omega), h1, h2]
      simp

theorem length_flatMap4 (f : Char → List Bool) (hf : ∀ c, (f c).length = 4) (s : List Char) :
    (s.flatMap f).length = s.length * 4 := by
  induction s with
  | nil => rfl
  | cons c s ih => rw [List.flatMap_cons, List.length_append, ih, hf]; simp; omega

theorem fromHex_spec (s : List Char) :
    ∃ r, fromHex s = some r ∧ r.WF ∧ r.Clean ∧ r.sign = false ∧
      r.val = s.flatMap (fun c => digitBits ((hexVal c).getD 0)) := by
  have hlen4 : ∀ c, ((fun c => digitBits (nibble c)) c).length = 4 := fun c => rfl
  have hfm : s.flatMap (fun c => digitBits ((hexVal c).getD 0)) =
      s.flatMap (fun c => digitBits (nibble c)) := by
    simp only [hexVal_nibble]
  rw [hfm]
  unfold fromHex
  have hl : (new (s.length * 4)).bits.length = (s.length * 4 + 7) / 8 := by simp [new, byteLen_eq]
  obtain ⟨y, hy, y1, y2⟩ := forN_inv (f := fun i buf => (rd buf (i / 2)).bind fun b =>
      wr buf (i / 2) (b ||| BitVec.ofNat 8 (nibble (s.getD i ' ') * 2 ^ ((1 - i % 2) * 4))))
    (n := s.length) (a := (new (s.length * 4)).bits)
    (P := fun k y => y.length = (new (s.length * 4)).bits.length ∧
      ∀ q, bitAt y q = (decide (q < 4 * k) &&
        (digitBits (nibble (s.getD (q / 4) ' '))).getD (q % 4) false))
    ⟨rfl, by
      intro q
      have hb : bitAt (new (s.length * 4)).bits q = false := bitAt_replicate _ _
      rw [hb]; simp⟩ (by
      intro k x hk ⟨hxl, hx⟩
      rw [rd_eq (by omega)]
      simp only [Option.bind_some]
      rw [wr_eq (by omega)]
      refine ⟨_, rfl, by simpa using hxl, ?_⟩
      intro q
      have hxq := hx q
      unfold bitAt at hxq ⊢
      rw [getD_set _ _ _ _ (by omega)]
      by_cases hq : q / 8 = k / 2
      · rw [if_pos hq, BitVec.getMsbD_or, ← hq, hxq,
          nibble_bits _ _ _ (nibble_lt _) (by omega) (by omega)]
        by_cases hq4 : q / 4 = k
        · have a1 : q % 8 / 4 = k % 2 := by omega
          have a2 : q % 8 % 4 = q % 4 := by omega
          rw [decide_eq_false (by omega), decide_eq_true a1, decide_eq_true (by omega), hq4, a2]
          simp
        · have a1 : ¬ q % 8 / 4 = k % 2 := by omega
          rw [decide_eq_false a1]
          have : q < 4 * k ↔ q < 4 * (k + 1) := by omega
          simp [this]
      · rw [if_neg hq, hxq]
        have : q < 4 * k ↔ q < 4 * (k + 1) := by omega
        rw [decide_eq_decide.2 this])
  simp only [hy]
  refine ⟨_, rfl, ?_, ?_, rfl, ?_⟩
  · have := new_wf (s.length * 4)
    exact ⟨by show (new (s.length * 4)).allocated ≤ y.length; rw [y1]; exact this.1, this.2⟩
  · intro i hi _
    have hi : s.length * 4 ≤ i := hi
    show bitAt y i = false
    rw [y2, decide_eq_false (by omega)]; rfl
  · apply val_eq_of
    · rw [length_flatMap4 _ hlen4]; rfl
    · intro i hi
      rw [length_flatMap4 _ hlen4] at hi
      show bitAt y i = _
      rw [y2, decide_eq_true (by omega)]
      have := flatMap_getD (fun c => digitBits (nibble c)) hlen4 s i (by omega)
      rw [List.getD_eq_getElem?_getD, List.getElem?_eq_getElem] at this
      · simp only [Option.getD_some] at this
        rw [this]; simp
      · rw [length_flatMap4 _ hlen4]; omega

theorem ofBits_nil : ofBits [] = 0 := rfl

theorem ofHex_append (s t : List Char) {m n : Nat} (hs : ofHex s = some m) (ht : ofHex t = some n) :
    ofHex (s ++ t) = some (m * 16 ^ t.length + n) := by
  unfold ofHex at *
  rw [List.foldl_append, hs]
  have key : ∀ (t : List Char) (m a : Nat) {n : Nat},
      t.foldl (fun n c => n.bind fun n => (hexVal c).map fun d => 16 * n + d) (some a) = some n →
      t.foldl (fun n c => n.bind fun n => (hexVal c).map fun d => 16 * n + d) (some (m + a)) =
        some (m * 16 ^ t.length + n) := by
    intro t
    induction t with
    | nil => intro m a n h; simp at h; simp [h]
    | cons c t ih =>
      intro m a n h
      simp only [List.foldl_cons, Option.bind_some] at h ⊢
      cases hc : hexVal c with
      | none =>
        rw [hc] at h
        simp only [Option.map_none] at h
        have : ∀ t : List Char, t.foldl (fun n c => n.bind fun n => (hexVal c).map fun d => 16 * n + d)
            (none : Option Nat) = none := by
          intro t
          induction t with
          | nil => rfl
          | cons c t ih => simp [ih]
        rw [this] at h
        exact absurd h (by simp)
      | some d =>
        rw [hc] at h
        simp only [Option.map_some] at h ⊢
        have := ih (16 * m) (16 * a + d) h
        rw [List.length_cons, Nat.pow_succ]
        have e : 16 * (m + a) + d = 16 * m + (16 * a + d) := by omega
        rw [e, this]
        congr 2
        rw [Nat.mul_comm 16 m, Nat.mul_assoc, Nat.mul_comm 16]
  have := key t m 0 ht
  simpa using this

theorem ofHex_bits (s : List Char) (h : ∀ c ∈ s, (hexVal c).isSome) :
    ofHex s = some (ofBits (s.flatMap (fun c => digitBits ((hexVal c).getD 0)))) := by
  induction s using List.reverseRecOn with
  | nil => rfl
  | append_singleton s c ih =>
    have hs := ih (fun d hd => h d (by simp [hd]))
    obtain ⟨d, hd⟩ := Option.isSome_iff_exists.1 (h c (by simp))
    have hc : ofHex [c] = some d := by simp [ofHex, hd]
    rw [ofHex_append s [c] hs hc, List.flatMap_append, ofBits_append]
    have : ([c] : List Char).flatMap (fun c => digitBits ((hexVal c).getD 0)) = digitBits d := by
      simp [hd]
    rw [this, ofBits_digitBits d (hexVal_lt hd)]
    rfl

theorem byte_value (v : Byte) : v.toNat = ofBits ((List.range 8).map v.getMsbD) := by
  have : ∀ v : BitVec 8, v.toNat = ofBits ((List.range 8).map v.getMsbD) := by decide +kernel
  exact this v

theorem hexVal_hexDigit (n : Nat) (h : n < 16) : hexVal (hexDigit n) = some n := by
  have : ∀ n : Fin 16, hexVal (hexDigit n.val) = some n.val := by decide
  exact this ⟨n, h⟩

theorem ofHex_hex2 (v : Byte) : ofHex (hex2 v) = some v.toNat := by
  have hv : v.toNat < 256 := v.isLt
  have h1 := hexVal_hexDigit (v.toNat / 16) (by omega)
  have h2 := hexVal_hexDigit (v.toNat % 16) (by omega)
  simp [ofHex, hex2, h1, h2]
  omega

/-- the unaligned byte computed by `bits_to_hex` for `i = 0` -/
theorem hexByte_first (x : Byte) (off j : Nat) (h0 : 0 < off) (h8 : off < 8) (hj : j < 8) :
    (x >>> (8 - off)).getMsbD j = (decide (8 - off ≤ j) && x.getMsbD (j - (8 - off))) := by
  have : ∀ (x : BitVec 8) (off j : Fin 8), 0 < off.val →
      (x >>> (8 - off.val)).getMsbD j.val =
        (decide (8 - off.val ≤ j.val) && x.getMsbD (j.val - (8 - off.val))) := by decide +kernel
  exact this x ⟨off, h8⟩ ⟨j, hj⟩ h0

theorem hexByte_rest (y : Byte) (off j : Nat) (h0 : 0 < off) (h8 : off < 8) (hj : j < 8) :
    ((y &&& ~~~ ((1 : Byte) <<< (8 - off))) <<< off).getMsbD j =
      (decide (j + off < 8) && y.getMsbD (j + off)) := by
  have : ∀ (y : BitVec 8) (off j : Fin 8), 0 < off.val →
      ((y &&& ~~~ ((1 : BitVec 8) <<< (8 - off.val))) <<< off.val).getMsbD j.val =
        (decide (j.val + off.val < 8) && y.getMsbD (j.val + off.val)) := by decide +kernel
  exact this y ⟨off, h8⟩ ⟨j, hj⟩ h0

/-- number of bits printed after `k` bytes -/
def printed (len k : Nat) : Nat := if k = 0 then 0 else len - 8 * (byteLen len - k)

theorem window_step (b : Bits) (k : Nat) (v : Byte) (hk : k < byteLen b.bitlen)
    (hv : ∀ j, j < 8 → v.getMsbD j =
      (decide (8 * byteLen b.bitlen ≤ b.bitlen + 8 * k + j) &&
        bitAt b.bits (b.bitlen + 8 * k + j - 8 * byteLen b.bitlen))) :
    ofBits (b.val.take (printed b.bitlen (k + 1))) =
      ofBits (b.val.take (printed b.bitlen k)) * 256 + v.toNat := by
  have hbl := byteLen_eq b.bitlen
  rw [byte_value]
  have hp1 : printed b.bitlen (k + 1) = b.bitlen - 8 * (byteLen b.bitlen - (k + 1)) := by
    simp [printed]
  rw [hp1]
  by_cases h0 : k = 0
  · subst h0
    simp only [printed, if_true, List.take_zero, ofBits_nil, Nat.zero_mul, Nat.zero_add]
    generalize hn : b.bitlen - 8 * (byteLen b.bitlen - 1) = n
    have hn8 : n ≤ 8 := by omega
    have : (List.range 8).map v.getMsbD = List.replicate (8 - n) false ++ b.val.take n := by
      apply List.ext_getElem
      · simp; omega
      · intro j j1 j2
        have j8 : j < 8 := by simpa using j1
        simp only [List.getElem_map, List.getElem_range]
        rw [hv j j8]
        by_cases hj : j < 8 - n
        · rw [List.getElem_append_left (by simpa using hj), decide_eq_false (by omega)]
          simp
        · rw [List.getElem_append_right (by simpa using hj), decide_eq_true (by omega)]
          simp only [Bool.true_and, List.length_replicate, List.getElem_take, val_getElem]
          congr 1; omega
    rw [this, ofBits_zeros_append]
  · have hp : printed b.bitlen k = b.bitlen - 8 * (byteLen b.bitlen - k) := by simp [printed, h0]
    rw [hp]
    generalize hn : b.bitlen - 8 * (byteLen b.bitlen - k) = n
    have hn' : b.bitlen - 8 * (byteLen b.bitlen - (k + 1)) = n + 8 := by omega
    rw [hn', List.take_add, ofBits_append]
    have hlen8 : ((b.val.drop n).take 8).length = 8 := by simp; omega
    have : (List.range 8).map v.getMsbD = (b.val.drop n).take 8 := by
      apply List.ext_getElem
      · rw [hlen8]; simp
      · intro j j1 j2
        have j8 : j < 8 := by simpa using j1
        simp only [List.getElem_map, List.getElem_range]
        rw [hv j j8, decide_eq_true (by omega)]
        simp only [Bool.true_and, List.getElem_take, List.getElem_drop, val_getElem]
        congr 1; omega
    rw [this, hlen8]

theorem toHex_spec (b : Bits) (h : b.WF) :
    ∃ s, toHex b = some ((if b.sign then ['-'] else []) ++ s) ∧ s.length = 2 * byteLen b.bitlen ∧
      (∀ c ∈ s, (hexVal c).isSome) ∧ ofHex s = some (ofBits b.val) := by
  unfold toHex
  have hbl := byteLen_eq b.bitlen
  have hal := h.1
  have hal2 := h.2
  obtain ⟨y, hy, s, s1, s2, s3, s4⟩ := forN_inv (f := fun i (acc : List Char) =>
      let value : Option Byte :=
        if b.bitlen % 8 ≠ 0 then
          (rd b.bits i).bind fun x =>
            let v := x >>> (8 - b.bitlen % 8)
            if i ≠ 0 then
              (rd b.bits (i - 1)).map fun y =>
                v ||| ((y &&& ~~~ ((1 : Byte) <<< (8 - b.bitlen % 8))) <<< (b.bitlen % 8))
            else some v
        else rd b.bits i
      value.map fun v => acc ++ hex2 v)
    (n := byteLen b.bitlen) (a := if b.sign then ['-'] else [])
    (P := fun k y => ∃ s, y = (if b.sign then ['-'] else []) ++ s ∧ s.length = 2 * k ∧
      (∀ c ∈ s, (hexVal c).isSome) ∧ ofHex s = some (ofBits (b.val.take (printed b.bitlen k))))
    ⟨[], by simp, rfl, by simp, by simp [ofHex, printed, ofBits]⟩ (by
      intro k x hk ⟨s, hs1, hs2, hs3, hs4⟩
      have fin : ∀ v : Byte, (∀ j, j < 8 → v.getMsbD j =
          (decide (8 * byteLen b.bitlen ≤ b.bitlen + 8 * k + j) &&
            bitAt b.bits (b.bitlen + 8 * k + j - 8 * byteLen b.bitlen))) →
          ∃ y, (some v).map (fun v => x ++ hex2 v) = some y ∧
          ∃ s, y = (if b.sign then ['-'] else []) ++ s ∧ s.length = 2 * (k + 1) ∧
            (∀ c ∈ s, (hexVal c).isSome) ∧
            ofHex s = some (ofBits (b.val.take (printed b.bitlen (k + 1)))) := by
        intro v hv
        refine ⟨_, rfl, s ++ hex2 v, by simp [hs1, List.append_assoc], ?_, ?_, ?_⟩
        · simp [hs2, hex2]; omega
        · intro c hc
          rcases List.mem_append.1 hc with hc | hc
          · exact hs3 c hc
          · have hv : v.toNat < 256 := v.isLt
            simp only [hex2, List.mem_cons, List.not_mem_nil, or_false] at hc
            rcases hc with rfl | rfl <;> rw [hexVal_hexDigit _ (by omega)] <;> rfl
        · rw [ofHex_append s (hex2 v) hs4 (ofHex_hex2 v), window_step b k v hk hv]
          simp [hex2]
      by_cases hoff : b.bitlen % 8 ≠ 0
      · simp only [if_pos hoff]
        rw [rd_eq (by omega)]
        simp only [Option.bind_some]
        by_cases hk0 : k ≠ 0
        · rw [if_pos hk0, rd_eq (by omega)]
          simp only [Option.map_some]
          apply fin
          intro j hj
          rw [BitVec.getMsbD_or, hexByte_first _ _ _ (by omega) (by omega) hj,
            hexByte_rest _ _ _ (by omega) (by omega) hj,
            decide_eq_true (show 8 * byteLen b.bitlen ≤ b.bitlen + 8 * k + j by omega)]
          unfold bitAt
          by_cases hjo : j + b.bitlen % 8 < 8
          · rw [decide_eq_false (by omega), decide_eq_true hjo]
            simp only [Bool.false_and, Bool.false_or, Bool.true_and]
            congr 2 <;> omega
          · rw [decide_eq_true (by omega), decide_eq_false hjo]
            simp only [Bool.false_and, Bool.or_false, Bool.true_and]
            congr 2 <;> omega
        · rw [if_neg hk0]
          apply fin
          intro j hj
          rw [hexByte_first _ _ _ (by omega) (by omega) hj]
          by_cases hjo : 8 - b.bitlen % 8 ≤ j
          · rw [decide_eq_true hjo, decide_eq_true (by omega)]
            unfold bitAt
            congr 3 <;> omega
          · rw [decide_eq_false hjo, decide_eq_false (by omega)]; rfl
      · simp only [if_neg hoff]
        rw [rd_eq (by omega)]
        apply fin
        intro j hj
        rw [decide_eq_true (by omega)]
        unfold bitAt
        simp only [Bool.true_and]
        congr 2 <;> omega)
  refine ⟨s, by rw [hy, s1], s2, s3, ?_⟩
  rw [s4]
  congr 2
  by_cases h0 : b.bitlen = 0
  · have : b.val = [] := by apply List.eq_nil_of_length_eq_zero; simpa using h0
    simp [this]
  · apply List.take_of_length_le
    unfold printed
    rw [if_neg (by omega), val_length]
    omega

/-! ### random strings -/

theorem shl_low (x k last : Nat) (hk : last ≤ k) (hk8 : k < 8) :
    (BitVec.ofNat 8 (x * 2 ^ (8 - last))).getMsbD k = false := by
  rw [BitVec.getMsbD]
  simp only [hk8, decide_true, Bool.true_and, BitVec.getLsbD_ofNat]
  rw [Nat.testBit_mul_two_pow]
  simp
  intros
  omega

theorem newRand_spec (rnd : Nat → Nat → Nat) (n : Nat) :
    ∃ r, newRand rnd n = some r ∧ r.WF ∧ r.Clean ∧ r.sign = false ∧ r.bitlen = n ∧
      ∀ i, r.bits.getD i 0 = if i + 1 < byteLen n then BitVec.ofNat 8 (rnd i 8)
        else if i + 1 = byteLen n then BitVec.ofNat 8 (rnd i (n % 8) * 2 ^ (8 - n % 8)) else 0 := by
  unfold newRand
  have hl : (new n).bits.length = byteLen n := by simp [new]
  have ha : (new n).allocated = byteLen n := rfl
  simp only [ha]
  obtain ⟨y, hy, y1, y2⟩ := forN_inv (f := fun i buf =>
      if i = byteLen n - 1 then
        wr buf i (BitVec.ofNat 8 (rnd i (n % 8) * 2 ^ (8 - n % 8)))
      else wr buf i (BitVec.ofNat 8 (rnd i 8)))
    (n := byteLen n) (a := (new n).bits)
    (P := fun k y => y.length = byteLen n ∧ ∀ i, y.getD i 0 = if i < k then
      (if i + 1 < byteLen n then BitVec.ofNat 8 (rnd i 8)
        else BitVec.ofNat 8 (rnd i (n % 8) * 2 ^ (8 - n % 8))) else 0)
    ⟨hl, by
      intro i
      rw [if_neg (by omega)]
      show (List.replicate (byteLen n) (0 : Byte)).getD i 0 = 0
      rw [List.getD_eq_getElem?_getD, List.getElem?_replicate]
      split <;> rfl⟩ (by
      intro k x hk ⟨hxl, hx⟩
      by_cases hkl : k = byteLen n - 1
      · rw [if_pos hkl, wr_eq (by omega)]
        refine ⟨_, rfl, by simpa using hxl, ?_⟩
        intro i
        rw [getD_set _ _ _ _ (by omega), hx]
        by_cases hik : i = k
        · rw [if_pos hik, if_pos (by omega), if_neg (by omega), hik]
        · rw [if_neg hik]
          by_cases hh : i < k
          · rw [if_pos hh, if_pos (show i < k + 1 by omega)]
          · rw [if_neg hh, if_neg (show ¬ i < k + 1 by omega)]
      · rw [if_neg hkl, wr_eq (by omega)]
        refine ⟨_, rfl, by simpa using hxl, ?_⟩
        intro i
        rw [getD_set _ _ _ _ (by omega), hx]
        by_cases hik : i = k
        · rw [if_pos hik, if_pos (by omega), if_pos (by omega), hik]
        · rw [if_neg hik]
          by_cases hh : i < k
          · rw [if_pos hh, if_pos (show i < k + 1 by omega)]
          · rw [if_neg hh, if_neg (show ¬ i < k + 1 by omega)])
  rw [hy]
  have hbytes : ∀ i, y.getD i 0 = if i + 1 < byteLen n then BitVec.ofNat 8 (rnd i 8)
        else if i + 1 = byteLen n then BitVec.ofNat 8 (rnd i (n % 8) * 2 ^ (8 - n % 8)) else 0 := by
    intro i
    rw [y2]
    by_cases h1 : i < byteLen n
    · rw [if_pos h1]
      by_cases h2 : i + 1 < byteLen n
      · rw [if_pos h2, if_pos h2]
      · rw [if_neg h2, if_neg h2, if_pos (by omega)]
    · rw [if_neg h1, if_neg (by omega), if_neg (by omega)]
  refine ⟨_, rfl, ⟨by simp [y1], by simp [new]⟩, ?_, rfl, rfl, hbytes⟩
  intro i hi hi2
  have hi : n ≤ i := hi
  have hi2 : i < 8 * byteLen n := hi2
  show bitAt y i = false
  unfold bitAt
  rw [hbytes]
  have := byteLen_eq n
  rw [if_neg (by omega), if_pos (by omega)]
  apply shl_low <;> omega

end Ecgen.Bits
