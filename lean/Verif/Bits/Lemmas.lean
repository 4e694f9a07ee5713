import Verif.Bits.Spec
import Mathlib.Data.List.Induction

namespace Ecgen.Bits

/-! ### bytes -/

theorem byte_get (b : Byte) (k : Nat) (hk : k < 8) :
    (b &&& ((1 : Byte) <<< (7 - k))) >>> (7 - k) = b2b (b.getMsbD k) := by
  have : ∀ (b : BitVec 8) (k : Fin 8),
      (b &&& ((1 : BitVec 8) <<< (7 - k.val))) >>> (7 - k.val) =
        (if b.getMsbD k.val then (1 : BitVec 8) else 0) := by decide +kernel
  exact this b ⟨k, hk⟩

theorem byte_or (b : Byte) (v : Bool) (k j : Nat) (hk : k < 8) (hj : j < 8) :
    (b ||| (b2b v <<< (7 - k))).getMsbD j = if j = k then b.getMsbD j || v else b.getMsbD j := by
  have : ∀ (b : BitVec 8) (v : Bool) (k j : Fin 8),
      (b ||| ((if v then (1 : BitVec 8) else 0) <<< (7 - k.val))).getMsbD j.val =
        if j = k then b.getMsbD j.val || v else b.getMsbD j.val := by decide +kernel
  have h := this b v ⟨k, hk⟩ ⟨j, hj⟩
  simpa [b2b] using h

theorem byte_and (b : Byte) (k j : Nat) (hk : k < 8) (hj : j < 8) :
    (b &&& ~~~ ((1 : Byte) <<< (7 - k))).getMsbD j =
      if j = k then false else b.getMsbD j := by
  have : ∀ (b : BitVec 8) (k j : Fin 8),
      (b &&& ~~~ ((1 : BitVec 8) <<< (7 - k.val))).getMsbD j.val =
        if j = k then false else b.getMsbD j.val := by decide +kernel
  have h := this b ⟨k, hk⟩ ⟨j, hj⟩
  simpa using h

theorem byte_zero (k : Nat) : (0 : Byte).getMsbD k = false := by simp

theorem byte_ext (x y : Byte) (h : ∀ k, k < 8 → x.getMsbD k = y.getMsbD k) : x = y := by
  apply BitVec.eq_of_getMsbD_eq
  intro i hi
  exact h i hi

theorem byte_not (x : Byte) (k : Nat) (hk : k < 8) : (~~~ x).getMsbD k = !x.getMsbD k := by
  simp [BitVec.getMsbD_not, hk]

theorem byte_topMask (x : Byte) (n k : Nat) (hn : 0 < n) (hn' : n < 8) (hk : k < 8) :
    ((~~~ x &&& topMask n) ||| (x &&& ~~~ topMask n)).getMsbD k =
      if k < n then !x.getMsbD k else x.getMsbD k := by
  have : ∀ (x : BitVec 8) (n k : Fin 8), 0 < n.val →
      ((~~~ x &&& topMask n.val) ||| (x &&& ~~~ topMask n.val)).getMsbD k.val =
        if k.val < n.val then !x.getMsbD k.val else x.getMsbD k.val := by decide +kernel
  exact this x ⟨n, hn'⟩ ⟨k, hk⟩ hn

theorem byte_topMask_and (x : Byte) (n k : Nat) (hn : 0 < n) (hn' : n < 8) (hk : k < 8) :
    (x &&& topMask n).getMsbD k = (decide (k < n) && x.getMsbD k) := by
  have : ∀ (x : BitVec 8) (n k : Fin 8), 0 < n.val →
      (x &&& topMask n.val).getMsbD k.val = (decide (k.val < n.val) && x.getMsbD k.val) := by
    decide +kernel
  exact this x ⟨n, hn'⟩ ⟨k, hk⟩ hn

theorem b2b_ne_zero (v : Bool) : b2b v ≠ 0 ↔ v = true := by cases v <;> decide
theorem b2b_eq_zero (v : Bool) : b2b v = 0 ↔ v = false := by cases v <;> decide
theorem b2b_eq_one (v : Bool) : b2b v = 1 ↔ v = true := by cases v <;> decide
theorem b2b_or (a b : Bool) : b2b a ||| b2b b = b2b (a || b) := by cases a <;> cases b <;> decide
theorem b2b_and (a b : Bool) : b2b a &&& b2b b = b2b (a && b) := by cases a <;> cases b <;> decide
theorem b2b_true : b2b true = 1 := rfl
theorem b2b_false : b2b false = 0 := rfl

/-! ### buffers -/

theorem byteLen_eq (n : Nat) : byteLen n = (n + 7) / 8 := by unfold byteLen; split <;> omega

theorem rd_eq {buf : List Byte} {i : Nat} (h : i < buf.length) : rd buf i = some (buf.getD i 0) := by
  simp [rd, List.getD, List.getElem?_eq_getElem h]

theorem wr_eq {buf : List Byte} {i : Nat} {v : Byte} (h : i < buf.length) :
    wr buf i v = some (buf.set i v) := by simp [wr, h]

theorem getD_set (buf : List Byte) (i j : Nat) (v : Byte) (h : i < buf.length) :
    (buf.set i v).getD j 0 = if j = i then v else buf.getD j 0 := by
  simp only [List.getD_eq_getElem?_getD, List.getElem?_set]
  by_cases hij : i = j
  · subst hij; simp [h]
  · have : ¬ j = i := fun hh => hij hh.symm
    simp [hij, this]

theorem bitAt_out {buf : List Byte} {i : Nat} (h : buf.length ≤ i / 8) : bitAt buf i = false := by
  unfold bitAt
  rw [List.getD_eq_getElem?_getD, List.getElem?_eq_none h]
  simp

theorem getBit_eq {buf : List Byte} {pos : Nat} (h : pos / 8 < buf.length) :
    getBit buf pos = some (b2b (bitAt buf pos)) := by
  unfold getBit bitAt bitMask
  rw [rd_eq h]
  simp only [Option.map_some, Option.some.injEq]
  exact byte_get _ _ (by omega)

theorem orBit_eq {buf : List Byte} {pos : Nat} (h : pos / 8 < buf.length) (v : Bool) :
    ∃ buf', orBit buf pos (b2b v) = some buf' ∧ buf'.length = buf.length ∧
      ∀ q, bitAt buf' q = if q = pos then bitAt buf q || v else bitAt buf q := by
  unfold orBit
  rw [rd_eq h]
  simp only [Option.bind_some]
  rw [wr_eq h]
  refine ⟨_, rfl, by simp, ?_⟩
  intro q
  unfold bitAt
  rw [getD_set _ _ _ _ h]
  by_cases hq : q / 8 = pos / 8
  · rw [if_pos hq, byte_or _ _ _ _ (by omega) (by omega), hq]
    by_cases hqq : q = pos
    · subst hqq; simp
    · rw [if_neg (by omega), if_neg hqq]
  · rw [if_neg hq, if_neg (by intro hh; subst hh; exact hq rfl)]

theorem andBit_eq {buf : List Byte} {pos : Nat} (h : pos / 8 < buf.length) :
    ∃ buf', ((rd buf (pos / 8)).bind fun x => wr buf (pos / 8) (x &&& ~~~ bitMask pos)) =
        some buf' ∧ buf'.length = buf.length ∧
      ∀ q, bitAt buf' q = if q = pos then false else bitAt buf q := by
  rw [rd_eq h]
  simp only [Option.bind_some]
  rw [wr_eq h]
  refine ⟨_, rfl, by simp, ?_⟩
  intro q
  unfold bitAt bitMask
  rw [getD_set _ _ _ _ h]
  by_cases hq : q / 8 = pos / 8
  · rw [if_pos hq, byte_and _ _ _ (by omega) (by omega), hq]
    by_cases hqq : q = pos
    · subst hqq; simp
    · rw [if_neg (by omega), if_neg hqq]
  · rw [if_neg hq, if_neg (by intro hh; subst hh; exact hq rfl)]

theorem setBit_eq {buf : List Byte} {pos : Nat} (h : pos / 8 < buf.length) (v : Bool) :
    ∃ buf', setBit buf pos (b2b v) = some buf' ∧ buf'.length = buf.length ∧
      ∀ q, bitAt buf' q = if q = pos then v else bitAt buf q := by
  cases v with
  | true =>
    obtain ⟨buf', h1, h2, h3⟩ := orBit_eq h true
    refine ⟨buf', ?_, h2, ?_⟩
    · rw [← h1]
      simp only [setBit, orBit, b2b, if_true, bitMask]
    · intro q; rw [h3]; simp
  | false =>
    obtain ⟨buf', h1, h2, h3⟩ := andBit_eq h
    refine ⟨buf', ?_, h2, h3⟩
    rw [← h1]
    have : b2b false ≠ 1 := by decide
    simp only [setBit, this, if_false]

theorem bitAt_replicate (n i : Nat) : bitAt (List.replicate n 0) i = false := by
  unfold bitAt
  have : (List.replicate n (0 : Byte)).getD (i / 8) 0 = 0 := by
    rw [List.getD_eq_getElem?_getD, List.getElem?_replicate]
    split <;> rfl
  rw [this]
  simp

theorem bitAt_congr {x y : List Byte} {i : Nat} (h : x.getD (i / 8) 0 = y.getD (i / 8) 0) :
    bitAt x i = bitAt y i := by unfold bitAt; rw [h]

theorem memcpy_eq (dst src : List Byte) (n : Nat) (h1 : n ≤ dst.length) (h2 : n ≤ src.length) :
    ∃ d, memcpy dst src n = some d ∧ d.length = dst.length ∧
      ∀ i, d.getD i 0 = if i < n then src.getD i 0 else dst.getD i 0 := by
  unfold memcpy
  obtain ⟨y, hy, h3, h4⟩ := forN_inv (f := fun i b => (rd src i).bind (wr b i)) (n := n) (a := dst)
    (P := fun k d => d.length = dst.length ∧
      ∀ i, d.getD i 0 = if i < k then src.getD i 0 else dst.getD i 0)
    ⟨rfl, by simp⟩ (by
      intro k x hk ⟨hl, hx⟩
      rw [rd_eq (by omega)]
      simp only [Option.bind_some]
      rw [wr_eq (by omega)]
      refine ⟨_, rfl, by simp [hl], ?_⟩
      intro i
      rw [getD_set _ _ _ _ (by omega), hx]
      by_cases hik : i = k
      · subst hik; simp
      · rw [if_neg hik]
        by_cases h : i < k
        · rw [if_pos h, if_pos (by omega)]
        · rw [if_neg h, if_neg (by omega)])
  exact ⟨y, hy, h3, h4⟩

theorem memset0_eq (buf : List Byte) (off n : Nat) (h : off + n ≤ buf.length) :
    ∃ d, memset0 buf off n = some d ∧ d.length = buf.length ∧
      ∀ i, d.getD i 0 = if off ≤ i ∧ i < off + n then 0 else buf.getD i 0 := by
  unfold memset0
  obtain ⟨y, hy, h3, h4⟩ := forN_inv (f := fun i b => wr b (off + i) 0) (n := n) (a := buf)
    (P := fun k d => d.length = buf.length ∧
      ∀ i, d.getD i 0 = if off ≤ i ∧ i < off + k then 0 else buf.getD i 0)
    ⟨rfl, by intro i; rw [if_neg (by omega)]⟩ (by
      intro k x hk ⟨hl, hx⟩
      rw [wr_eq (by omega)]
      refine ⟨_, rfl, by simp [hl], ?_⟩
      intro i
      rw [getD_set _ _ _ _ (by omega), hx]
      by_cases hik : i = off + k
      · rw [if_pos hik, if_pos (by omega)]
      · rw [if_neg hik]
        by_cases h : off ≤ i ∧ i < off + k
        · rw [if_pos h, if_pos (by omega)]
        · rw [if_neg h, if_neg (by omega)])
  exact ⟨y, hy, h3, h4⟩

theorem memdup_eq (src : List Byte) (n : Nat) (h : n ≤ src.length) :
    ∃ d, memdup src n = some d ∧ d.length = n ∧ ∀ i, i < n → d.getD i 0 = src.getD i 0 := by
  obtain ⟨d, h1, h2, h3⟩ := memcpy_eq (List.replicate n 0) src n (by simp) h
  refine ⟨d, h1, by simpa using h2, ?_⟩
  intro i hi
  rw [h3, if_pos hi]

theorem memdup_take (src : List Byte) (n : Nat) (h : n ≤ src.length) :
    memdup src n = some (src.take n) := by
  obtain ⟨d, h1, h2, h3⟩ := memdup_eq src n h
  rw [h1]
  congr 1
  apply List.ext_getElem
  · simp; omega
  · intro i hi1 hi2
    have := h3 i (by omega)
    rw [List.getD_eq_getElem?_getD, List.getD_eq_getElem?_getD, List.getElem?_eq_getElem hi1,
      List.getElem?_eq_getElem (by omega)] at this
    simpa using this

theorem realloc_length (junk : Byte) (buf : List Byte) (n : Nat) : (realloc junk buf n).length = n := by
  simp [realloc]; omega

theorem realloc_getD (junk : Byte) (buf : List Byte) (n i : Nat) (h : i < buf.length) (hn : i < n) :
    (realloc junk buf n).getD i 0 = buf.getD i 0 := by
  unfold realloc
  rw [List.getD_eq_getElem?_getD, List.getD_eq_getElem?_getD, List.getElem?_append_left (by simp; omega)]
  rw [List.getElem?_take, if_pos hn]

/-! ### represented values -/

@[simp] theorem val_length (b : Bits) : b.val.length = b.bitlen := by simp [Bits.val]

theorem val_getElem (b : Bits) (i : Nat) (h : i < b.val.length) : b.val[i] = bitAt b.bits i := by
  simp [Bits.val]

theorem val_eq_of {b : Bits} {l : List Bool} (hl : b.bitlen = l.length)
    (h : ∀ i (hi : i < l.length), bitAt b.bits i = l[i]) : b.val = l := by
  apply List.ext_getElem
  · simpa using hl
  · intro i h1 h2
    rw [val_getElem, h i h2]

theorem val_getD (b : Bits) (i : Nat) : b.val.getD i false = (decide (i < b.bitlen) && bitAt b.bits i) := by
  by_cases h : i < b.bitlen
  · rw [List.getD_eq_getElem?_getD, List.getElem?_eq_getElem (by simpa using h)]
    simp [val_getElem, h]
  · rw [List.getD_eq_getElem?_getD, List.getElem?_eq_none (by simpa using h)]
    simp [h]

theorem wf_pos {b : Bits} (h : b.WF) {i : Nat} (hi : i < b.bitlen) : i / 8 < b.bits.length := by
  have := h.1
  have h2 := h.2
  rw [byteLen_eq] at h2
  omega

theorem wf_alloc {b : Bits} (h : b.WF) {i : Nat} (hi : i < b.bitlen) : i / 8 < b.allocated := by
  have h2 := h.2
  rw [byteLen_eq] at h2
  omega

/-- An unchanged buffer prefix keeps the value. -/
theorem val_congr {b c : Bits} (hl : b.bitlen = c.bitlen)
    (h : ∀ i, i < c.bitlen → bitAt b.bits i = bitAt c.bits i) : b.val = c.val := by
  apply val_eq_of (by simpa using hl)
  intro i hi
  rw [val_getElem]
  exact h i (by simpa using hi)

/-! ### numbers -/

theorem ofBits_append (l m : List Bool) : ofBits (l ++ m) = ofBits l * 2 ^ m.length + ofBits m := by
  have key : ∀ (m : List Bool) (a : Nat), m.foldl (fun n b => 2 * n + b.toNat) a =
      a * 2 ^ m.length + m.foldl (fun n b => 2 * n + b.toNat) 0 := by
    intro m
    induction m with
    | nil => simp
    | cons x m ih =>
      intro a
      simp only [List.foldl_cons, List.length_cons, Nat.mul_zero, Nat.zero_add]
      rw [ih (2 * a + x.toNat), ih x.toNat, Nat.add_mul, Nat.pow_succ]
      rw [Nat.add_assoc, Nat.mul_comm 2 a, Nat.mul_assoc, Nat.mul_comm 2]
  unfold ofBits
  rw [List.foldl_append, key]

theorem ofBits_snoc (l : List Bool) (b : Bool) : ofBits (l ++ [b]) = 2 * ofBits l + b.toNat := by
  simp [ofBits]

theorem ofBits_lt (l : List Bool) : ofBits l < 2 ^ l.length := by
  induction l using List.reverseRecOn with
  | nil => simp [ofBits]
  | append_singleton l b ih =>
    rw [ofBits_snoc, List.length_append, List.length_singleton, Nat.pow_succ]
    cases b <;> simp <;> omega

theorem ofBits_replicate_false (n : Nat) : ofBits (List.replicate n false) = 0 := by
  induction n with
  | zero => rfl
  | succ n ih => rw [List.replicate_succ', ofBits_snoc, ih]; rfl

theorem ofBits_zeros_append (n : Nat) (l : List Bool) :
    ofBits (List.replicate n false ++ l) = ofBits l := by
  rw [ofBits_append, ofBits_replicate_false]; simp

theorem ofBits_inj {l m : List Bool} (hl : l.length = m.length) (h : ofBits l = ofBits m) : l = m := by
  induction l using List.reverseRecOn generalizing m with
  | nil => simp at hl; simp [List.eq_nil_of_length_eq_zero hl.symm]
  | append_singleton l b ih =>
    rcases List.eq_nil_or_concat m with rfl | ⟨m, c, rfl⟩
    · simp at hl
    · simp only [List.concat_eq_append, List.length_append, List.length_singleton] at hl
      simp only [List.concat_eq_append, ofBits_snoc] at h
      have h1 : b = c := by cases b <;> cases c <;> first | rfl | (simp at h; omega)
      subst h1
      have h2 := ih (m := m) (by omega) (by omega)
      simp [h2]

theorem binaryZv_zero : binaryZv 0 = [] := by unfold binaryZv; simp

theorem binaryZv_pos {n : Nat} (h : n ≠ 0) : binaryZv n = binaryZv (n / 2) ++ [n % 2 == 1] := by
  rw [binaryZv]
  simp [h]

theorem ofBits_binaryZv (n : Nat) : ofBits (binaryZv n) = n := by
  induction n using Nat.strongRecOn with
  | ind n ih =>
    by_cases h : n = 0
    · subst h; simp [binaryZv_zero, ofBits]
    · rw [binaryZv_pos h, ofBits_snoc, ih (n / 2) (by omega)]
      rcases Nat.mod_two_eq_zero_or_one n with h | h <;> simp [h] <;> omega

theorem binaryZv_length_le (n k : Nat) : (binaryZv n).length ≤ k ↔ n < 2 ^ k := by
  induction n using Nat.strongRecOn generalizing k with
  | ind n ih =>
    by_cases h : n = 0
    · subst h; simp [binaryZv_zero]; exact Nat.two_pow_pos k
    · rw [binaryZv_pos h]
      cases k with
      | zero => simp; omega
      | succ k =>
        simp only [List.length_append, List.length_singleton, Nat.add_le_add_iff_right, Nat.pow_succ]
        rw [ih (n / 2) (by omega) k]
        omega

/-- the leading digit is one -/
theorem binaryZv_head {n : Nat} (h : n ≠ 0) : 2 ^ ((binaryZv n).length - 1) ≤ n := by
  have h1 := not_congr (binaryZv_length_le n ((binaryZv n).length - 1))
  have : ¬ (binaryZv n).length ≤ (binaryZv n).length - 1 := by
    have : (binaryZv n).length ≠ 0 := by rw [binaryZv_pos h]; simp
    omega
  have := h1.1 this
  omega

end Ecgen.Bits
