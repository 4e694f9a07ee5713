import Verif.Sha1.Spec

namespace Ecgen.Sha1

theorem rot_eq (x : Word) (n : Nat) (h : n < 32) : rot x n = Spec.rotl n x := by
  unfold rot Spec.rotl
  rw [BitVec.rotateLeft_def, Nat.mod_eq_of_lt h]

theorem ch_eq (x y z : Word) : ((y ^^^ z) &&& x) ^^^ z = (x &&& y) ^^^ (~~~ x &&& z) := by
  ext i hi
  simp only [BitVec.getElem_xor, BitVec.getElem_and, BitVec.getElem_not]
  cases x[i] <;> cases y[i] <;> cases z[i] <;> rfl

theorem maj_eq (x y z : Word) :
    (x &&& y) ||| (z &&& (x ||| y)) = (x &&& y) ^^^ (x &&& z) ^^^ (y &&& z) := by
  ext i hi
  simp only [BitVec.getElem_xor, BitVec.getElem_and, BitVec.getElem_or]
  cases x[i] <;> cases y[i] <;> cases z[i] <;> rfl

/-! ### schedule -/

theorem schedule_fold (W : Nat → Word) (n : Nat) (M : Nat → Word) (hM : ∀ t, t < 16 → W t = M t) :
    ∀ t, t < 16 + n → ((List.range' 16 n).foldl
      (fun W t => upd W t (rot (W (t - 3) ^^^ W (t - 8) ^^^ W (t - 14) ^^^ W (t - 16)) 1)) W) t =
        Spec.W M t := by
  induction n with
  | zero =>
    intro t ht
    rw [Spec.W, if_pos (by omega)]
    exact hM t (by omega)
  | succ n ih =>
    intro t ht
    rw [List.range'_concat, List.foldl_append]
    simp only [List.foldl_cons, List.foldl_nil, Nat.one_mul]
    rw [upd]
    by_cases h : t = 16 + n
    · rw [if_pos h, h, ih _ (by omega), ih _ (by omega), ih _ (by omega), ih _ (by omega),
        rot_eq _ _ (by omega)]
      conv => rhs; rw [Spec.W, if_neg (by omega)]
    · rw [if_neg h]
      exact ih t (by omega)

theorem schedule_eq (W M : Nat → Word) (hM : ∀ t, t < 16 → W t = M t) (t : Nat) (ht : t < 80) :
    schedule W t = Spec.W M t := schedule_fold W 64 M hM t (by omega)

/-! ### rounds -/

theorem foldl_congr_mem {α β : Type} (f g : α → β → α) (l : List β) (a : α)
    (h : ∀ a, ∀ b ∈ l, f a b = g a b) : l.foldl f a = l.foldl g a := by
  induction l generalizing a with
  | nil => rfl
  | cons b l ih =>
    rw [List.foldl_cons, List.foldl_cons, h a b (by simp), ih _ (fun a c hc => h a c (by simp [hc]))]

theorem round_eq (f : Word → Word → Word → Word) (k : Word) (W M : Nat → Word) (s : Hash) (t : Nat)
    (hW : W t = Spec.W M t) (hk : k = Spec.K t) (hf : ∀ x y z, f x y z = Spec.f t x y z) :
    round f k W s t = Spec.round M s t := by
  unfold round Spec.round
  rw [hW, hk, hf, rot_eq _ _ (by omega), rot_eq _ _ (by omega)]
  simp only [Hash.mk.injEq, and_true]
  rw [BitVec.add_assoc (_ + _ + _) (Spec.W M t), BitVec.add_comm (Spec.W M t), ← BitVec.add_assoc]

theorem hashBlock_eq (H : Hash) (W M : Nat → Word) (hM : ∀ t, t < 16 → W t = M t) :
    (hashBlock H W).1 = Spec.compress H M := by
  have hs := schedule_eq W M hM
  have hsplit : List.range 80 = List.range' 0 20 ++ List.range' 20 20 ++ List.range' 40 20 ++
      List.range' 60 20 := by decide
  unfold hashBlock Spec.compress
  simp only
  rw [hsplit]
  simp only [List.foldl_append]
  have l1 : ∀ a : Hash, (List.range' 0 20).foldl
      (round (fun b c d => ((c ^^^ d) &&& b) ^^^ d) 0x5a827999 (schedule W)) a =
      (List.range' 0 20).foldl (Spec.round M) a := by
    intro a
    apply foldl_congr_mem
    intro s t ht
    rw [List.mem_range'_1] at ht
    apply round_eq
    · exact hs t (by omega)
    · simp only [Spec.K, if_pos (show t < 20 by omega)]
    · intro x y z
      simp only [Spec.f, if_pos (show t < 20 by omega), ch_eq]
  have l2 : ∀ a : Hash, (List.range' 20 20).foldl
      (round (fun b c d => b ^^^ c ^^^ d) 0x6ed9eba1 (schedule W)) a =
      (List.range' 20 20).foldl (Spec.round M) a := by
    intro a
    apply foldl_congr_mem
    intro s t ht
    rw [List.mem_range'_1] at ht
    apply round_eq
    · exact hs t (by omega)
    · simp only [Spec.K, if_neg (show ¬ t < 20 by omega), if_pos (show t < 40 by omega)]
    · intro x y z
      simp only [Spec.f, if_neg (show ¬ t < 20 by omega), if_pos (show t < 40 by omega)]
  have l3 : ∀ a : Hash, (List.range' 40 20).foldl
      (round (fun b c d => (b &&& c) ||| (d &&& (b ||| c))) 0x8f1bbcdc (schedule W)) a =
      (List.range' 40 20).foldl (Spec.round M) a := by
    intro a
    apply foldl_congr_mem
    intro s t ht
    rw [List.mem_range'_1] at ht
    apply round_eq
    · exact hs t (by omega)
    · simp only [Spec.K, if_neg (show ¬ t < 20 by omega), if_neg (show ¬ t < 40 by omega),
        if_pos (show t < 60 by omega)]
    · intro x y z
      simp only [Spec.f, if_neg (show ¬ t < 20 by omega), if_neg (show ¬ t < 40 by omega),
        if_pos (show t < 60 by omega), maj_eq]
  have l4 : ∀ a : Hash, (List.range' 60 20).foldl
      (round (fun b c d => b ^^^ c ^^^ d) 0xca62c1d6 (schedule W)) a =
      (List.range' 60 20).foldl (Spec.round M) a := by
    intro a
    apply foldl_congr_mem
    intro s t ht
    rw [List.mem_range'_1] at ht
    apply round_eq
    · exact hs t (by omega)
    · simp only [Spec.K, if_neg (show ¬ t < 20 by omega), if_neg (show ¬ t < 40 by omega),
        if_neg (show ¬ t < 60 by omega)]
    · intro x y z
      simp only [Spec.f, if_neg (show ¬ t < 20 by omega), if_neg (show ¬ t < 40 by omega),
        if_neg (show ¬ t < 60 by omega)]
  rw [l1, l2, l3, l4]
  simp only [Hash.mk.injEq]
  refine ⟨?_, ?_, ?_, ?_, ?_⟩ <;> exact BitVec.add_comm _ _

/-! ### words -/

/-- shifting bytes into a word -/
def absorb (g : Word) (bs : List Byte) : Word := bs.foldl (fun w b => (w <<< 8) ||| b.setWidth 32) g

theorem absorb_bit (w : Word) (b : Byte) (i : Nat) (hi : i < 32) :
    ((w <<< 8) ||| b.setWidth 32).getLsbD i = if i < 8 then b.getLsbD i else w.getLsbD (i - 8) := by
  rw [BitVec.getLsbD_or, BitVec.getLsbD_shiftLeft, BitVec.getLsbD_setWidth]
  by_cases h : i < 8
  · simp [h, hi]
  · rw [BitVec.getLsbD_of_ge b i (by omega)]
    simp [h, hi]

theorem absorb_four (g : Word) (a b c d : Byte) :
    absorb g [a, b, c, d] = (a ++ b ++ c ++ d : BitVec 32) := by
  apply BitVec.eq_of_getLsbD_eq
  intro i hi
  simp only [absorb, List.foldl_cons, List.foldl_nil]
  rw [absorb_bit _ _ _ hi, BitVec.getLsbD_append]
  by_cases h1 : i < 8
  · simp [h1]
  · rw [if_neg h1, absorb_bit _ _ _ (by omega), BitVec.getLsbD_append]
    rw [if_neg h1]
    by_cases h2 : i - 8 < 8
    · simp [h2]
    · rw [if_neg h2, absorb_bit _ _ _ (by omega), BitVec.getLsbD_append]
      rw [if_neg h2]
      by_cases h3 : i - 8 - 8 < 8
      · simp [h3]
      · rw [if_neg h3, absorb_bit _ _ _ (by omega)]
        rw [if_neg h3, if_pos (by omega)]

/-! ### the invariant -/

/-- bytes of `m` in complete blocks -/
def fullLen (m : List Byte) : Nat := 64 * (m.length / 64)

/-- The context has absorbed exactly the message `m`. -/
structure Inv (c : Ctx) (m : List Byte) : Prop where
  lenW : c.lenW = m.length % 64
  size : (c.sizeHi.toNat * 2 ^ 32 + c.sizeLo.toNat) = 8 * m.length % 2 ^ 64
  hash : c.H = Spec.process Spec.H0 (m.take (fullLen m))
  buf : ∃ g : Nat → Word, ∀ i, i < 16 →
    c.W i = absorb (g i) (((m.drop (fullLen m)).drop (4 * i)).take 4)

theorem process_short (H : Hash) (m : List Byte) (h : m.length < 64) : Spec.process H m = H := by
  rw [Spec.process, if_pos h]

theorem process_append (H : Hash) (m blk : List Byte) (hm : m.length % 64 = 0) (hb : blk.length = 64) :
    Spec.process H (m ++ blk) = Spec.compress (Spec.process H m) (Spec.word blk) := by
  generalize hk : m.length / 64 = k
  induction k generalizing H m with
  | zero =>
    have : m = [] := by apply List.eq_nil_of_length_eq_zero; omega
    subst this
    rw [List.nil_append, Spec.process, if_neg (by omega), process_short _ [] (by simp),
      process_short _ _ (by rw [List.length_drop]; omega), List.take_of_length_le (by omega)]
  | succ k ih =>
    rw [Spec.process, if_neg (by rw [List.length_append]; omega), List.take_append_of_le_length (by omega),
      List.drop_append_of_le_length (by omega)]
    rw [ih _ _ (by rw [List.length_drop]; omega) (by rw [List.length_drop]; omega)]
    conv => rhs; rw [Spec.process, if_neg (by omega)]

theorem inv_init : Inv init [] where
  lenW := rfl
  size := rfl
  hash := by rw [process_short _ _ (by simp)]; rfl
  buf := ⟨fun _ => 0, by intro i _; simp [absorb, init]⟩

theorem size_nat (x y n : Nat) (hx : x < 4294967296) (hy : y < 4294967296)
    (h : x * 4294967296 + y = 8 * n % 18446744073709551616) :
    (x + (if (y + 8) % 4294967296 < 8 then 1 else 0)) % 4294967296 * 4294967296 +
      (y + 8) % 4294967296 = 8 * (n + 1) % 18446744073709551616 := by
  have e : 8 * (n + 1) % 18446744073709551616 =
      (x * 4294967296 + y + 8) % 18446744073709551616 := by
    rw [h, Nat.mod_add_mod]; rfl
  rw [e]
  clear h e
  by_cases hc : y + 8 < 4294967296
  · rw [Nat.mod_eq_of_lt hc, if_neg (by omega), Nat.add_zero, Nat.mod_eq_of_lt hx,
      Nat.mod_eq_of_lt (by omega)]
    omega
  · have e2 : (y + 8) % 4294967296 = y + 8 - 4294967296 := by
      rw [Nat.mod_eq_sub_mod (by omega), Nat.mod_eq_of_lt (by omega)]
    rw [e2, if_pos (by omega)]
    by_cases hx1 : x + 1 < 4294967296
    · rw [Nat.mod_eq_of_lt hx1, Nat.mod_eq_of_lt (by omega)]
      omega
    · have : x = 4294967295 := by omega
      subst this
      have e3 : 4294967295 * 4294967296 + y + 8 = 18446744073709551616 + (y + 8 - 4294967296) := by
        omega
      rw [e3, Nat.add_mod_left, Nat.mod_eq_of_lt (show y + 8 - 4294967296 < _ by omega),
        show (4294967295 + 1) % 4294967296 = 0 from rfl, Nat.zero_mul, Nat.zero_add]

theorem size_step (hi lo : Word) (n : Nat)
    (h : hi.toNat * 2 ^ 32 + lo.toNat = 8 * n % 2 ^ 64) :
    (hi + (if lo + 8 < 8 then 1 else 0)).toNat * 2 ^ 32 + (lo + 8).toNat = 8 * (n + 1) % 2 ^ 64 := by
  have e8 : (8 : Word).toNat = 8 := rfl
  have hlt : lo + 8 < 8 ↔ (lo.toNat + 8) % 2 ^ 32 < 8 := by
    rw [BitVec.lt_def, BitVec.toNat_add, e8]
  have hb : (if lo + 8 < 8 then (1 : Word) else 0).toNat =
      if (lo.toNat + 8) % 2 ^ 32 < 8 then 1 else 0 := by
    by_cases hc : (lo.toNat + 8) % 2 ^ 32 < 8
    · rw [if_pos hc, if_pos (hlt.2 hc)]; rfl
    · rw [if_neg hc, if_neg (fun hh => hc (hlt.1 hh))]; rfl
  rw [BitVec.toNat_add hi, BitVec.toNat_add lo, hb, e8]
  exact size_nat hi.toNat lo.toNat n hi.isLt lo.isLt h

theorem take4_snoc (r : List Byte) (b : Byte) (i : Nat) :
    (((r ++ [b]).drop (4 * i)).take 4) =
      if i = r.length / 4 then ((r.drop (4 * i)).take 4) ++ [b] else ((r.drop (4 * i)).take 4) := by
  by_cases h : i = r.length / 4
  · rw [if_pos h]
    have hl : (r.drop (4 * i)).length < 4 := by rw [List.length_drop]; omega
    rw [List.drop_append_of_le_length (by omega), List.take_of_length_le (by simp; omega),
      List.take_of_length_le (by omega)]
  · rw [if_neg h]
    by_cases h2 : i < r.length / 4
    · rw [List.drop_append_of_le_length (by omega), List.take_append_of_le_length (by
        rw [List.length_drop]; omega)]
    · rw [List.drop_eq_nil_of_le (by simp; omega), List.drop_eq_nil_of_le (by omega)]

theorem inv_feed (c : Ctx) (m : List Byte) (b : Byte) (h : Inv c m) : Inv (feed c b) (m ++ [b]) := by
  obtain ⟨g, hg⟩ := h.buf
  have hlen := h.lenW
  have hrl : (m.drop (fullLen m)).length = c.lenW := by
    rw [List.length_drop, fullLen, hlen]; omega
  -- the buffer after storing the byte
  have hW : ∀ i, i < 16 → upd c.W (c.lenW / 4) ((c.W (c.lenW / 4) <<< 8) ||| b.setWidth 32) i =
      absorb (g i) (((m.drop (fullLen m) ++ [b]).drop (4 * i)).take 4) := by
    intro i hi
    rw [take4_snoc, hrl]
    unfold upd
    by_cases hii : i = c.lenW / 4
    · rw [if_pos hii, if_pos hii, ← hii, hg i hi]
      simp [absorb]
    · rw [if_neg hii, if_neg hii, hg i hi]
  unfold feed
  by_cases h64 : (c.lenW + 1) % 64 = 0
  · simp only [if_pos h64]
    have hfull : fullLen (m ++ [b]) = m.length + 1 := by
      unfold fullLen; rw [List.length_append, List.length_singleton]; omega
    have hfm : fullLen m + 64 = m.length + 1 := by unfold fullLen; omega
    refine ⟨?_, ?_, ?_, ?_⟩
    · simp; omega
    · simp only [List.length_append, List.length_singleton]
      exact size_step _ _ _ h.size
    · simp only
      rw [hfull, List.take_of_length_le (by simp)]
      have hsplit : m ++ [b] = m.take (fullLen m) ++ (m.drop (fullLen m) ++ [b]) := by
        rw [← List.append_assoc, List.take_append_drop]
      have hbl : (m.drop (fullLen m) ++ [b]).length = 64 := by
        rw [List.length_append, hrl, List.length_singleton]; omega
      rw [hsplit, process_append _ _ _ (by rw [List.length_take]; unfold fullLen; omega) hbl,
        ← h.hash]
      apply hashBlock_eq
      intro t ht
      rw [hW t ht]
      generalize m.drop (fullLen m) ++ [b] = blk at hbl
      have : (blk.drop (4 * t)).take 4 = [blk.getD (4 * t) 0, blk.getD (4 * t + 1) 0,
          blk.getD (4 * t + 2) 0, blk.getD (4 * t + 3) 0] := by
        apply List.ext_getElem
        · rw [List.length_take, List.length_drop]; simp; omega
        · intro j h1 h2
          simp only [List.getElem_take, List.getElem_drop]
          have hj : j < 4 := by simpa using h2
          rcases (show j = 0 ∨ j = 1 ∨ j = 2 ∨ j = 3 by omega) with rfl | rfl | rfl | rfl
          all_goals simp only [List.getElem_cons_zero, List.getElem_cons_succ, List.getD_eq_getElem?_getD]
          all_goals rw [List.getElem?_eq_getElem (by omega)]; rfl
      rw [this, absorb_four]
      rfl
    · refine ⟨fun i => (hashBlock c.H (upd c.W (c.lenW / 4)
        ((c.W (c.lenW / 4) <<< 8) ||| b.setWidth 32))).2 i, ?_⟩
      intro i _
      rw [hfull, List.drop_eq_nil_of_le (by simp)]
      simp [absorb]
  · simp only [if_neg h64]
    have hfull : fullLen (m ++ [b]) = fullLen m := by
      unfold fullLen; rw [List.length_append, List.length_singleton]; omega
    have hle : fullLen m ≤ m.length := by unfold fullLen; omega
    refine ⟨?_, ?_, ?_, ?_⟩
    · simp only [List.length_append, List.length_singleton]; omega
    · simp only [List.length_append, List.length_singleton]
      exact size_step _ _ _ h.size
    · rw [hfull, List.take_append_of_le_length hle]
      exact h.hash
    · refine ⟨g, ?_⟩
      intro i hi
      rw [hfull, List.drop_append_of_le_length hle]
      exact hW i hi

theorem inv_update (c : Ctx) (m data : List Byte) (h : Inv c m) : Inv (update c data) (m ++ data) := by
  induction data generalizing c m with
  | nil => simpa [update] using h
  | cons b data ih =>
    have := ih (feed c b) (m ++ [b]) (inv_feed c m b h)
    simpa [update] using this

/-! ### finalisation -/

theorem inv_pad (k : Nat) (c : Ctx) (m : List Byte) (fuel : Nat) (h : Inv c m)
    (hk : (m.length + k) % 64 = 56) (hk64 : k < 64) (hf : k ≤ fuel) :
    ∃ c', padLoop fuel c = some c' ∧ Inv c' (m ++ List.replicate k 0) := by
  induction k generalizing c m fuel with
  | zero =>
    refine ⟨c, ?_, by simpa using h⟩
    have := h.lenW
    cases fuel <;> simp [padLoop] <;> omega
  | succ k ih =>
    cases fuel with
    | zero => omega
    | succ fuel =>
      have hl := h.lenW
      have hne : c.lenW ≠ 56 := by omega
      rw [padLoop, if_neg hne]
      obtain ⟨c', h1, h2⟩ := ih (update c [0x00]) (m ++ [0x00]) fuel (inv_update c m [0x00] h)
        (by rw [List.length_append, List.length_singleton]; omega) (by omega) (by omega)
      refine ⟨c', h1, ?_⟩
      rw [List.append_assoc] at h2
      exact h2

theorem byteOf_toNat (x : Word) (n : Nat) : byteOf x n = BitVec.ofNat 8 (x.toNat / 2 ^ n % 256) := by
  apply BitVec.eq_of_toNat_eq
  unfold byteOf
  rw [BitVec.toNat_setWidth, BitVec.toNat_and, BitVec.toNat_ushiftRight, BitVec.toNat_ofNat]
  have : (255 : Word).toNat = 2 ^ 8 - 1 := rfl
  rw [this, Nat.and_two_pow_sub_one_eq_mod, Nat.shiftRight_eq_div_pow]

theorem be_padlen (hi lo : Word) (n : Nat) (h : hi.toNat * 2 ^ 32 + lo.toNat = n) :
    [byteOf hi 24, byteOf hi 16, byteOf hi 8, byteOf hi 0,
      byteOf lo 24, byteOf lo 16, byteOf lo 8, byteOf lo 0] = Spec.be 8 n := by
  have h1 := hi.isLt
  have h2 := lo.isLt
  simp only [byteOf_toNat, Spec.be, List.nil_append, List.cons_append]
  subst h
  refine congr (congrArg _ ?_) (congr (congrArg _ ?_) (congr (congrArg _ ?_) (congr (congrArg _ ?_)
    (congr (congrArg _ ?_) (congr (congrArg _ ?_) (congr (congrArg _ ?_) (congr (congrArg _ ?_) rfl)))))))
  all_goals
    congr 1
    omega

theorem top_byte (h : Word) (k : Nat) (hk : k < 4) :
    ((h <<< (8 * k)) >>> 24).setWidth 8 = BitVec.ofNat 8 (h.toNat / 2 ^ (24 - 8 * k) % 256) := by
  apply BitVec.eq_of_toNat_eq
  have hl := h.isLt
  rw [BitVec.toNat_setWidth, BitVec.toNat_ushiftRight, BitVec.toNat_shiftLeft, BitVec.toNat_ofNat,
    Nat.shiftRight_eq_div_pow, Nat.shiftLeft_eq]
  rcases (show k = 0 ∨ k = 1 ∨ k = 2 ∨ k = 3 by omega) with rfl | rfl | rfl | rfl <;> omega

theorem outWord_eq (h : Word) : outWord h = Spec.be 4 h.toNat := by
  have h0 := top_byte h 0 (by omega)
  have h1 := top_byte h 1 (by omega)
  have h2 := top_byte h 2 (by omega)
  have h3 := top_byte h 3 (by omega)
  simp only [Nat.mul_zero, BitVec.shiftLeft_zero, Nat.mul_one, Nat.reduceMul] at h0 h1 h2 h3
  have e2 : (h <<< 8) <<< 8 = h <<< 16 := by rw [← BitVec.shiftLeft_add]
  have e3 : (h <<< 16) <<< 8 = h <<< 24 := by rw [← BitVec.shiftLeft_add]
  unfold outWord
  rw [e2, e3, h0, h1, h2, h3]
  simp only [Spec.be, List.nil_append, List.cons_append]
  refine congr (congrArg _ ?_) (congr (congrArg _ ?_) (congr (congrArg _ ?_) (congr (congrArg _ ?_) rfl)))
  all_goals
    congr 1
    try omega

end Ecgen.Sha1
