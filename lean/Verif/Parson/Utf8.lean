import Verif.Parson.Model

/-!
# `is_valid_utf8` accepts the UTF-8 encodings of sequences of characters
-/

namespace Ecgen.Parson

theorem all_bytes (p : Byte → Prop) (h : ∀ n : Fin 256, p (UInt8.ofNat n)) (b : Byte) : p b := by
  have := h ⟨b.toNat, b.toNat_lt⟩
  simpa using this

theorem isCont_iff (b : Byte) : isCont b = decide (128 ≤ b.toNat ∧ b.toNat < 192) := by
  revert b
  apply all_bytes
  decide +kernel

theorem numBytes_eq (b : Byte) : numBytes b =
    if b.toNat < 128 then 1 else if b.toNat < 194 then 0 else if b.toNat < 224 then 2 else if b.toNat < 240 then 3
    else if b.toNat < 245 then 4 else 0 := by
  revert b
  apply all_bytes
  decide +kernel

theorem mask_five (b : Byte) : (b &&& 0x1F).toNat = b.toNat % 32 := by
  revert b
  apply all_bytes
  decide +kernel

theorem mask_four (b : Byte) : (b &&& 0xF).toNat = b.toNat % 16 := by
  revert b
  apply all_bytes
  decide +kernel

theorem mask_three (b : Byte) : (b &&& 0x7).toNat = b.toNat % 8 := by
  revert b
  apply all_bytes
  decide +kernel

theorem mask_six (b : Byte) : (b &&& 0x3F).toNat = b.toNat % 64 := by
  revert b
  apply all_bytes
  decide +kernel

theorem shift_or (cp : Nat) (d : Byte) : cp <<< 6 ||| (d &&& 0x3F).toNat = cp * 64 + d.toNat % 64 := by
  rw [mask_six, ← Nat.shiftLeft_add_eq_or_of_lt (show d.toNat % 64 < 2 ^ 6 by omega), Nat.shiftLeft_eq]

theorem peek_zero (b : Byte) (s : List Byte) : peek (b :: s) 0 = .ok b := rfl

theorem peek_succ (b : Byte) (s : List Byte) (i : Nat) : peek (b :: s) (i + 1) = peek s i := by
  simp [peek]

theorem peek_nil : peek [] 0 = .ok 0 := rfl

/-- the value of one continuation byte is looked at -/
theorem conts_nil (s : List Byte) (i : Nat) (is : List Nat) (h : peek s i = .ok 0) : conts s (i :: is) = .ok false := by
  simp [conts, h, bind, Except.bind, isCont]

theorem conts_cons (s : List Byte) (i : Nat) (is : List Nat) (c : Byte) (h : peek s i = .ok c) :
    conts s (i :: is) = if isCont c then conts s is else .ok false := by
  simp [conts, h, bind, Except.bind]

theorem verify_one (b : Byte) (s : List Byte) (h : b.toNat < 128) : verifySeq (b :: s) = .ok (true, 1) := by
  have hn : numBytes b = 1 := by rw [numBytes_eq, if_pos h]
  simp only [verifySeq, peek_zero, bind, Except.bind, hn, if_true, pure, Except.pure, Except.ok.injEq, Prod.mk.injEq, and_true]
  simp only [cpOk]
  rw [if_neg (by omega), if_neg (by omega), if_neg (by omega)]

/-- continuation bytes from the second on, as far as they are needed -/
theorem verify_two (b : Byte) (s : List Byte) (h : 194 ≤ b.toNat) (h' : b.toNat < 224) :
    verifySeq (b :: s) = .ok (match s with
      | c :: _ => if 128 ≤ c.toNat ∧ c.toNat < 192 then (cpOk (b.toNat % 32 * 64 + c.toNat % 64) 2, 2) else (false, 2)
      | [] => (false, 2)) := by
  have hn : numBytes b = 2 := by rw [numBytes_eq, if_neg (by omega), if_neg (by omega), if_pos h']
  simp only [verifySeq, peek_zero, bind, Except.bind, hn, pure, Except.pure]
  match s with
  | [] =>
    simp [conts_nil [b] 1 [] rfl]
  | c :: s =>
    rw [conts_cons _ 1 [] c rfl]
    by_cases hc : 128 ≤ c.toNat ∧ c.toNat < 192
    · simp [isCont_iff, hc, conts, codePoint, peek_zero, peek_succ, bind, Except.bind, -UInt8.toNat_and, shift_or, mask_five, pure, Except.pure]
    · simp [isCont_iff, hc]

theorem verify_three (b : Byte) (s : List Byte) (h : 224 ≤ b.toNat) (h' : b.toNat < 240) :
    verifySeq (b :: s) = .ok (match s with
      | c :: d :: _ =>
        if (128 ≤ c.toNat ∧ c.toNat < 192) ∧ (128 ≤ d.toNat ∧ d.toNat < 192) then
          (cpOk ((b.toNat % 16 * 64 + c.toNat % 64) * 64 + d.toNat % 64) 3, 3) else (false, 3)
      | _ => (false, 3)) := by
  have hn : numBytes b = 3 := by rw [numBytes_eq, if_neg (by omega), if_neg (by omega), if_neg (by omega), if_pos h']
  simp only [verifySeq, peek_zero, bind, Except.bind, hn, pure, Except.pure]
  match s with
  | [] => simp [conts_nil [b] 1 [2] rfl]
  | [c] =>
    rw [conts_cons _ 1 [2] c rfl, conts_nil [b, c] 2 [] rfl]
    by_cases hc : 128 ≤ c.toNat ∧ c.toNat < 192 <;> simp [isCont_iff, hc]
  | c :: d :: s =>
    rw [conts_cons _ 1 [2] c rfl, conts_cons _ 2 [] d rfl]
    by_cases hc : 128 ≤ c.toNat ∧ c.toNat < 192
    · by_cases hd : 128 ≤ d.toNat ∧ d.toNat < 192
      · simp [isCont_iff, hc, hd, conts, codePoint, peek_zero, peek_succ, bind, Except.bind, -UInt8.toNat_and, shift_or, mask_four, pure, Except.pure,
          show peek (b :: c :: d :: s) 2 = .ok d from rfl]
      · simp [isCont_iff, hc, hd]
    · simp [isCont_iff, hc]

theorem verify_four (b : Byte) (s : List Byte) (h : 240 ≤ b.toNat) (h' : b.toNat < 245) :
    verifySeq (b :: s) = .ok (match s with
      | c :: d :: e :: _ =>
        if (128 ≤ c.toNat ∧ c.toNat < 192) ∧ (128 ≤ d.toNat ∧ d.toNat < 192) ∧ (128 ≤ e.toNat ∧ e.toNat < 192) then
          (cpOk (((b.toNat % 8 * 64 + c.toNat % 64) * 64 + d.toNat % 64) * 64 + e.toNat % 64) 4, 4) else (false, 4)
      | _ => (false, 4)) := by
  have hn : numBytes b = 4 := by
    rw [numBytes_eq, if_neg (by omega), if_neg (by omega), if_neg (by omega), if_neg (by omega), if_pos h']
  simp only [verifySeq, peek_zero, bind, Except.bind, hn, pure, Except.pure]
  match s with
  | [] => simp [conts_nil [b] 1 [2, 3] rfl]
  | [c] =>
    rw [conts_cons _ 1 [2, 3] c rfl, conts_nil [b, c] 2 [3] rfl]
    by_cases hc : 128 ≤ c.toNat ∧ c.toNat < 192 <;> simp [isCont_iff, hc]
  | [c, d] =>
    rw [conts_cons _ 1 [2, 3] c rfl, conts_cons _ 2 [3] d rfl, conts_nil [b, c, d] 3 [] rfl]
    by_cases hc : 128 ≤ c.toNat ∧ c.toNat < 192 <;> by_cases hd : 128 ≤ d.toNat ∧ d.toNat < 192 <;> simp [isCont_iff, hc, hd]
  | c :: d :: e :: s =>
    rw [conts_cons _ 1 [2, 3] c rfl, conts_cons _ 2 [3] d rfl, conts_cons _ 3 [] e rfl]
    by_cases hc : 128 ≤ c.toNat ∧ c.toNat < 192
    · by_cases hd : 128 ≤ d.toNat ∧ d.toNat < 192
      · by_cases he : 128 ≤ e.toNat ∧ e.toNat < 192
        · simp [isCont_iff, hc, hd, he, conts, codePoint, peek_zero, peek_succ, bind, Except.bind, -UInt8.toNat_and, shift_or, mask_three, pure, Except.pure,
            show peek (b :: c :: d :: e :: s) 2 = .ok d from rfl, show peek (b :: c :: d :: e :: s) 3 = .ok e from rfl]
        · simp [isCont_iff, hc, hd, he]
      · simp [isCont_iff, hc, hd]
    · simp [isCont_iff, hc]

theorem verify_bad (b : Byte) (s : List Byte) (h : 128 ≤ b.toNat ∧ b.toNat < 194 ∨ 245 ≤ b.toNat) : verifySeq (b :: s) = .ok (false, 0) := by
  have hn : numBytes b = 0 := by
    rw [numBytes_eq]
    rcases h with h | h
    · rw [if_neg (by omega), if_pos (by omega)]
    · rw [if_neg (by omega), if_neg (by omega), if_neg (by omega), if_neg (by omega), if_neg (by omega)]
  simp [verifySeq, peek_zero, bind, Except.bind, hn, pure, Except.pure]

theorem byte_cases (b : Byte) : b.toNat < 128 ∨ (194 ≤ b.toNat ∧ b.toNat < 224) ∨ (224 ≤ b.toNat ∧ b.toNat < 240) ∨
    (240 ≤ b.toNat ∧ b.toNat < 245) ∨ (128 ≤ b.toNat ∧ b.toNat < 194 ∨ 245 ≤ b.toNat) := by omega

theorem verify_total (b : Byte) (s : List Byte) : ∃ r, verifySeq (b :: s) = .ok r := by
  rcases byte_cases b with h | h | h | h | h
  · exact ⟨_, verify_one b s h⟩
  · exact ⟨_, verify_two b s h.1 h.2⟩
  · exact ⟨_, verify_three b s h.1 h.2⟩
  · exact ⟨_, verify_four b s h.1 h.2⟩
  · exact ⟨_, verify_bad b s h⟩

theorem cpOk_iff (cp len : Nat) : cpOk cp len = true ↔ (1 < len → 0x80 ≤ cp) ∧ (2 < len → 0x800 ≤ cp) ∧ (3 < len → 0x10000 ≤ cp) ∧
    cp ≤ 0x10FFFF ∧ ¬(0xD800 ≤ cp ∧ cp ≤ 0xDFFF) := by
  unfold cpOk
  split
  · simp only [Bool.false_eq_true, false_iff]; omega
  · split
    · simp only [Bool.false_eq_true, false_iff]; omega
    · split
      · simp only [Bool.false_eq_true, false_iff]; omega
      · simp only [true_iff]; omega

theorem char_toNat (n : Nat) (h : n ≤ 0x10FFFF) (h' : ¬(0xD800 ≤ n ∧ n ≤ 0xDFFF)) : ∃ c : Char, c.val.toNat = n := by
  refine ⟨Char.ofNat n, ?_⟩
  have hv : n.isValidChar := by
    unfold Nat.isValidChar
    omega
  simp only [Char.ofNat, hv, dif_pos]
  rfl

theorem ofNat_eq (n : Nat) (b : Byte) (h : n = b.toNat) : UInt8.ofNat n = b := by
  subst h
  simp

theorem enc_one (c : Char) (h : c.val.toNat ≤ 0x7f) : String.utf8EncodeChar c = [UInt8.ofNat c.val.toNat] := by
  simp only [String.utf8EncodeChar]
  rw [if_pos h]

theorem enc_two (c : Char) (h : 0x7f < c.val.toNat) (h' : c.val.toNat ≤ 0x7ff) :
    String.utf8EncodeChar c = [UInt8.ofNat (c.val.toNat / 64 % 32 + 192), UInt8.ofNat (c.val.toNat % 64 + 128)] := by
  simp only [String.utf8EncodeChar]
  rw [if_neg (by omega), if_pos h']

theorem enc_three (c : Char) (h : 0x7ff < c.val.toNat) (h' : c.val.toNat ≤ 0xffff) :
    String.utf8EncodeChar c = [UInt8.ofNat (c.val.toNat / 4096 % 16 + 224), UInt8.ofNat (c.val.toNat / 64 % 64 + 128),
      UInt8.ofNat (c.val.toNat % 64 + 128)] := by
  simp only [String.utf8EncodeChar]
  rw [if_neg (by omega), if_neg (by omega), if_pos h']

theorem enc_four (c : Char) (h : 0xffff < c.val.toNat) :
    String.utf8EncodeChar c = [UInt8.ofNat (c.val.toNat / 262144 % 8 + 240), UInt8.ofNat (c.val.toNat / 4096 % 64 + 128),
      UInt8.ofNat (c.val.toNat / 64 % 64 + 128), UInt8.ofNat (c.val.toNat % 64 + 128)] := by
  simp only [String.utf8EncodeChar]
  rw [if_neg (by omega), if_neg (by omega), if_neg (by omega)]

theorem verify_sound (b : Byte) (s : List Byte) (len : Nat) (h : verifySeq (b :: s) = .ok (true, len)) :
    ∃ c : Char, b :: s = String.utf8EncodeChar c ++ (b :: s).drop len ∧ len ≠ 0 := by
  rcases byte_cases b with hb | hb | hb | hb | hb
  · rw [verify_one b s hb] at h
    obtain ⟨c, hc⟩ := char_toNat b.toNat (by omega) (by omega)
    simp only [Except.ok.injEq, Prod.mk.injEq, true_and] at h
    subst h
    refine ⟨c, ?_, by omega⟩
    rw [enc_one c (by omega), hc]
    simp
  · rw [verify_two b s hb.1 hb.2] at h
    match s, h with
    | [], h => simp at h
    | x :: s, h =>
      simp only [Except.ok.injEq] at h
      split at h
      · rename_i hx
        simp only [Prod.mk.injEq] at h
        obtain ⟨hk, rfl⟩ := h
        rw [cpOk_iff] at hk
        obtain ⟨c, hc⟩ := char_toNat _ hk.2.2.2.1 hk.2.2.2.2
        refine ⟨c, ?_, by omega⟩
        have h1 := hk.1
        rw [enc_two c (by omega) (by omega), ofNat_eq _ b (by omega), ofNat_eq _ x (by omega)]
        simp
      · simp at h
  · rw [verify_three b s hb.1 hb.2] at h
    match s, h with
    | [], h => simp at h
    | [x], h => simp at h
    | x :: y :: s, h =>
      simp only [Except.ok.injEq] at h
      split at h
      · rename_i hx
        simp only [Prod.mk.injEq] at h
        obtain ⟨hk, rfl⟩ := h
        rw [cpOk_iff] at hk
        obtain ⟨c, hc⟩ := char_toNat _ hk.2.2.2.1 hk.2.2.2.2
        refine ⟨c, ?_, by omega⟩
        have h1 := hk.2.1
        rw [enc_three c (by omega) (by omega), ofNat_eq _ b (by omega), ofNat_eq _ x (by omega), ofNat_eq _ y (by omega)]
        simp
      · simp at h
  · rw [verify_four b s hb.1 hb.2] at h
    match s, h with
    | [], h => simp at h
    | [x], h => simp at h
    | [x, y], h => simp at h
    | x :: y :: z :: s, h =>
      simp only [Except.ok.injEq] at h
      split at h
      · rename_i hx
        simp only [Prod.mk.injEq] at h
        obtain ⟨hk, rfl⟩ := h
        rw [cpOk_iff] at hk
        obtain ⟨c, hc⟩ := char_toNat _ hk.2.2.2.1 hk.2.2.2.2
        refine ⟨c, ?_, by omega⟩
        have h1 := hk.2.2.1
        rw [enc_four c (by omega), ofNat_eq _ b (by omega), ofNat_eq _ x (by omega), ofNat_eq _ y (by omega), ofNat_eq _ z (by omega)]
        simp
      · simp at h
  · rw [verify_bad b s hb] at h
    simp at h

theorem toNat_of (n : Nat) (h : n < 256) : (UInt8.ofNat n).toNat = n := by
  simp only [UInt8.toNat_ofNat']
  omega

theorem char_valid (c : Char) : c.val.toNat ≤ 0x10FFFF ∧ ¬(0xD800 ≤ c.val.toNat ∧ c.val.toNat ≤ 0xDFFF) := by
  have h : c.val.toNat < 0xd800 ∨ (0xdfff < c.val.toNat ∧ c.val.toNat < 0x110000) := c.valid
  omega

theorem verify_complete (c : Char) (r : List Byte) :
    verifySeq (String.utf8EncodeChar c ++ r) = .ok (true, (String.utf8EncodeChar c).length) := by
  have hv := char_valid c
  by_cases h1 : c.val.toNat ≤ 0x7f
  · rw [enc_one c h1]
    exact verify_one _ _ (by rw [toNat_of _ (by omega)]; omega)
  by_cases h2 : c.val.toNat ≤ 0x7ff
  · rw [enc_two c (by omega) h2]
    simp only [List.cons_append, List.nil_append, List.length_cons, List.length_nil]
    rw [verify_two _ _ (by rw [toNat_of _ (by omega)]; omega) (by rw [toNat_of _ (by omega)]; omega)]
    simp only [toNat_of (c.val.toNat / 64 % 32 + 192) (by omega), toNat_of (c.val.toNat % 64 + 128) (by omega)]
    rw [if_pos (by omega), (cpOk_iff _ _).2 (by omega)]
  by_cases h3 : c.val.toNat ≤ 0xffff
  · rw [enc_three c (by omega) h3]
    simp only [List.cons_append, List.nil_append, List.length_cons, List.length_nil]
    rw [verify_three _ _ (by rw [toNat_of _ (by omega)]; omega) (by rw [toNat_of _ (by omega)]; omega)]
    simp only [toNat_of (c.val.toNat / 4096 % 16 + 224) (by omega), toNat_of (c.val.toNat / 64 % 64 + 128) (by omega),
      toNat_of (c.val.toNat % 64 + 128) (by omega)]
    rw [if_pos (by omega), (cpOk_iff _ _).2 (by omega)]
  · rw [enc_four c (by omega)]
    simp only [List.cons_append, List.nil_append, List.length_cons, List.length_nil]
    rw [verify_four _ _ (by rw [toNat_of _ (by omega)]; omega) (by rw [toNat_of _ (by omega)]; omega)]
    simp only [toNat_of (c.val.toNat / 262144 % 8 + 240) (by omega), toNat_of (c.val.toNat / 4096 % 64 + 128) (by omega),
      toNat_of (c.val.toNat / 64 % 64 + 128) (by omega), toNat_of (c.val.toNat % 64 + 128) (by omega)]
    rw [if_pos (by omega), (cpOk_iff _ _).2 (by omega)]

theorem enc_ne (c : Char) : String.utf8EncodeChar c ≠ [] := by
  intro h
  have := congrArg List.length h
  have := Char.utf8Size_pos c
  simp_all

/-- the encodings of characters, one after the other -/
def Encodes (s : List Byte) : Prop := ∃ cs : List Char, s = cs.flatMap String.utf8EncodeChar

theorem validLoop_eq : ∀ (fuel : Nat) (s : List Byte), s.length ≤ fuel → ∃ r, validLoop fuel s = .ok r ∧ (r = true ↔ Encodes s)
  | 0, s, h => by
    have : s = [] := List.length_eq_zero_iff.1 (by omega)
    subst this
    exact ⟨true, rfl, by simp only [true_iff]; exact ⟨[], rfl⟩⟩
  | fuel + 1, [], h => ⟨true, rfl, by simp only [true_iff]; exact ⟨[], rfl⟩⟩
  | fuel + 1, b :: s, h => by
    obtain ⟨⟨ok, len⟩, hr⟩ := verify_total b s
    have hstep : validLoop (fuel + 1) (b :: s) = if !ok then .ok false else validLoop fuel ((b :: s).drop len) := by
      simp [validLoop, hr, bind, Except.bind, pure, Except.pure]
    cases ok with
    | false =>
      refine ⟨false, by simp [hstep], ?_⟩
      rw [show (false = true) = False from by simp, false_iff]
      rintro ⟨cs, hcs⟩
      match cs, hcs with
      | [], hcs => simp at hcs
      | c :: cs, hcs =>
        rw [List.flatMap_cons] at hcs
        rw [hcs, verify_complete] at hr
        simp at hr
    | true =>
      obtain ⟨c, hc, hlen⟩ := verify_sound b s len hr
      obtain ⟨r, h1, h2⟩ := validLoop_eq fuel ((b :: s).drop len) (by simp only [List.length_drop]; omega)
      refine ⟨r, by simp [hstep, h1], ?_⟩
      rw [h2]
      constructor
      · rintro ⟨cs, hcs⟩
        exact ⟨c :: cs, by rw [List.flatMap_cons, ← hcs]; exact hc⟩
      · rintro ⟨cs, hcs⟩
        match cs, hcs with
        | [], hcs => simp at hcs
        | d :: cs, hcs =>
          rw [List.flatMap_cons] at hcs
          rw [hcs, verify_complete] at hr
          simp only [Except.ok.injEq, Prod.mk.injEq, true_and] at hr
          refine ⟨cs, ?_⟩
          rw [hcs, ← hr, List.drop_left]

theorem isValidUtf8_eq (s : List Byte) : ∃ r, isValidUtf8 s = .ok r ∧ (r = true ↔ Encodes s) := validLoop_eq _ _ (Nat.le_refl _)

theorem valid_encodes (s : List Byte) (h : Encodes s) : isValidUtf8 s = .ok true := by
  obtain ⟨r, h1, h2⟩ := isValidUtf8_eq s
  rw [h1, h2.2 h]

end Ecgen.Parson
