import Verif.Str.Model
import Verif.Bits.Spec
import Verif.Bits.Hex

/-!
# String helpers (C14, C15, C54)
-/

namespace Ecgen.Str

open Ecgen.Bits (hexVal)

/-! ## C14 -/

theorem isxdigit_iff (c : Char) : isxdigit c = true ↔ (hexVal c).isSome = true := by
  have e : ∀ a b : Char, a ≤ b ↔ a.toNat ≤ b.toNat := fun a b => by
    show a.val ≤ b.val ↔ _
    rw [UInt32.le_iff_toNat_le]; rfl
  unfold isxdigit hexVal
  simp only [e, show '0'.toNat = 48 from rfl, show '9'.toNat = 57 from rfl, show 'a'.toNat = 97 from rfl,
    show 'f'.toNat = 102 from rfl, show 'A'.toNat = 65 from rfl, show 'F'.toNat = 70 from rfl]
  by_cases h1 : 48 ≤ c.toNat ∧ c.toNat ≤ 57
  · simp [h1]
  · by_cases h2 : 97 ≤ c.toNat ∧ c.toNat ≤ 102
    · simp [h1, h2]
    · by_cases h3 : 65 ≤ c.toNat ∧ c.toNat ≤ 70
      · simp [h1, h2, h3]
      · simp [h1, h2, h3]

theorem allHex_iff (s : List Char) : allHex s = true ↔ ∀ c ∈ s, (hexVal c).isSome = true := by
  induction s with
  | nil => simp [allHex]
  | cons c s ih =>
    rw [allHex]
    by_cases h : isxdigit c
    · simp only [h, Bool.not_true, Bool.false_eq_true, if_false, ih, List.mem_cons, forall_eq_or_imp]
      exact ⟨fun hh => ⟨(isxdigit_iff c).1 h, hh⟩, fun hh => hh.2⟩
    · simp only [h, Bool.not_false, if_true]
      constructor
      · intro hh; cases hh
      · intro hh
        exact absurd ((isxdigit_iff c).2 (hh c (by simp))) h

/-- C14: the result is `d` exactly when the text is `d` alone, or `d` after `0x`/`0X` with `d` nonempty, and
`d` consists of hex digits. -/
theorem strIsHex_iff (s d : List Char) :
    strIsHex s = some d ↔
      (∀ c ∈ d, (hexVal c).isSome = true) ∧
        (s = d ∨ d ≠ [] ∧ (s = '0' :: 'x' :: d ∨ s = '0' :: 'X' :: d)) := by
  have hx : (hexVal 'x').isSome = false := by decide
  have hX : (hexVal 'X').isSome = false := by decide
  unfold strIsHex strIsHexOff
  by_cases hp : s.length > 2 ∧ s[0]? = some '0' ∧ (s[1]? = some 'x' ∨ s[1]? = some 'X')
  · obtain ⟨h1, h2⟩ := hp
    simp only [if_pos h1, if_pos h2]
    match s, h1, h2 with
    | a :: b :: e :: t, _, h2 =>
      simp only [List.getElem?_cons_zero, Option.some.injEq, List.getElem?_cons_succ] at h2
      obtain ⟨rfl, hb⟩ := h2
      simp only [List.drop_succ_cons, List.drop_zero]
      have hbs : (hexVal b).isSome = false := by rcases hb with rfl | rfl <;> assumption
      constructor
      · intro h
        by_cases hh : allHex (e :: t) = true
        · rw [if_pos hh] at h
          simp only [Option.map_some, Option.some.injEq, List.drop_succ_cons, List.drop_zero] at h
          subst h
          refine ⟨(allHex_iff _).1 hh, Or.inr ⟨by simp, ?_⟩⟩
          rcases hb with rfl | rfl
          · exact Or.inl rfl
          · exact Or.inr rfl
        · rw [if_neg hh] at h; cases h
      · rintro ⟨hd, hs⟩
        have hne : ('0' :: b :: e :: t) ≠ d := by
          rintro rfl
          have := hd b (by simp)
          rw [hbs] at this; cases this
        have hde : d = e :: t := by
          rcases hs with hs | ⟨_, hs | hs⟩
          · exact absurd hs hne
          · injection hs with _ hs; injection hs with _ hs; exact hs.symm
          · injection hs with _ hs; injection hs with _ hs; exact hs.symm
        rw [hde] at hd
        rw [if_pos ((allHex_iff _).2 hd), hde]
        rfl
  · have hst : (if s.length > 2 then
        if s[0]? = some '0' ∧ (s[1]? = some 'x' ∨ s[1]? = some 'X') then 2 else 0 else 0) = 0 := by
      by_cases h1 : s.length > 2
      · rw [if_pos h1, if_neg (fun h2 => hp ⟨h1, h2⟩)]
      · rw [if_neg h1]
    simp only [hst, List.drop_zero]
    constructor
    · intro h
      by_cases hh : allHex s = true
      · rw [if_pos hh] at h
        simp only [Option.map_some, Option.some.injEq, List.drop_zero] at h
        subst h
        exact ⟨(allHex_iff _).1 hh, Or.inl rfl⟩
      · rw [if_neg hh] at h; cases h
    · rintro ⟨hd, hs⟩
      have hsd : s = d := by
        rcases hs with hs | ⟨hne, hs⟩
        · exact hs
        · exfalso
          apply hp
          cases d with
          | nil => exact absurd rfl hne
          | cons x d => rcases hs with hs | hs <;> subst hs <;> simp
      subst hsd
      rw [if_pos ((allHex_iff _).2 hd)]
      simp

example : strIsHex "0xAb09".toList = some "Ab09".toList ∧ strIsHex "0x".toList = none ∧
    strIsHex "0xg".toList = none ∧ strIsHex "".toList = some [] := by decide

/-! ## C15 -/

/-- the strings that are not null pointers, the null ones counting as empty -/
def texts (strings : List (Option (List Char))) : List (List Char) := strings.map fun s => s.getD []

/-- the strings with the separator between neighbours -/
def joined (sep : List Char) : List (List Char) → List Char
  | [] => []
  | [s] => s
  | s :: t :: rest => s ++ sep ++ joined sep (t :: rest)

/-- number of characters of all strings -/
def sumLen (l : List (List Char)) : Nat := (l.map List.length).sum

theorem joined_length (sep : List Char) (l : List (List Char)) (h : l ≠ []) :
    (joined sep l).length = sumLen l + (l.length - 1) * sep.length := by
  induction l with
  | nil => exact absurd rfl h
  | cons s l ih =>
    cases l with
    | nil => simp [joined, sumLen]
    | cons t l =>
      have := ih (by simp)
      simp only [joined, List.length_append, this, sumLen, List.map_cons, List.sum_cons,
        List.length_cons, Nat.add_sub_cancel, Nat.add_mul, Nat.one_mul]
      omega

theorem total_fold (strings : List (Option (List Char))) (t : Nat)
    (h : t + sumLen (texts strings) < 2 ^ 64) :
    strings.foldl addLen t = t + sumLen (texts strings) := by
  induction strings generalizing t with
  | nil => simp [texts, sumLen]
  | cons s l ih =>
    cases s with
    | none =>
      simp only [texts, sumLen, List.map_cons, List.sum_cons, Option.getD_none, List.length_nil,
        Nat.zero_add] at h ⊢
      simp only [List.foldl_cons, addLen]
      exact ih t h
    | some s =>
      simp only [texts, sumLen, List.map_cons, List.sum_cons, Option.getD_some] at h ⊢
      simp only [List.foldl_cons, addLen]
      have e : (t + s.length) % 2 ^ 64 = t + s.length := Nat.mod_eq_of_lt (by omega)
      rw [e]
      have := ih (t + s.length) (by simp only [texts, sumLen]; omega)
      simp only [texts, sumLen] at this
      rw [this]; omega

theorem pred_wrap (n : Nat) (h0 : n ≠ 0) (h : n < 2 ^ 64) : pred n = n - 1 := by
  unfold pred
  have : n + (2 ^ 64 - 1) = 2 ^ 64 + (n - 1) := by omega
  rw [this, Nat.add_mod_left, Nat.mod_eq_of_lt (by omega)]

theorem strcat_ok (b : Buf) (s : List Char) (h : b.str.length + s.length + 1 ≤ b.size) :
    strcat b s = some { b with str := b.str ++ s } := if_pos h

theorem cat_opt (b : Buf) (s : Option (List Char)) (h : b.str.length + (s.getD []).length + 1 ≤ b.size) :
    catOpt b s = some { b with str := b.str ++ s.getD [] } := by
  cases s with
  | none => simp [catOpt]
  | some s => exact strcat_ok b s h

theorem joinLoop_sep (sep : List Char) (len : Nat) (hlen : len < 2 ^ 64)
    (l : List (Option (List Char))) (i : Nat) (b : Buf) (hl : l ≠ []) (hi : i + l.length = len)
    (hb : b.str.length + (joined sep (texts l)).length + 1 ≤ b.size) :
    joinLoop (some sep) len i l b = some { b with str := b.str ++ joined sep (texts l) } := by
  induction l generalizing i b with
  | nil => exact absurd rfl hl
  | cons s l ih =>
    rw [joinLoop]
    simp only [List.length_cons] at hi
    have hpw := pred_wrap len (by omega) hlen
    cases l with
    | nil =>
      simp only [texts, List.map_cons, List.map_nil, joined] at hb ⊢
      rw [cat_opt b s hb, Option.bind_some]
      have hie : ¬ i ≠ pred len := by
        rw [hpw]; simp at hi; omega
      simp only [catSep, if_neg hie, Option.bind_some, joinLoop]
    | cons t l =>
      simp only [texts, List.map_cons, joined, List.length_append] at hb ⊢
      rw [cat_opt b s (by omega), Option.bind_some]
      have hie : i ≠ pred len := by
        rw [hpw]; simp at hi; omega
      simp only [catSep, if_pos hie]
      rw [strcat_ok _ _ (by simp only [List.length_append]; omega), Option.bind_some]
      rw [ih (i + 1) _ (by simp) (by simp at hi ⊢; omega) (by
        simp only [List.length_append, texts, List.map_cons]; omega)]
      simp [texts, List.append_assoc]

theorem joinLoop_none (len : Nat) (l : List (Option (List Char))) (i : Nat) (b : Buf)
    (hb : b.str.length + sumLen (texts l) + 1 ≤ b.size) :
    joinLoop none len i l b = some { b with str := b.str ++ (texts l).flatten } := by
  induction l generalizing i b with
  | nil => simp [joinLoop, texts]
  | cons s l ih =>
    rw [joinLoop]
    simp only [texts, sumLen, List.map_cons, List.sum_cons] at hb
    rw [cat_opt b s (by omega), Option.bind_some]
    simp only [catSep, Option.bind_some]
    rw [ih (i + 1) _ (by simp only [List.length_append, texts, sumLen]; omega)]
    simp [texts, List.append_assoc]

/-- C15 without the missing cases (no string with a separator): a joined list of at least one string,
whose result fits the address space, is the texts with the separator between neighbours, and no write
leaves the buffer. -/
theorem strJoin_partial (sep : List Char) (strings : List (Option (List Char))) (h0 : strings ≠ [])
    (h : strings.length < 2 ^ 64) (hfit : (joined sep (texts strings)).length + 1 < 2 ^ 64) :
    strJoin (some sep) strings = some (joined sep (texts strings)) := by
  have hne : texts strings ≠ [] := by simpa [texts] using h0
  have hl : (texts strings).length = strings.length := by simp [texts]
  have hjl := joined_length sep (texts strings) hne
  have hpos : 0 < strings.length := by
    cases strings with
    | nil => exact absurd rfl h0
    | cons _ _ => simp
  have htot : joinTotal (some sep) strings = (joined sep (texts strings)).length + 1 := by
    unfold joinTotal
    simp only
    rw [total_fold strings 1 (by omega), pred_wrap _ (by omega) h, Nat.mod_eq_of_lt (by rw [hjl, hl] at hfit; omega),
      hjl, hl]
    omega
  unfold strJoin
  rw [htot, calloc, if_neg (by omega), Option.bind_some,
    joinLoop_sep sep strings.length h strings 0 _ h0 (by omega) (by simp)]
  simp

/-- C15: concatenation without separator, for every list of strings. -/
theorem strConcat_correct (strings : List (Option (List Char)))
    (hfit : sumLen (texts strings) + 1 < 2 ^ 64) :
    strConcat strings = some (texts strings).flatten := by
  unfold strConcat strJoin
  have htot : joinTotal none strings = 1 + sumLen (texts strings) := by
    unfold joinTotal
    exact total_fold strings 1 (by omega)
  rw [htot, calloc, if_neg (by omega), Option.bind_some, joinLoop_none _ _ _ _ (by simp; omega)]
  simp

theorem collect_ok (args : List (List Char)) (cap i : Nat) (hi : i + args.length ≤ 10)
    (hc : (i ≤ 5 ∧ cap = 5) ∨ (5 < i ∧ cap = 10)) : collect cap i args = some () := by
  induction args generalizing cap i with
  | nil => rfl
  | cons s l ih =>
    simp only [List.length_cons] at hi
    rw [collect]
    by_cases h5 : i = 5
    · simp only [if_pos h5, if_pos (show i < 10 by omega)]
      exact ih 10 (i + 1) (by omega) (by omega)
    · simp only [if_neg h5]
      rw [if_pos (by omega)]
      exact ih cap (i + 1) (by omega) (by omega)

/-- C15 for the variadic form, with at most ten strings. -/
theorem strJoinv_partial (sep : List Char) (args : List (List Char)) (h0 : args ≠ [])
    (h : args.length ≤ 10) (hfit : (joined sep args).length + 1 < 2 ^ 64) :
    strJoinv (some sep) args = some (joined sep args) := by
  have ht : texts (args.map some) = args := by simp [texts, Function.comp_def]
  unfold strJoinv
  rw [collect_ok args 5 0 (by omega) (by omega), Option.bind_some,
    strJoin_partial sep (args.map some) (by simpa using h0) (by simp; omega) (by rw [ht]; exact hfit), ht]

theorem collect_bad (args : List (List Char)) (cap i : Nat) (hi : 10 < i + args.length) (hi' : i ≤ 10)
    (hc : (i ≤ 5 ∧ cap = 5) ∨ (5 < i ∧ cap = 10)) : collect cap i args = none := by
  induction args generalizing cap i with
  | nil => simp at hi; omega
  | cons s l ih =>
    simp only [List.length_cons] at hi
    rw [collect]
    by_cases h5 : i = 5
    · simp only [if_pos h5, if_pos (show i < 10 by omega)]
      exact ih 10 (i + 1) (by omega) (by omega) (by omega)
    · simp only [if_neg h5]
      by_cases h10 : i < cap
      · rw [if_pos h10]
        exact ih cap (i + 1) (by omega) (by omega) (by omega)
      · rw [if_neg h10]

/-- C15 is false: the variadic form with more than ten strings always writes past its pointer array,
whatever the strings are. -/
theorem strJoinv_overflow (sep : Option (List Char)) (args : List (List Char)) (h : 10 < args.length) :
    strJoinv sep args = none := by
  unfold strJoinv
  rw [collect_bad args 5 0 (by omega) (by omega) (by omega)]
  rfl

/-- C15 is false: joining no strings with a one-character separator allocates nothing and returns a
pointer to no string. -/
theorem strJoin_empty_false : joinTotal (some [',']) [] = 0 ∧ strJoin (some [',']) [] = none := by
  decide

example : strJoin (some [',']) [some ['a'], none, some ['b', 'c']] = some "a,,bc".toList := by decide

/-! ## C54 -/

theorem cntLoop_spec (c : Char) (n : Nat) : ∀ (str : List Char) (r : Nat), r ≤ str.length →
    str.length - r ≤ n → cntLoop c (n + 1) str r = some (r + (str.drop r).count c) := by
  induction n with
  | zero =>
    intro str r hr h
    rw [cntLoop, if_neg (by omega), List.getElem?_eq_none (by omega), List.drop_eq_nil_of_le (by omega)]
    simp
  | succ n ih =>
    intro str r hr h
    rw [cntLoop, if_neg (by omega)]
    by_cases hlt : r < str.length
    · rw [List.getElem?_eq_getElem hlt]
      simp only
      rw [List.drop_eq_getElem_cons hlt]
      by_cases hx : str[r] = c
      · rw [if_pos hx, ih str (r + 1) hlt (by omega), hx, List.count_cons_self]
        congr 1; omega
      · rw [if_neg hx, ih str.tail r (by simp; omega) (by simp; omega), List.count_cons_of_ne hx,
          ← List.drop_one, List.drop_drop, Nat.add_comm 1 r]
    · rw [List.getElem?_eq_none (by omega), List.drop_eq_nil_of_le (by omega)]
      simp

/-- C54: the character count is the number of occurrences, and the scan never reads past the NUL. -/
theorem strCnt_correct (s : List Char) (c : Char) : strCnt s c = some (s.count c) := by
  unfold strCnt
  rw [cntLoop_spec c s.length s 0 (by omega) (by omega)]
  simp

example : strCnt "7,11,13".toList ',' = some 2 := by decide

end Ecgen.Str
