import Verif.Parson.Spec

/-!
# A JSON text denotes one value

A reader that follows the grammar; every text is read as what it denotes.
-/

namespace Ecgen.Parson
open Spec

def isWhite (c : Byte) : Bool := c == 32 || c == 9 || c == 10 || c == 13

def skip : List Byte → List Byte
  | [] => []
  | c :: t => if isWhite c then skip t else c :: t

theorem isWhite_iff (c : Byte) : isWhite c = true ↔ c = 32 ∨ c = 9 ∨ c = 10 ∨ c = 13 := by simp [isWhite, or_assoc]

theorem skip_white {w : List Byte} (h : White w) (t : List Byte) : skip (w ++ t) = skip t := by
  induction w with
  | nil => rfl
  | cons c w ih =>
    rw [List.cons_append, skip, if_pos ((isWhite_iff c).2 (h c (by simp)))]
    exact ih (fun d hd => h d (by simp [hd]))

def readChars : List Byte → Option (List Byte × List Byte)
  | [] => none
  | c :: r =>
    if c = quote then some ([], r)
    else if c = backslash then
      match r with
      | [] => none
      | e :: r1 =>
        if e = 117 then
          match r1 with
          | a :: b :: x :: d :: r2 =>
            match unicode a b x d with
            | some y => (readChars r2).map fun p => (String.utf8EncodeChar y ++ p.1, p.2)
            | none => none
          | _ => none
        else
          match short e with
          | some d => (readChars r1).map fun p => (d :: p.1, p.2)
          | none => none
    else if 0x20 ≤ c then (readChars r).map fun p => (c :: p.1, p.2)
    else none

theorem short_u : short 117 = none := by decide

theorem chars_read {t s : List Byte} (h : Chars t s) (rest : List Byte) : readChars (t ++ quote :: rest) = some (s, rest) := by
  induction h with
  | nil =>
    rw [List.nil_append, readChars.eq_def]
    simp only []
    rw [if_pos trivial]
  | plain c h1 h2 h3 _ ih =>
    rw [List.cons_append, readChars.eq_def]
    simp only []
    rw [if_neg h2, if_neg h3, if_pos h1, ih]
    rfl
  | short c d h _ ih =>
    have hc : c ≠ 117 := by rintro rfl; rw [short_u] at h; cases h
    rw [List.cons_append, List.cons_append, readChars.eq_def]
    simp only []
    rw [if_neg (by decide), if_pos trivial]
    simp only [if_neg hc, h, ih]
    rfl
  | unicode a b c d x h _ ih =>
    simp only [List.cons_append]
    rw [readChars.eq_def]
    simp only []
    rw [if_neg (by decide), if_pos trivial]
    simp only [if_true, h, ih]
    rfl

mutual
def readV : Nat → List Byte → Option (Value × List Byte)
  | 0, _ => none
  | n + 1, t =>
    match t with
    | [] => none
    | c :: r =>
      if c = quote then (readChars r).map fun p => (.str p.1, p.2)
      else if c = 91 then
        if (skip r).head? = some 93 then some (.arr [], (skip r).tail)
        else (readItems n r).map fun p => (.arr p.1, p.2)
      else if c = 123 then
        if (skip r).head? = some 125 then some (.obj [] [], (skip r).tail)
        else (readMembers n r).map fun p => (.obj p.1 p.2.1, p.2.2)
      else if c = 110 then if r.take 3 = [117, 108, 108] then some (.null, r.drop 3) else none
      else if c = 116 then if r.take 3 = [114, 117, 101] then some (.bool true, r.drop 3) else none
      else if c = 102 then if r.take 4 = [97, 108, 115, 101] then some (.bool false, r.drop 4) else none
      else none
def readItems : Nat → List Byte → Option (List Value × List Byte)
  | 0, _ => none
  | n + 1, t =>
    match readV n (skip t) with
    | none => none
    | some (v, r) =>
      match skip r with
      | [] => none
      | c :: r' =>
        if c = 44 then (readItems n r').map fun p => (v :: p.1, p.2)
        else if c = 93 then some ([v], r')
        else none
def readMembers : Nat → List Byte → Option (List (List Byte) × List Value × List Byte)
  | 0, _ => none
  | n + 1, t =>
    match skip t with
    | [] => none
    | q :: t1 =>
      if q ≠ quote then none else
      match readChars t1 with
      | none => none
      | some (k, t2) =>
        match skip t2 with
        | [] => none
        | c :: t3 =>
          if c ≠ 58 then none else
          match readV n (skip t3) with
          | none => none
          | some (v, r) =>
            match skip r with
            | [] => none
            | c :: r' =>
              if c = 44 then (readMembers n r').map fun p => (k :: p.1, v :: p.2.1, p.2.2)
              else if c = 125 then some ([k], [v], r')
              else none
end

/-- a value does not start with white space or a closing bracket -/
theorem text_head {t : List Byte} {v : Value} (h : Text t v) : ∃ c r, t = c :: r ∧ isWhite c = false ∧ c ≠ 93 ∧ c ≠ 125 := by
  cases h <;> exact ⟨_, _, rfl, by decide, by decide, by decide⟩

theorem text_skip {t : List Byte} {v : Value} (h : Text t v) (r : List Byte) : skip (t ++ r) = t ++ r := by
  obtain ⟨c, t', rfl, hc, _⟩ := text_head h
  rw [List.cons_append, skip, hc]
  rfl

theorem skip_quote (t : List Byte) : skip (quote :: t) = quote :: t := by rw [skip]; rfl

theorem items_head {t : List Byte} {vs : List Value} (h : Items t vs) (r : List Byte) : (skip (t ++ r)).head? ≠ some 93 := by
  cases h with
  | one hw ht hw' =>
    rw [List.append_assoc, skip_white hw, List.append_assoc, text_skip ht]
    obtain ⟨c, t', rfl, _, hc, _⟩ := text_head ht
    simpa using hc
  | more hw ht hw' hr =>
    rw [List.append_assoc, skip_white hw, List.append_assoc, text_skip ht]
    obtain ⟨c, t', rfl, _, hc, _⟩ := text_head ht
    simpa using hc

theorem members_head {t : List Byte} {ns : List (List Byte)} {vs : List Value} (h : Members t ns vs) (r : List Byte) :
    (skip (t ++ r)).head? ≠ some 125 := by
  cases h with
  | one hw => rw [List.append_assoc, skip_white hw, List.cons_append, skip_quote]; simp [quote]
  | more hw => rw [List.append_assoc, skip_white hw, List.cons_append, skip_quote]; simp [quote]

mutual
theorem text_read {t : List Byte} {v : Value} (h : Text t v) : ∃ N, ∀ n, N ≤ n → ∀ rest, readV n (t ++ rest) = some (v, rest) :=
  match h with
  | .null => ⟨1, fun n hn rest => by obtain ⟨m, rfl⟩ := Nat.exists_eq_add_of_le' hn; simp [readV, quote]⟩
  | .true => ⟨1, fun n hn rest => by obtain ⟨m, rfl⟩ := Nat.exists_eq_add_of_le' hn; simp [readV, quote]⟩
  | .false => ⟨1, fun n hn rest => by obtain ⟨m, rfl⟩ := Nat.exists_eq_add_of_le' hn; simp [readV, quote]⟩
  | .str hc => ⟨1, fun n hn rest => by
      obtain ⟨m, rfl⟩ := Nat.exists_eq_add_of_le' hn
      rw [List.cons_append, List.append_assoc, readV, if_pos rfl]
      erw [chars_read hc rest]
      rfl⟩
  | .arrEmpty hw => ⟨1, fun n hn rest => by
      obtain ⟨m, rfl⟩ := Nat.exists_eq_add_of_le' hn
      rw [List.cons_append, List.append_assoc, readV, if_neg (by decide), if_pos rfl, skip_white hw]
      rfl⟩
  | .arr hi => by
      obtain ⟨N, hN⟩ := items_read hi
      refine ⟨N + 1, fun n hn rest => ?_⟩
      obtain ⟨m, rfl⟩ := Nat.exists_eq_add_of_le' (show 1 ≤ n by omega)
      rw [List.cons_append, List.append_assoc, readV, if_neg (by decide), if_pos rfl, if_neg (items_head hi _)]
      erw [hN m (by omega) rest]
      rfl
  | .objEmpty hw => ⟨1, fun n hn rest => by
      obtain ⟨m, rfl⟩ := Nat.exists_eq_add_of_le' hn
      rw [List.cons_append, List.append_assoc, readV, if_neg (by decide), if_neg (by decide), if_pos rfl, skip_white hw]
      rfl⟩
  | .obj hi => by
      obtain ⟨N, hN⟩ := members_read hi
      refine ⟨N + 1, fun n hn rest => ?_⟩
      obtain ⟨m, rfl⟩ := Nat.exists_eq_add_of_le' (show 1 ≤ n by omega)
      rw [List.cons_append, List.append_assoc, readV, if_neg (by decide), if_neg (by decide), if_pos rfl, if_neg (members_head hi _)]
      erw [hN m (by omega) rest]
      rfl
theorem items_read {t : List Byte} {vs : List Value} (h : Items t vs) :
    ∃ N, ∀ n, N ≤ n → ∀ rest, readItems n (t ++ 93 :: rest) = some (vs, rest) :=
  match h with
  | .one (w := w) (t := t) (w' := w') hw ht hw' => by
      obtain ⟨N, hN⟩ := text_read ht
      refine ⟨N + 1, fun n hn rest => ?_⟩
      obtain ⟨m, rfl⟩ := Nat.exists_eq_add_of_le' (show 1 ≤ n by omega)
      rw [List.append_assoc, List.append_assoc, readItems, skip_white hw, text_skip ht, hN m (by omega) _]
      simp only [skip_white hw']
      rfl
  | .more (w := w) (t := t) (w' := w') (r := r) hw ht hw' hr => by
      obtain ⟨N, hN⟩ := text_read ht
      obtain ⟨M, hM⟩ := items_read hr
      refine ⟨N + M + 1, fun n hn rest => ?_⟩
      obtain ⟨m, rfl⟩ := Nat.exists_eq_add_of_le' (show 1 ≤ n by omega)
      rw [List.append_assoc, List.append_assoc, List.append_assoc, List.cons_append, readItems, skip_white hw, text_skip ht, hN m (by omega) _]
      simp only [skip_white hw']
      rw [skip, if_neg (by decide)]
      simp only [if_true, hM m (by omega) rest]
      rfl
theorem members_read {t : List Byte} {ns : List (List Byte)} {vs : List Value} (h : Members t ns vs) :
    ∃ N, ∀ n, N ≤ n → ∀ rest, readMembers n (t ++ 125 :: rest) = some (ns, vs, rest) :=
  match h with
  | .one hw hk hw1 hw2 ht hw' => by
      obtain ⟨N, hN⟩ := text_read ht
      refine ⟨N + 1, fun n hn rest => ?_⟩
      obtain ⟨m, rfl⟩ := Nat.exists_eq_add_of_le' (show 1 ≤ n by omega)
      simp only [List.append_assoc, List.cons_append]
      rw [readMembers, skip_white hw, skip_quote]
      simp only [ne_eq, not_true_eq_false, if_false, chars_read hk, skip_white hw1]
      rw [skip, if_neg (by decide)]
      simp only [not_true_eq_false, if_false, skip_white hw2, text_skip ht, hN m (by omega), skip_white hw']
      rfl
  | .more hw hk hw1 hw2 ht hw' hr => by
      obtain ⟨N, hN⟩ := text_read ht
      obtain ⟨M, hM⟩ := members_read hr
      refine ⟨N + M + 1, fun n hn rest => ?_⟩
      obtain ⟨m, rfl⟩ := Nat.exists_eq_add_of_le' (show 1 ≤ n by omega)
      simp only [List.append_assoc, List.cons_append]
      rw [readMembers, skip_white hw, skip_quote]
      simp only [ne_eq, not_true_eq_false, if_false, chars_read hk, skip_white hw1]
      rw [skip, if_neg (by decide)]
      simp only [not_true_eq_false, if_false, skip_white hw2, text_skip ht, hN m (by omega), skip_white hw']
      rw [skip, if_neg (by decide)]
      simp only [if_true, hM m (by omega) rest]
      rfl
end

/-- a document denotes at most one value -/
theorem document_unique {t : List Byte} {v v' : Value} (h : Document t v) (h' : Document t v') : v = v' := by
  obtain ⟨w, u, x, hw, hu, _, rfl⟩ := h
  obtain ⟨w', u', x', hw', hu', _, e⟩ := h'
  obtain ⟨N, hN⟩ := text_read hu
  obtain ⟨M, hM⟩ := text_read hu'
  have e1 := congrArg skip e
  rw [skip_white hw, skip_white hw', text_skip hu, text_skip hu'] at e1
  have h1 := hN (N + M) (by omega) x
  rw [e1, hM (N + M) (by omega) x'] at h1
  simp only [Option.some.injEq, Prod.mk.injEq] at h1
  exact h1.1.symm

end Ecgen.Parson
