import Verif.Parson.Lemmas

/-!
# The text written is a JSON text of the value
-/

namespace Ecgen.Parson
open Spec

theorem white_nil : White [] := by intro c h; cases h

theorem white_pw (pretty : Bool) (w : List Byte) (h : White w) : White (pw pretty w) := by
  cases pretty
  · exact white_nil
  · exact h

theorem white_indent (level : Nat) : White (indent level) := by
  intro c h
  unfold indent at h
  rw [List.mem_flatMap] at h
  obtain ⟨_, _, h⟩ := h
  exact Or.inl (List.eq_of_mem_replicate h)

theorem white_newline : White [10] := by
  intro c h
  rw [List.mem_singleton] at h
  exact Or.inr (Or.inr (Or.inl h))

theorem white_blank : White [32] := by
  intro c h
  rw [List.mem_singleton] at h
  exact Or.inl h

theorem white_append {w w' : List Byte} (h : White w) (h' : White w') : White (w ++ w') := by
  intro c hc
  rcases List.mem_append.1 hc with hc | hc
  · exact h c hc
  · exact h' c hc

/-! ### Strings -/

/-- what the text of one character is: all 256 cases -/
theorem esc_cases : ∀ n : Fin 256,
    let c : Byte := UInt8.ofNat n
    (esc c = [c] ∧ 0x20 ≤ c ∧ c ≠ quote ∧ c ≠ backslash) ∨
    (∃ e ∈ [34, 92, 47, 98, 102, 110, 114, 116].map UInt8.ofNat, esc c = [backslash, e] ∧ short e = some c) ∨
    (∃ h ∈ [48, 49].map UInt8.ofNat, ∃ l ∈ (List.range 128).map UInt8.ofNat, esc c = [backslash, 117, 48, 48, h, l] ∧
      unicode 48 48 h l = some (Char.ofNat n) ∧ String.utf8EncodeChar (Char.ofNat n) = [c]) := by
  decide +kernel

theorem chars_esc (c : Byte) {t s : List Byte} (h : Chars t s) : Chars (esc c ++ t) (c :: s) := by
  have := esc_cases ⟨c.toNat, c.toNat_lt⟩
  simp only [UInt8.ofNat_toNat] at this
  rcases this with ⟨e, h1, h2, h3⟩ | ⟨x, _, e, hx⟩ | ⟨x, _, y, _, e, hu, he⟩
  · rw [e]
    exact Chars.plain c h1 h2 h3 h
  · rw [e]
    exact Chars.short x c hx h
  · rw [e]
    have := Chars.unicode 48 48 x y _ hu h
    rw [he] at this
    exact this

theorem chars_flatMap (s : List Byte) : Chars (s.flatMap esc) s := by
  induction s with
  | nil => exact Chars.nil
  | cons c s ih =>
    rw [List.flatMap_cons]
    exact chars_esc c ih

/-! ### Values -/

/-- texts of a list of values -/
def AllText : List (List Byte) → List Value → Prop
  | [], [] => True
  | t :: ts, v :: vs => Text t v ∧ AllText ts vs
  | _, _ => False

theorem items_joined (pretty : Bool) (level : Nat) (w w' : List Byte) (hw : White w) (hw' : White w') (ts : List (List Byte)) (vs : List Value)
    (h : AllText ts vs) (hne : ts ≠ []) : Items (w ++ (joined pretty level ts ++ w')) vs := by
  induction ts generalizing vs w with
  | nil => exact absurd rfl hne
  | cons t ts ih =>
    cases vs with
    | nil => exact absurd h id
    | cons v vs =>
      cases ts with
      | nil =>
        cases vs with
        | cons v' vs => exact absurd h.2 id
        | nil =>
          have := Items.one (white_append hw (white_pw pretty _ (white_indent (level + 1)))) h.1 (white_append (white_pw pretty _ white_newline) hw')
          simpa [joined] using this
      | cons t' ts =>
        have := Items.more (white_append hw (white_pw pretty _ (white_indent (level + 1)))) h.1 white_nil
          (ih (pw pretty [10]) (white_pw pretty _ white_newline) vs h.2 (by simp))
        simpa [joined] using this

theorem members_joined (pretty : Bool) (level : Nat) (w w' : List Byte) (hw : White w) (hw' : White w') (ks ts : List (List Byte)) (vs : List Value)
    (h : AllText ts vs) (hl : ks.length = ts.length) (hne : ks ≠ []) :
    Members (w ++ (joined pretty level (List.zipWith (memberText pretty) ks ts) ++ w')) ks vs := by
  induction ks generalizing ts vs w with
  | nil => exact absurd rfl hne
  | cons k ks ih =>
    cases ts with
    | nil => simp at hl
    | cons t ts =>
      cases vs with
      | nil => exact absurd h id
      | cons v vs =>
        have hwi := white_append hw (white_pw pretty _ (white_indent (level + 1)))
        have hb := white_pw pretty _ white_blank
        cases ks with
        | nil =>
          have hts : ts = [] := List.length_eq_zero_iff.1 (by simp only [List.length_cons, List.length_nil] at hl; omega)
          subst hts
          cases vs with
          | cons v' vs => exact absurd h.2 id
          | nil =>
            have := Members.one hwi (chars_flatMap k) white_nil hb h.1 (white_append (white_pw pretty _ white_newline) hw')
            simpa [joined, memberText, renderStr] using this
        | cons k' ks =>
          cases ts with
          | nil => simp at hl
          | cons t' ts =>
            have := Members.more hwi (chars_flatMap k) white_nil hb h.1 white_nil
              (ih (pw pretty [10]) (white_pw pretty _ white_newline) (t' :: ts) vs h.2 (by simpa using hl) (by simp))
            simpa [joined, memberText, renderStr] using this

theorem text_arr (pretty : Bool) (level : Nat) (ts : List (List Byte)) (vs : List Value) (h : AllText ts vs) (n : Nat) (hn : n = ts.length) :
    Text (wrapped pretty level n 91 93 (joined pretty level ts)) (.arr vs) := by
  cases ts with
  | nil =>
    cases vs with
    | cons v vs => exact absurd h id
    | nil =>
      subst hn
      exact Text.arrEmpty (w := []) white_nil
  | cons t ts =>
    have := Text.arr (items_joined pretty level _ _ (white_pw (n > 0 && pretty) _ white_newline) (white_pw (n > 0 && pretty) _ (white_indent level)) _ _ h
      (by simp))
    simpa [wrapped] using this

theorem text_obj (pretty : Bool) (level : Nat) (ks ts : List (List Byte)) (vs : List Value) (h : AllText ts vs) (hl : ks.length = ts.length) :
    Text (wrapped pretty level ks.length 123 125 (joined pretty level (List.zipWith (memberText pretty) ks ts))) (.obj ks vs) := by
  cases ks with
  | nil =>
    have hts : ts = [] := List.length_eq_zero_iff.1 (by simp only [List.length_nil] at hl; omega)
    subst hts
    cases vs with
    | cons v vs => exact absurd h id
    | nil => exact Text.objEmpty (w := []) white_nil
  | cons k ks =>
    have := Text.obj (members_joined pretty level _ _ (white_pw ((k :: ks).length > 0 && pretty) _ white_newline)
      (white_pw ((k :: ks).length > 0 && pretty) _ (white_indent level)) _ _ _ h hl (by simp))
    simpa [wrapped] using this

mutual
theorem text_render (pretty : Bool) (level : Nat) (v : Value) (h : WF v) : Text (render pretty level v) v :=
  match v with
  | .null => by rw [render]; exact Text.null
  | .bool true => by rw [render]; exact Text.true
  | .bool false => by rw [render]; exact Text.false
  | .str s => by rw [render]; exact Text.str (chars_flatMap s)
  | .arr items => by
    rw [render]
    simp only [WF] at h
    exact text_arr pretty level _ _ (text_renders pretty (level + 1) items h) _ (renders_length _ _ _).symm
  | .obj names values => by
    rw [render]
    simp only [WF] at h
    exact text_obj pretty level _ _ _ (text_renders pretty (level + 1) values h.2.2) (by rw [renders_length]; exact h.2.1)
theorem text_renders (pretty : Bool) (level : Nat) (vs : List Value) (h : WFs vs) : AllText (renders pretty level vs) vs :=
  match vs with
  | [] => by rw [renders]; trivial
  | v :: vs => by
    rw [renders]
    exact ⟨text_render pretty level v h.1, text_renders pretty level vs h.2⟩
end

/-! ### No zero in a text -/

theorem esc_nonzero : ∀ n : Fin 256, (0 : Byte) ∉ esc (UInt8.ofNat n) := by decide +kernel

theorem nonzero_esc (c : Byte) : (0 : Byte) ∉ esc c := by
  have := esc_nonzero ⟨c.toNat, c.toNat_lt⟩
  simpa only [UInt8.ofNat_toNat] using this

theorem white_nonzero {w : List Byte} (h : White w) : (0 : Byte) ∉ w := by
  intro h0
  rcases h 0 h0 with h | h | h | h <;> exact absurd h (by decide)

theorem nonzero_str (s : List Byte) : (0 : Byte) ∉ renderStr s := by
  unfold renderStr
  simp only [List.mem_cons, List.mem_append, List.mem_flatMap, List.not_mem_nil, or_false, not_or, not_exists, not_and]
  exact ⟨by decide, fun c _ => nonzero_esc c, by decide⟩

theorem nonzero_joined (pretty : Bool) (level : Nat) (ts : List (List Byte)) (h : ∀ t ∈ ts, (0 : Byte) ∉ t) : (0 : Byte) ∉ joined pretty level ts := by
  have h1 := white_nonzero (white_pw pretty _ (white_indent (level + 1)))
  have h2 := white_nonzero (white_pw pretty _ white_newline)
  induction ts with
  | nil => simp [joined]
  | cons t ts ih =>
    cases ts with
    | nil =>
      simp only [joined, List.mem_append, not_or]
      exact ⟨h1, h t (by simp), h2⟩
    | cons t' ts =>
      simp only [joined, List.mem_append, List.mem_cons, not_or]
      exact ⟨h1, h t (by simp), by decide, h2, ih (fun t ht => h t (by simp [ht]))⟩

theorem nonzero_wrapped (pretty : Bool) (level n : Nat) (o c : Byte) (t : List Byte) (ho : (0 : Byte) ≠ o) (hc : (0 : Byte) ≠ c)
    (h : (0 : Byte) ∉ t) : (0 : Byte) ∉ wrapped pretty level n o c t := by
  unfold wrapped
  simp only [List.mem_cons, List.mem_append, List.not_mem_nil, or_false, not_or]
  exact ⟨ho, white_nonzero (white_pw _ _ white_newline), h, white_nonzero (white_pw _ _ (white_indent level)), hc⟩

theorem mem_zipWith {α β γ : Type} (f : α → β → γ) (l : List α) (m : List β) (c : γ) (h : c ∈ List.zipWith f l m) : ∃ a ∈ l, ∃ b ∈ m, c = f a b := by
  induction l generalizing m with
  | nil => simp at h
  | cons a l ih =>
    cases m with
    | nil => simp at h
    | cons b m =>
      simp only [List.zipWith_cons_cons, List.mem_cons] at h
      rcases h with rfl | h
      · exact ⟨a, by simp, b, by simp, rfl⟩
      · obtain ⟨x, hx, y, hy, e⟩ := ih m h
        exact ⟨x, by simp [hx], y, by simp [hy], e⟩

mutual
theorem nonzero_render (pretty : Bool) (level : Nat) (v : Value) : (0 : Byte) ∉ render pretty level v :=
  match v with
  | .null => by rw [render]; decide
  | .bool true => by rw [render]; decide
  | .bool false => by rw [render]; decide
  | .str s => by rw [render]; exact nonzero_str s
  | .arr items => by
    rw [render]
    exact nonzero_wrapped _ _ _ _ _ _ (by decide) (by decide) (nonzero_joined _ _ _ (nonzero_renders pretty (level + 1) items))
  | .obj names values => by
    rw [render]
    refine nonzero_wrapped _ _ _ _ _ _ (by decide) (by decide) (nonzero_joined _ _ _ (fun t ht => ?_))
    obtain ⟨k, _, x, hx, rfl⟩ := mem_zipWith _ _ _ _ ht
    unfold memberText
    simp only [List.mem_append, List.mem_cons, not_or]
    exact ⟨nonzero_str k, by decide, white_nonzero (white_pw _ _ white_blank), nonzero_renders pretty (level + 1) values x hx⟩
theorem nonzero_renders (pretty : Bool) (level : Nat) (vs : List Value) : ∀ t ∈ renders pretty level vs, (0 : Byte) ∉ t :=
  match vs with
  | [] => by rw [renders]; intro t h; cases h
  | v :: vs => by
    rw [renders]
    intro t h
    rcases List.mem_cons.1 h with rfl | h
    · exact nonzero_render pretty level v
    · exact nonzero_renders pretty level vs t h
end

end Ecgen.Parson
