/-!
# The C library function `bsearch`

Transliteration of glibc's implementation (`l = 0; u = n; while (l < u) { i = (l+u)/2; ... }`) over a list,
with a three-way comparison of the key with an element.
-/

namespace Ecgen

/-- `bsearch` on the index interval `[l, u)`; `cmp` compares the key with an element -/
def bsearchIdx {α : Type} (cmp : α → Int) (t : List α) (l u : Nat) : Option α :=
  if l < u then
    match t[(l + u) / 2]? with
    | none => none
    | some x =>
      if cmp x < 0 then bsearchIdx cmp t l ((l + u) / 2)
      else if 0 < cmp x then bsearchIdx cmp t ((l + u) / 2 + 1) u
      else some x
  else none
termination_by u - l
decreasing_by all_goals omega

/-- `bsearch` over a whole table -/
def bsearch {α : Type} (cmp : α → Int) (t : List α) : Option α := bsearchIdx cmp t 0 t.length

theorem bsearchIdx_sound {α : Type} (cmp : α → Int) (t : List α) (l u : Nat) (x : α)
    (h : bsearchIdx cmp t l u = some x) : x ∈ t ∧ cmp x = 0 := by
  fun_induction bsearchIdx cmp t l u with
  | case1 => cases h
  | case2 l u hlt y hy hc ih => exact ih h
  | case3 l u hlt y hy hc hc2 ih => exact ih h
  | case4 l u hlt y hy hc hc2 =>
    cases h
    exact ⟨List.mem_of_getElem? hy, by omega⟩
  | case5 => cases h

/-- a found element belongs to the table and compares equal to the key -/
theorem bsearch_sound {α : Type} (cmp : α → Int) (t : List α) (x : α) (h : bsearch cmp t = some x) :
    x ∈ t ∧ cmp x = 0 := bsearchIdx_sound cmp t 0 t.length x h

theorem bsearchIdx_complete {α : Type} (cmp : α → Int) (t : List α) (l u k : Nat) (x : α)
    (hx : t[k]? = some x) (hu : u ≤ t.length) (hk : l ≤ k ∧ k < u) (h0 : cmp x = 0)
    (hlo : ∀ i y, t[i]? = some y → i < k → 0 < cmp y) (hhi : ∀ i y, t[i]? = some y → k < i → cmp y < 0) :
    bsearchIdx cmp t l u = some x := by
  fun_induction bsearchIdx cmp t l u with
  | case1 l u hlt hn =>
    rw [List.getElem?_eq_none_iff] at hn
    omega
  | case2 l u hlt y hy hc ih =>
    apply ih (by omega)
    have : ¬ (l + u) / 2 < k := fun hh => by have := hlo _ y hy hh; omega
    have : (l + u) / 2 ≠ k := by
      rintro rfl
      rw [hx] at hy; cases hy; omega
    omega
  | case3 l u hlt y hy hc hc2 ih =>
    apply ih hu
    have : ¬ k < (l + u) / 2 := fun hh => by have := hhi _ y hy hh; omega
    have : (l + u) / 2 ≠ k := by
      rintro rfl
      rw [hx] at hy; cases hy; omega
    omega
  | case4 l u hlt y hy hc hc2 =>
    have h1 : ¬ (l + u) / 2 < k := fun hh => by have := hlo _ y hy hh; omega
    have h2 : ¬ k < (l + u) / 2 := fun hh => by have := hhi _ y hy hh; omega
    have : (l + u) / 2 = k := by omega
    rw [this, hx] at hy
    exact hy.symm
  | case5 l u hlt => omega

/-- In a table whose elements before the match compare greater (key above) and after it less, the match
is found. -/
theorem bsearch_complete {α : Type} (cmp : α → Int) (t : List α) (x : α) (hx : x ∈ t) (h0 : cmp x = 0)
    (hs : t.Pairwise fun a b => (cmp b = 0 → 0 < cmp a) ∧ (cmp a = 0 → cmp b < 0)) :
    bsearch cmp t = some x := by
  obtain ⟨k, hk, hkx⟩ := List.getElem_of_mem hx
  rw [List.pairwise_iff_getElem] at hs
  refine bsearchIdx_complete cmp t 0 t.length k x (by rw [List.getElem?_eq_getElem hk, hkx])
    (Nat.le_refl _) ⟨Nat.zero_le _, hk⟩ h0 ?_ ?_
  · intro i y hy hi
    obtain ⟨hil, rfl⟩ := List.getElem?_eq_some_iff.1 hy
    exact (hs i k hil hk hi).1 (by rw [hkx]; exact h0)
  · intro i y hy hi
    obtain ⟨hil, rfl⟩ := List.getElem?_eq_some_iff.1 hy
    exact (hs k i hk hil hi).2 (by rw [hkx]; exact h0)

end Ecgen
