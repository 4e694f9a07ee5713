import Mathlib.Data.List.Basic

/-!
# JSON arrays of objects, as sequences of tokens

White space between tokens is dropped; the text of an object is one token.
-/

namespace Ecgen.Json

inductive Tok (κ : Type) where
  | open
  | close
  | comma
  | obj (c : κ)
  deriving DecidableEq, Repr

variable {κ : Type}

/-- one or more objects separated by commas -/
inductive Items : List (Tok κ) → List κ → Prop
  | one (c : κ) : Items [.obj c] [c]
  | more (c : κ) {ts os} : Items ts os → Items (.obj c :: .comma :: ts) (c :: os)

/-- `IsArray ts os`: the tokens `ts` are a JSON array with the elements `os` -/
inductive IsArray : List (Tok κ) → List κ → Prop
  | empty : IsArray [.open, .close] []
  | items {ts os} : Items ts os → IsArray (.open :: ts ++ [.close]) os

/-- the objects in a token sequence, in order -/
def objects : List (Tok κ) → List κ
  | [] => []
  | .obj c :: ts => c :: objects ts
  | _ :: ts => objects ts

theorem objects_append (a b : List (Tok κ)) : objects (a ++ b) = objects a ++ objects b := by
  induction a with
  | nil => rfl
  | cons t ts ih => cases t <;> simp [objects, ih]

theorem items_objects {ts : List (Tok κ)} {os : List κ} (h : Items ts os) : objects ts = os := by
  induction h with
  | one c => rfl
  | more c _ ih => simp [objects, ih]

theorem isArray_objects {ts : List (Tok κ)} {os : List κ} (h : IsArray ts os) : objects ts = os := by
  cases h with
  | empty => rfl
  | items h =>
    rw [objects_append]
    simp [items_objects h, objects]

/-- items do not end with a comma -/
theorem items_last {ts : List (Tok κ)} {os : List κ} (h : Items ts os) : ∃ init c, ts = init ++ [.obj c] := by
  induction h with
  | one c => exact ⟨[], c, rfl⟩
  | more c _ ih =>
    obtain ⟨i, d, rfl⟩ := ih
    exact ⟨.obj c :: .comma :: i, d, rfl⟩

/-- in an array the token before the closing bracket is an object, unless the array is empty -/
theorem not_array_comma (ts : List (Tok κ)) (os : List κ) : ¬ IsArray (ts ++ [.comma, .close]) os := by
  intro h
  have key : ∀ xs : List (Tok κ), IsArray xs os → xs = ts ++ [.comma, .close] → False := by
    intro xs h he
    cases h with
    | empty =>
      have := congrArg List.reverse he
      simp at this
    | items h =>
      obtain ⟨i, c, rfl⟩ := items_last h
      have := congrArg List.reverse he
      simp at this
  exact key _ h rfl

/-- two objects without a comma between them do not occur in an array -/
theorem items_no_pair {ts : List (Tok κ)} {os : List κ} (h : Items ts os) (a b : κ) (u v : List (Tok κ)) :
    ts ≠ u ++ .obj a :: .obj b :: v := by
  induction h generalizing u with
  | one c =>
    intro he
    have := congrArg List.length he
    simp at this
    omega
  | more c _ ih =>
    intro he
    match u with
    | [] => simp at he
    | [x] => simp at he
    | x :: y :: u =>
      simp only [List.cons_append, List.cons.injEq] at he
      exact ih u he.2.2

theorem not_array_pair (u v : List (Tok κ)) (a b : κ) (os : List κ) : ¬ IsArray (u ++ .obj a :: .obj b :: v) os := by
  intro h
  have key : ∀ xs : List (Tok κ), IsArray xs os → xs = u ++ .obj a :: .obj b :: v → False := by
    intro xs h he
    cases h with
    | empty =>
      match u with
      | [] => simp at he
      | [x] => simp at he
      | x :: y :: u => simp at he
    | @items ts _ hi =>
      match u with
      | [] => simp at he
      | x :: u =>
        simp only [List.cons_append, List.cons.injEq] at he
        obtain ⟨-, he⟩ := he
        rcases List.eq_nil_or_concat v with rfl | ⟨v', z, rfl⟩
        · have := congrArg List.reverse he
          simp at this
        · rw [List.concat_eq_append] at he
          have he' : ts ++ [Tok.close] = (u ++ .obj a :: .obj b :: v') ++ [z] := by
            rw [he]; simp
          have := List.append_inj_left' he' rfl
          exact items_no_pair hi a b u v' this
  exact key _ h rfl

end Ecgen.Json
