import Verif.Invalid.Curves
import Mathlib.Data.List.Nodup
import Mathlib.Data.List.Range
import Mathlib.Data.List.Perm.Subperm
import Mathlib.Data.Finset.Card
import Mathlib.Data.Finset.Range

/-!
# Generation of invalid curves with one thread (C42, C44)
-/

namespace Ecgen.Invalid

open Json

/-! ## Printing with separators -/

section Tokens

variable {κ : Type}

/-- objects, each followed by a comma -/
def sepd (os : List κ) : List (Tok κ) := os.flatMap fun o => [.obj o, .comma]

theorem sepd_append (a b : List κ) : sepd (a ++ b) = sepd a ++ sepd b := by simp [sepd]

theorem items_sepd (os : List κ) (c : κ) : Items (sepd os ++ [.obj c]) (os ++ [c]) := by
  induction os with
  | nil => exact Items.one c
  | cons o os ih => exact Items.more o ih

theorem array_sepd (os : List κ) (c : κ) : IsArray (.open :: (sepd os ++ [.obj c]) ++ [.close]) (os ++ [c]) :=
  IsArray.items (items_sepd os c)

end Tokens

variable {F R σ : Type}

/-- the entry printed for the curve of a prime -/
def entry (e : Nat × Curve F R) : Entry F R := (some e.1, some e.2)

/-- a curve that serves for the prime `q`: on the original field, with the original `a`, and of an order divisible by `q` -/
def Serves (orig : Curve F R) (q : Nat) (c : Curve F R) : Prop := q ∣ c.order ∧ c.field = orig.field ∧ c.a = orig.a

theorem index_room {es : List (Nat × Curve F R)} {n i : Nat} (hnd : (es.map Prod.fst).Nodup) (hlt : ∀ e ∈ es, e.1 < n)
    (hi : i < n) (hni : i ∉ es.map Prod.fst) : es.length < n := by
  have hnd' : (i :: es.map Prod.fst).Nodup := List.nodup_cons.2 ⟨hni, hnd⟩
  have hsub : (i :: es.map Prod.fst) ⊆ List.range n := by
    intro x hx
    rw [List.mem_range]
    rcases List.mem_cons.1 hx with rfl | hx
    · exact hi
    · obtain ⟨e, he, rfl⟩ := List.mem_map.1 hx
      exact hlt e he
  have := (List.subperm_of_subset hnd' hsub).length_le
  simp at this
  omega

/-! ## One thread -/

/-- what the generators have done for the curve: points were generated for a list of primes with `q` in it -/
def Pointed (g : Gens F R σ) (q : Nat) (c : Curve F R) : Prop :=
  ∃ (dprimes : List Nat) (invalid : Curve F R) (w : σ), q ∈ dprimes ∧ c = { invalid with rest := (g.points dprimes invalid w).1 }

structure SInv (g : Gens F R σ) (p : Nat → Nat) (n : Nat) (orig : Curve F R) (s : SSt F R) (es : List (Nat × Curve F R)) : Prop where
  count : s.ncurves = es.length
  mem : ∀ i c, s.curves i = some c ↔ (i, c) ∈ es
  nodup : (es.map Prod.fst).Nodup
  good : ∀ e ∈ es, e.1 < n ∧ Serves orig (p e.1) e.2 ∧ Pointed g (p e.1) e.2
  out : s.out = .open :: (if es.length < n then sepd ((none, some orig) :: es.map entry)
    else sepd (((none, some orig) :: es.map entry).dropLast) ++
      [.obj (((none, some orig) :: es.map entry).getLast (by simp))])

theorem sinv_add {g : Gens F R σ} {p : Nat → Nat} {n : Nat} {orig : Curve F R} {s : SSt F R} {es : List (Nat × Curve F R)}
    (h : SInv g p n orig s es) {i : Nat} {c : Curve F R} (hi : i < n) (hn : s.curves i = none) (hs : Serves orig (p i) c)
    (hp : Pointed g (p i) c) :
    SInv g p n orig
      { curves := upd s.curves i (some c)
        ncurves := s.ncurves + 1
        out := s.out ++ .obj (some i, some c) :: (if s.ncurves ≠ n - 1 then [.comma] else []) } (es ++ [(i, c)]) := by
  have hni : i ∉ es.map Prod.fst := by
    intro hm
    obtain ⟨⟨j, d⟩, he, rfl⟩ := List.mem_map.1 hm
    have := (h.mem j d).2 he
    simp only at hn
    rw [hn] at this
    cases this
  have hroom := index_room h.nodup (fun e he => (h.good e he).1) hi hni
  constructor
  · simp [h.count]
  · intro j d
    rw [List.mem_append, List.mem_singleton]
    unfold upd
    by_cases hj : j = i
    · subst hj
      simp only [if_true, Option.some.injEq, Prod.mk.injEq, true_and]
      constructor
      · rintro rfl; exact Or.inr rfl
      · rintro (hm | rfl)
        · exact absurd (List.mem_map.2 ⟨_, hm, rfl⟩) hni
        · rfl
    · simp only [if_neg hj, h.mem, Prod.mk.injEq]
      constructor
      · exact Or.inl
      · rintro (hm | ⟨rfl, _⟩)
        · exact hm
        · exact absurd rfl hj
  · rw [List.map_append, List.nodup_append]
    refine ⟨h.nodup, by simp, ?_⟩
    intro a ha b hb
    simp only [List.map_cons, List.map_nil, List.mem_singleton] at hb
    subst hb
    rintro rfl
    exact hni ha
  · intro e he
    rcases List.mem_append.1 he with he | he
    · exact h.good e he
    · rw [List.mem_singleton] at he
      subst he
      exact ⟨hi, hs, hp⟩
  · simp only [h.out, if_pos hroom, h.count]
    by_cases hl : es.length = n - 1
    · rw [if_neg (by simpa using hl), if_neg (by simp; omega)]
      have e : ((none, some orig) :: (es ++ [(i, c)]).map entry : List (Entry F R)) =
          ((none, some orig) :: es.map entry) ++ [(some i, some c)] := by simp [entry]
      simp only [e, List.dropLast_concat, List.getLast_append_singleton]
      simp
    · rw [if_pos hl, if_pos (by simp; omega)]
      simp [entry, sepd]

theorem wanted_iff (p : Nat → Nat) (curves : Nat → Option (Curve F R)) (o i : Nat) :
    wanted p curves o i = true ↔ curves i = none ∧ p i ∣ o := by
  unfold wanted
  rw [Bool.and_eq_true, Option.isNone_iff_eq_none, beq_iff_eq, Nat.dvd_iff_mod_eq_zero]

theorem sinv_save {g : Gens F R σ} {p : Nat → Nat} {n : Nat} {orig : Curve F R} {c : Curve F R} (hf : c.field = orig.field)
    (ha : c.a = orig.a) (i : Nat) : ∀ {s : SSt F R} {es : List (Nat × Curve F R)}, SInv g p n orig s es → i ≤ n →
    (∀ j, j < i → s.curves j = none → p j ∣ c.order → Pointed g (p j) c) →
    ∃ es', SInv g p n orig (saveLoop p n c i s) es' := by
  induction i with
  | zero => intro s es h _ _; exact ⟨es, h⟩
  | succ i ih =>
    intro s es h hi hp
    unfold saveLoop
    split
    · rename_i hw
      obtain ⟨h1, h2⟩ := (wanted_iff _ _ _ _).1 hw
      refine ih (sinv_add h (by omega) h1 ⟨h2, hf, ha⟩ (hp i (by omega) h1 h2)) (by omega) ?_
      intro j hj hn hd
      refine hp j (by omega) ?_ hd
      simpa [upd, Nat.ne_of_lt hj] using hn
    · exact ih h (by omega) fun j hj => hp j (by omega)

theorem sinv_loop (g : Gens F R σ) (p : Nat → Nat) (n : Nat) (orig : Curve F R) (fuel : Nat) :
    ∀ (s : SSt F R) (w : σ) (es : List (Nat × Curve F R)) (r : SSt F R), SInv g p n orig s es →
    singleLoop g p n orig fuel s w = some r → ∃ es', SInv g p n orig r es' ∧ n ≤ es'.length := by
  induction fuel with
  | zero => intro s w es r _ h; cases h
  | succ fuel ih =>
    intro s w es r h hr
    rw [singleLoop] at hr
    by_cases hc : s.ncurves < n
    · rw [if_pos hc] at hr
      simp only at hr
      split at hr
      · split at hr
        · exact ih _ _ _ _ h hr
        · rename_i rr ww _
          obtain ⟨es', h'⟩ := sinv_save (orig := orig) (c := { (⟨orig.field, orig.a, (g.curve w).1, rr⟩ : Curve F R) with
            rest := (g.points (((List.range n).filter (wanted p s.curves (g.curve w).1)).map p)
              ⟨orig.field, orig.a, (g.curve w).1, rr⟩ ww).1 }) rfl rfl n h (Nat.le_refl n)
            (by
              intro j hj hn hd
              refine ⟨((List.range n).filter (wanted p s.curves (g.curve w).1)).map p, ⟨orig.field, orig.a, (g.curve w).1, rr⟩, ww, ?_, rfl⟩
              rw [List.mem_map]
              exact ⟨j, List.mem_filter.2 ⟨List.mem_range.2 hj, (wanted_iff _ _ _ _).2 ⟨hn, hd⟩⟩, rfl⟩)
          exact ih _ _ _ _ h' hr
      · exact ih _ _ _ _ h hr
    · rw [if_neg hc] at hr
      cases hr
      exact ⟨es, h, by rw [← h.count]; omega⟩

theorem perm_range {es : List (Nat × Curve F R)} {n : Nat} (hnd : (es.map Prod.fst).Nodup) (hlt : ∀ e ∈ es, e.1 < n)
    (hlen : n ≤ es.length) : (es.map Prod.fst).Perm (List.range n) := by
  have hsub : (es.map Prod.fst) ⊆ List.range n := by
    intro x hx
    obtain ⟨e, he, rfl⟩ := List.mem_map.1 hx
    exact List.mem_range.2 (hlt e he)
  have := List.subperm_of_subset hnd hsub
  exact this.perm_of_length_le (by simpa using hlen)

/-- C42 and, for one thread, C44: when the generation for a nonempty list of primes returns, the printed text is a JSON array of the
original curve and the invalid curves `es`. These are exactly one for each selected prime, and they are stored. Each is on the original
field with the original `a`, has an order divisible by its prime, and has points generated for a list of primes that contains it. -/
theorem single_curves (g : Gens F R σ) (primes : List Nat) (orig : Curve F R) (fuel : Nat) (w : σ) (hne : primes ≠ [])
    (curves : Nat → Option (Curve F R)) (out : List (Tok (Entry F R))) (ret : Int)
    (h : invalidDoSingle g primes orig fuel w = some (curves, out, ret)) :
    ret = 0 ∧ ∃ es : List (Nat × Curve F R), IsArray out ((none, some orig) :: es.map entry) ∧
      (es.map Prod.fst).Perm (List.range primes.length) ∧
      ∀ e ∈ es, curves e.1 = some e.2 ∧ Serves orig (primes.getD e.1 0) e.2 ∧ Pointed g (primes.getD e.1 0) e.2 := by
  unfold invalidDoSingle at h
  have hl : primes.length ≠ 0 := by simpa using hne
  simp only [if_neg hl] at h
  split at h
  · cases h
  · rename_i s hs
    cases h
    obtain ⟨es, hi, hlen⟩ := sinv_loop g (fun i => primes.getD i 0) primes.length orig fuel _ w [] s
      { count := rfl
        mem := fun i c => by simp
        nodup := by simp
        good := fun e he => by simp at he
        out := by rw [if_pos (by simp; omega)]; simp [sepd] } hs
    refine ⟨rfl, es, ?_, perm_range hi.nodup (fun e he => (hi.good e he).1) hlen, ?_⟩
    · rw [hi.out, if_neg (by omega)]
      have := array_sepd (((none, some orig) :: es.map entry : List (Entry F R)).dropLast)
        (((none, some orig) :: es.map entry : List (Entry F R)).getLast (by simp))
      rw [List.dropLast_append_getLast] at this
      exact this
    · rintro ⟨i, c⟩ he
      exact ⟨(hi.mem i c).2 he, (hi.good _ he).2⟩

/-- Without any prime the output is not a JSON array: it ends behind the comma. -/
theorem single_empty_false (g : Gens F R σ) (orig : Curve F R) (fuel : Nat) (w : σ) :
    ∃ curves out, invalidDoSingle g [] orig fuel w = some (curves, out, 1) ∧ ∀ os, ¬ IsArray out os := by
  refine ⟨_, _, rfl, ?_⟩
  intro os h
  have key : ∀ xs : List (Tok (Entry F R)), IsArray xs os → xs = [.open, .obj (none, some orig), .comma] → False := by
    intro xs h he
    cases h with
    | empty => simp at he
    | items h =>
      have := congrArg List.reverse he
      simp at this
  exact key _ h rfl

/-- a run for the primes 2 and 3: the first curve has order 5, the second order 6 and no generators, the third order 6 -/
example : ∃ curves out, invalidDoSingle (F := Nat) (R := Nat) (σ := Nat)
    { curve := fun w => (if w = 0 then 5 else 6, 0, w + 1)
      gens := fun _ w => (if w = 2 then none else some 1, w)
      points := fun _ _ w => (2, w) } [2, 3] ⟨11, 1, 13, 0⟩ 10 0 = some (curves, out, 0) ∧ out.length = 7 :=
  ⟨_, _, rfl, rfl⟩

end Ecgen.Invalid
