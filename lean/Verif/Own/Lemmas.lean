import Verif.Own.Model
import Verif.Engine.Props

/-!
# Lemmas on the ownership of blocks
-/

namespace Ecgen.Own
open Ecgen.Engine

/-! ### the blocks of an object, in the order in which they are released -/

def ptsIds (n : Nat) : Option (Nat × List (Option Nat)) → List Nat
  | none => []
  | some (a, l) => (l.take n).filterMap id ++ [a]

def subIds : Option Sub → List Nat
  | none => []
  | some s => ptsIds s.npoints s.points ++ (s.gen.toList ++ [s.id])

def gensIds (n : Nat) : Option (Nat × List (Option Sub)) → List Nat
  | none => []
  | some (a, l) => (l.take n).flatMap subIds ++ [a]

def seedIds : Option Seed → List Nat
  | none => []
  | some s => s.parts ++ [s.id]

def own (c : Curve) : List Nat := seedIds c.seed ++ (gensIds c.ngens c.gens ++ (c.crv.toList ++ [c.id]))

def PtsOk (s : Sub) : Prop := ∀ a l, s.points = some (a, l) → s.npoints ≤ l.length

def GensOk (c : Curve) : Prop :=
  ∀ a l, c.gens = some (a, l) → c.ngens ≤ l.length ∧ ∀ s, some s ∈ l → PtsOk s

/-! ### releasing -/

theorem freeList_append (a b : List Nat) (m : M) : freeList (a ++ b) m = (freeList a m).bind (freeList b) := by
  induction a generalizing m with
  | nil => rfl
  | cons x a ih =>
    simp only [List.cons_append, freeList]
    cases free x m with
    | none => rfl
    | some m' => exact ih m'

theorem freeList_one (x : Nat) (m : M) : freeList [x] m = free x m := by
  simp only [freeList]
  cases free x m <;> rfl

theorem freeList_cur (l : List Nat) (m m' : M) (h : freeList l m = some m') : m'.cur = m.cur := by
  induction l generalizing m with
  | nil => simp only [freeList, Option.some.injEq] at h; rw [h]
  | cons x l ih =>
    simp only [freeList, free] at h
    split at h
    · rw [Option.bind_some] at h
      have h2 := ih _ h
      exact h2
    · cases h

theorem freeOpt_eq (x : Option Nat) (m : M) : freeOpt x m = freeList x.toList m := by
  cases x with
  | none => rfl
  | some x => simp [freeOpt, freeList_one]

theorem pointsFreeDeep_eq (p : Option (Nat × List (Option Nat))) (n : Nat) (m : M) (h : ∀ a l, p = some (a, l) → n ≤ l.length) :
    pointsFreeDeep p n m = freeList (ptsIds n p) m := by
  cases p with
  | none => rfl
  | some q =>
    obtain ⟨a, l⟩ := q
    have := h a l rfl
    simp only [pointsFreeDeep, ptsIds]
    rw [if_neg (by omega), freeList_append]
    congr 1; funext m; rw [freeList_one]

theorem subgroupFreeDeep_eq (s : Option Sub) (m : M) (h : ∀ t, s = some t → PtsOk t) :
    subgroupFreeDeep s m = freeList (subIds s) m := by
  cases s with
  | none => rfl
  | some s =>
    simp only [subgroupFreeDeep, subIds]
    rw [pointsFreeDeep_eq _ _ _ (h s rfl), freeList_append]
    congr 1; funext m; rw [freeList_append, freeOpt_eq]
    congr 1; funext m; rw [freeList_one]

theorem subgroupsLoop_eq (l : List (Option Sub)) (m : M) (h : ∀ t, some t ∈ l → PtsOk t) :
    subgroupsLoop l m = freeList (l.flatMap subIds) m := by
  induction l generalizing m with
  | nil => rfl
  | cons s l ih =>
    simp only [subgroupsLoop, List.flatMap_cons]
    rw [subgroupFreeDeep_eq _ _ (fun t ht => h t (ht ▸ List.mem_cons_self)), freeList_append]
    congr 1; funext m; exact ih m fun t ht => h t (List.mem_cons_of_mem _ ht)

theorem subgroupsFreeDeep_eq (c : Curve) (m : M) (h : GensOk c) :
    subgroupsFreeDeep c.gens c.ngens m = freeList (gensIds c.ngens c.gens) m := by
  unfold GensOk at h
  cases hg : c.gens with
  | none => rfl
  | some q =>
    obtain ⟨a, l⟩ := q
    obtain ⟨h1, h2⟩ := h a l hg
    simp only [subgroupsFreeDeep, gensIds]
    rw [if_neg (by omega), freeList_append, subgroupsLoop_eq _ _ fun t ht => h2 t (List.mem_of_mem_take ht)]
    congr 1; funext m; rw [freeList_one]

theorem seedFree_eq (s : Option Seed) (m : M) : seedFree s m = freeList (seedIds s) m := by
  cases s with
  | none => rfl
  | some s =>
    simp only [seedFree, seedIds]
    rw [freeList_append]
    congr 1; funext m; rw [freeList_one]

theorem bind_cur {l : List Nat} {m : M} {f g : M → Option M} (h : ∀ m', m'.cur = m.cur → f m' = g m') :
    (freeList l m).bind f = (freeList l m).bind g := by
  cases hl : freeList l m with
  | none => rfl
  | some m' => exact h m' (freeList_cur _ _ _ hl)

theorem curveFree_eq (m : M) (h : GensOk m.cur) : curveFree m = freeList (own m.cur) m := by
  unfold curveFree own
  rw [seedFree_eq, freeList_append]
  refine bind_cur fun m1 h1 => ?_
  rw [h1, subgroupsFreeDeep_eq _ _ h, freeList_append]
  refine bind_cur fun m2 h2 => ?_
  rw [h2, h1, freeOpt_eq, freeList_append]
  refine bind_cur fun m3 h3 => ?_
  rw [h3, h2, h1, freeList_one]

/-- releasing different live blocks works, and takes exactly these away -/
theorem freeList_some (l : List Nat) (m : M) (hn : ∀ x, l.count x ≤ 1) (hl : ∀ x ∈ l, m.live x = true) :
    freeList l m = some { m with live := fun x => if x ∈ l then false else m.live x } := by
  induction l generalizing m with
  | nil => simp [freeList]
  | cons y l ih =>
    simp only [freeList, free]
    rw [if_pos (hl y List.mem_cons_self)]
    have hy : y ∉ l := by
      intro hy
      have := hn y
      rw [List.count_cons_self] at this
      have := List.count_pos_iff.2 hy
      omega
    rw [Option.bind_some, ih]
    · congr 2
      funext x
      simp only [List.mem_cons]
      by_cases h1 : x = y
      · simp [h1]
      · simp [h1]
    · intro x
      have := hn x
      rw [List.count_cons] at this
      omega
    · intro x hx
      have : x ≠ y := fun h => hy (h ▸ hx)
      simp [this, hl x (List.mem_cons_of_mem _ hx)]

/-! ### the invariant -/

/-- The blocks of the curve are different and live, and the arrays are long enough. `B` are blocks that belong to others. With `E` there are
no further live blocks. -/
structure Inv (E : Prop) (B : Nat → Bool) (m : M) : Prop where
  one : ∀ x, (own m.cur).count x ≤ 1
  live : ∀ x ∈ own m.cur, m.live x = true
  lt : ∀ x, m.live x = true → x < m.next
  base : ∀ x, B x = true → m.live x = true ∧ x ∉ own m.cur
  exact : E → ∀ x, m.live x = true → x ∈ own m.cur ∨ B x = true
  ok : GensOk m.cur
  few : m.cur.ngens ≤ 3

/-- new blocks for the curve -/
theorem Inv.grow {E : Prop} {B : Nat → Bool} {m m' : M} (h : Inv E B m) (new : List Nat)
    (hc : ∀ x, (own m'.cur).count x = (own m.cur).count x + new.count x)
    (hn : ∀ x, new.count x ≤ 1) (hr : ∀ x ∈ new, m.next ≤ x ∧ x < m'.next) (hx : m.next ≤ m'.next)
    (hl : ∀ x, m'.live x = if x ∈ new then true else m.live x) (ok : GensOk m'.cur) (few : m'.cur.ngens ≤ 3) : Inv E B m' := by
  have hnew : ∀ x, x ∈ new → m.live x = false := by
    intro x hx
    have h1 := hr x hx
    cases h2 : m.live x with
    | false => rfl
    | true => have := h.lt x h2; omega
  have hmem : ∀ x, x ∈ own m'.cur ↔ x ∈ own m.cur ∨ x ∈ new := by
    intro x
    rw [← List.count_pos_iff, ← List.count_pos_iff, ← List.count_pos_iff, hc]
    omega
  refine ⟨?_, ?_, ?_, ?_, ?_, ok, few⟩
  · intro x
    rw [hc]
    by_cases hx : x ∈ new
    · have h1 : x ∉ own m.cur := fun h2 => by have := h.live x h2; rw [hnew x hx] at this; cases this
      rw [List.count_eq_zero.2 h1]
      have := hn x
      omega
    · rw [List.count_eq_zero.2 hx]; exact h.one x
  · intro x hx
    rw [hl]
    split
    · rfl
    · rename_i h1
      exact h.live x (((hmem x).1 hx).resolve_right h1)
  · intro x
    rw [hl]
    split
    · rename_i h1; intro _; exact (hr x h1).2
    · intro h1; exact Nat.lt_of_lt_of_le (h.lt x h1) hx
  · intro x hb
    obtain ⟨h1, h2⟩ := h.base x hb
    refine ⟨by rw [hl, h1]; simp, ?_⟩
    rw [hmem]
    rintro (h3 | h3)
    · exact h2 h3
    · rw [hnew x h3] at h1; cases h1
  · intro e x
    rw [hl, hmem]
    split
    · rename_i h1; intro _; exact Or.inl (Or.inr h1)
    · intro h1
      rcases h.exact e x h1 with h2 | h2
      · exact Or.inl (Or.inl h2)
      · exact Or.inr h2

/-- blocks of the curve released -/
theorem Inv.shrink {E : Prop} {B : Nat → Bool} {m m' : M} (h : Inv E B m) (gone : List Nat)
    (hc : ∀ x, (own m.cur).count x = (own m'.cur).count x + gone.count x)
    (hx : m'.next = m.next) (hl : ∀ x, m'.live x = if x ∈ gone then false else m.live x) (ok : GensOk m'.cur)
    (few : m'.cur.ngens ≤ 3) : Inv E B m' := by
  have hmem : ∀ x, x ∈ own m'.cur ↔ x ∈ own m.cur ∧ x ∉ gone := by
    intro x
    have := h.one x
    rw [← List.count_pos_iff, ← List.count_pos_iff, ← List.count_eq_zero]
    have := hc x
    omega
  refine ⟨?_, ?_, ?_, ?_, ?_, ok, few⟩
  · intro x
    have := h.one x
    have := hc x
    omega
  · intro x hx
    have := (hmem x).1 hx
    rw [hl, if_neg this.2]
    exact h.live x this.1
  · intro x
    rw [hl, hx]
    split
    · intro h1; cases h1
    · exact h.lt x
  · intro x hb
    obtain ⟨h1, h2⟩ := h.base x hb
    refine ⟨?_, fun h3 => h2 ((hmem x).1 h3).1⟩
    rw [hl, if_neg, h1]
    intro h3
    apply h2
    rw [← List.count_pos_iff]
    have := List.count_pos_iff.2 h3
    have := hc x
    omega
  · intro e x
    rw [hl]
    split
    · intro h1; cases h1
    · rename_i hg
      intro h1
      rcases h.exact e x h1 with h2 | h2
      · exact Or.inl ((hmem x).2 ⟨h2, hg⟩)
      · exact Or.inr h2

/-- the same blocks, otherwise arranged -/
theorem Inv.same {E : Prop} {B : Nat → Bool} {m m' : M} (h : Inv E B m)
    (hc : ∀ x, (own m'.cur).count x = (own m.cur).count x)
    (hx : m'.next = m.next) (hl : m'.live = m.live) (ok : GensOk m'.cur) (few : m'.cur.ngens ≤ 3) : Inv E B m' :=
  h.grow [] (by simpa using hc) (by simp) (by simp) (by omega) (by simp [hl]) ok few

/-- part of the blocks of the curve is released -/
theorem Inv.release {E : Prop} {B : Nat → Bool} {m : M} (h : Inv E B m) (gone : List Nat)
    (hs : ∀ x, gone.count x ≤ (own m.cur).count x) :
    freeList gone m = some { m with live := fun x => if x ∈ gone then false else m.live x } := by
  apply freeList_some
  · intro x; exact Nat.le_trans (hs x) (h.one x)
  · intro x hx
    apply h.live
    rw [← List.count_pos_iff]
    exact Nat.lt_of_lt_of_le (List.count_pos_iff.2 hx) (hs x)

theorem own_count (c : Curve) (x : Nat) : (own c).count x =
    (seedIds c.seed).count x + (gensIds c.ngens c.gens).count x + c.crv.toList.count x + [c.id].count x := by
  unfold own
  simp only [List.count_append]
  omega

/-- the end: everything of the curve is released, nothing else -/
theorem Inv.curveFree {E : Prop} {B : Nat → Bool} {m : M} (h : Inv E B m) :
    curveFree m = some { m with live := fun x => if x ∈ own m.cur then false else m.live x } := by
  rw [curveFree_eq m h.ok]
  exact h.release _ fun x => Nat.le_refl _

theorem Inv.curveUnroll {E : Prop} {B : Nat → Bool} {m : M} (h : Inv E B m) :
    ∃ m', curveUnroll m = some m' ∧ Inv E B m' ∧ m'.cur = { m.cur with crv := none } := by
  unfold Own.curveUnroll
  rw [freeOpt_eq, h.release _ fun x => by rw [own_count]; omega]
  refine ⟨_, rfl, h.shrink m.cur.crv.toList ?_ rfl (fun x => rfl) h.ok h.few, rfl⟩
  intro x
  rw [own_count, own_count]
  simp
  omega

theorem Inv.gensUnroll {E : Prop} {B : Nat → Bool} {m : M} (h : Inv E B m) :
    ∃ m', gensUnroll m = some m' ∧ Inv E B m' ∧ m'.cur = { m.cur with gens := none } := by
  unfold Own.gensUnroll
  rw [subgroupsFreeDeep_eq _ _ h.ok, h.release _ fun x => by rw [own_count]; omega]
  refine ⟨_, rfl, h.shrink (gensIds m.cur.ngens m.cur.gens) ?_ rfl (fun x => rfl) (fun a l hg => by cases hg) h.few, rfl⟩
  intro x
  rw [own_count, own_count]
  simp only [gensIds, List.count_nil]
  omega

/-! ### entries of the array of generators -/

theorem flatMap_set_count {α : Type} (f : α → List Nat) (l : List α) (i : Nat) (y : α) (hi : i < l.length) (x : Nat) :
    ((l.set i y).flatMap f).count x + (f l[i]).count x = (l.flatMap f).count x + (f y).count x := by
  induction l generalizing i with
  | nil => simp at hi
  | cons z l ih =>
    cases i with
    | zero => simp [List.count_append]; omega
    | succ i =>
      simp only [List.set_cons_succ, List.flatMap_cons, List.count_append, List.getElem_cons_succ]
      have := ih i (by simpa using hi)
      omega

theorem filterMap_set_count (l : List (Option Nat)) (j k : Nat) (hj : j < l.length) (h0 : l[j] = none) (x : Nat) :
    ((l.set j (some k)).filterMap id).count x = (l.filterMap id).count x + [k].count x := by
  induction l generalizing j with
  | nil => simp at hj
  | cons z l ih =>
    cases j with
    | zero =>
      simp only [List.getElem_cons_zero] at h0
      subst h0
      simp [List.count_cons]
    | succ j =>
      have := ih j (by simpa using hj) (by simpa using h0)
      cases z with
      | none => simpa using this
      | some z => simp only [List.set_cons_succ, List.filterMap_cons, id_eq, List.count_cons]; simp only [List.count_cons] at this; omega

/-- an entry of the array of generators is replaced -/
theorem setSub_spec (m : M) (i : Nat) (s : Sub) (a : Nat) (l : List (Option Sub)) (hg : m.cur.gens = some (a, l))
    (hn : m.cur.ngens ≤ l.length) (hi : i < m.cur.ngens) :
    setSub i s m = some { m with cur := { m.cur with gens := some (a, l.set i (some s)) } } ∧
    ∀ x, (own { m.cur with gens := some (a, l.set i (some s)) }).count x + (subIds (l[i]'(by omega))).count x
      = (own m.cur).count x + (subIds (some s)).count x := by
  constructor
  · simp only [setSub, hg]
    rw [if_pos (by omega)]
  · intro x
    rw [own_count, own_count]
    simp only [hg, gensIds, List.count_append, List.take_set]
    have := flatMap_set_count subIds (l.take m.cur.ngens) i (some s) (by simp; omega) x
    rw [List.getElem_take] at this
    omega

end Ecgen.Own
