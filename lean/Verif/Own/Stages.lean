import Verif.Own.Lemmas
import Verif.Engine.Reach

/-!
# What the generators do to the blocks, also when they are cut off
-/

namespace Ecgen.Own
open Ecgen.Engine

/-- From `P` the assignments lead to `Q`; wherever they are cut off, `R` holds. -/
def Trip (R P : M → Prop) (l : List (M → Option M)) (Q : M → Prop) : Prop :=
  ∀ m, P m → (∃ m', runProg l m = some m' ∧ Q m') ∧ ∀ k, ∃ m', runProg (l.take k) m = some m' ∧ R m'

theorem Trip.nil {R P Q : M → Prop} (hR : ∀ m, P m → R m) (hQ : ∀ m, P m → Q m) : Trip R P [] Q :=
  fun m h => ⟨⟨m, rfl, hQ m h⟩, fun k => ⟨m, by simp [runProg], hR m h⟩⟩

theorem Trip.cons {R P P1 Q : M → Prop} {f : M → Option M} {l : List (M → Option M)} (hR : ∀ m, P m → R m)
    (hf : ∀ m, P m → ∃ m', f m = some m' ∧ P1 m') (hl : Trip R P1 l Q) : Trip R P (f :: l) Q := by
  intro m h
  obtain ⟨m1, h1, h2⟩ := hf m h
  obtain ⟨⟨m', h3, h4⟩, h5⟩ := hl m1 h2
  refine ⟨⟨m', by simp [runProg, h1, h3], h4⟩, fun k => ?_⟩
  cases k with
  | zero => exact ⟨m, rfl, hR m h⟩
  | succ k =>
    obtain ⟨m', h6, h7⟩ := h5 k
    exact ⟨m', by simp [runProg, h1, h6], h7⟩

theorem runProg_append (a b : List (M → Option M)) (m : M) : runProg (a ++ b) m = (runProg a m).bind (runProg b) := by
  induction a generalizing m with
  | nil => rfl
  | cons f a ih =>
    simp only [List.cons_append, runProg]
    cases f m with
    | none => rfl
    | some m' => exact ih m'

theorem Trip.append {R P P1 Q : M → Prop} {a b : List (M → Option M)} (ha : Trip R P a P1) (hb : Trip R P1 b Q) :
    Trip R P (a ++ b) Q := by
  intro m h
  obtain ⟨⟨m1, h1, h2⟩, h3⟩ := ha m h
  obtain ⟨⟨m2, h4, h5⟩, h6⟩ := hb m1 h2
  refine ⟨⟨m2, by rw [runProg_append, h1]; exact h4, h5⟩, fun k => ?_⟩
  by_cases hk : k ≤ a.length
  · rw [List.take_append_of_le_length hk]
    exact h3 k
  · obtain ⟨m', h7, h8⟩ := h6 (k - a.length)
    refine ⟨m', ?_, h8⟩
    have : (a ++ b).take k = a ++ b.take (k - a.length) := by
      rw [List.take_append, List.take_of_length_le (by omega)]
    rw [this, runProg_append, h1]
    exact h7

theorem Trip.weaken {R P P' Q : M → Prop} {l : List (M → Option M)} (h : Trip R P l Q) (hp : ∀ m, P' m → P m) : Trip R P' l Q :=
  fun m hm => h m (hp m hm)

theorem Inv.weak {E : Prop} {B : Nat → Bool} {m : M} (h : Inv E B m) : Inv False B m :=
  ⟨h.one, h.live, h.lt, h.base, False.elim, h.ok, h.few⟩

/-- blocks that are no longer referred to: allowed when exactness is not claimed -/
theorem Inv.forget {E : Prop} {B : Nat → Bool} {m m' : M} (h : Inv E B m) (he : ¬ E)
    (hc : ∀ x, (own m'.cur).count x ≤ (own m.cur).count x)
    (hl : ∀ x, m.live x = true → m'.live x = true) (hl' : ∀ x, m'.live x = true → x < m'.next)
    (ok : GensOk m'.cur) (few : m'.cur.ngens ≤ 3) : Inv E B m' := by
  have hmem : ∀ x, x ∈ own m'.cur → x ∈ own m.cur := by
    intro x
    rw [← List.count_pos_iff, ← List.count_pos_iff]
    have := hc x
    omega
  exact ⟨fun x => Nat.le_trans (hc x) (h.one x), fun x hx => hl x (h.live x (hmem x hx)), hl',
    fun x hb => ⟨hl x (h.base x hb).1, fun h2 => (h.base x hb).2 (hmem x h2)⟩, fun e => absurd e he, ok, few⟩

theorem Inv.lose {B : Nat → Bool} {m : M} (h : Inv False B m) (n : Nat) : Inv False B (lose n m) := by
  refine h.forget (fun e => e) (fun x => Nat.le_refl _) ?_ ?_ h.ok h.few
  · intro x hx; simp [Own.lose, hx]
  · intro x
    simp only [Own.lose]
    split
    · omega
    · intro hx; have := h.lt x hx; omega

/-! ### seeds -/

theorem putSeed_spec {E : Prop} {B : Nat → Bool} {m : M} (n : Nat) (h : Inv E B m) (hs : E → m.cur.seed = none) :
    ∃ m', putSeed n m = some m' ∧ Inv E B m' ∧ (∃ s, m'.cur.seed = some s) ∧ m'.cur.gens = m.cur.gens ∧ m'.cur.crv = m.cur.crv := by
  -- without the old seed
  have h0 : Inv E B { m with cur := { m.cur with seed := none } } := by
    by_cases he : E
    · have : ({ m with cur := { m.cur with seed := none } } : M) = m := by
        have := hs he
        cases m with
        | mk l n c => cases c; simp_all
      rw [this]; exact h
    · refine h.forget he (fun x => ?_) (fun x hx => hx) h.lt h.ok h.few
      rw [own_count, own_count]
      simp [seedIds]
  refine ⟨_, rfl, ?_, ⟨_, rfl⟩, rfl, rfl⟩
  refine h0.grow (m.next :: (List.range n).map (m.next + 1 + ·)) ?_ ?_ ?_ ?_ ?_ h0.ok h0.few
  · intro x
    rw [own_count, own_count]
    simp only [alloc, seedIds, List.count_append, List.count_nil, List.count_cons]
    omega
  · intro x
    have hnd : (m.next :: (List.range n).map (m.next + 1 + ·)).Nodup := by
      refine List.nodup_cons.2 ⟨?_, ?_⟩
      · intro hm
        obtain ⟨j, _, hj⟩ := List.mem_map.1 hm
        omega
      · rw [List.nodup_iff_pairwise_ne, List.pairwise_map]
        exact (List.nodup_range).imp fun h h2 => h (by omega)
    exact List.nodup_iff_count.1 hnd x
  · intro x hx
    show m.next ≤ x ∧ x < m.next + 1 + n
    rcases List.mem_cons.1 hx with rfl | hx
    · omega
    · obtain ⟨j, hj, rfl⟩ := List.mem_map.1 hx
      have := List.mem_range.1 hj
      omega
  · show m.next ≤ m.next + 1 + n
    omega
  · intro x
    have : x ∈ m.next :: (List.range n).map (m.next + 1 + ·) ↔ x = m.next ∨ m.next + 1 ≤ x ∧ x < m.next + 1 + n := by
      rw [List.mem_cons, List.mem_map]
      refine or_congr Iff.rfl ⟨fun ⟨a, h1, h2⟩ => ?_, fun h => ⟨x - (m.next + 1), List.mem_range.2 (by omega), by omega⟩⟩
      have := List.mem_range.1 h1
      omega
    show (if m.next + 1 ≤ x ∧ x < m.next + 1 + n then true else if x = m.next then true else m.live x) = _
    by_cases h1 : x = m.next
    · rw [if_pos (this.2 (.inl h1))]; simp [h1]
    · by_cases h2 : m.next + 1 ≤ x ∧ x < m.next + 1 + n
      · rw [if_pos (this.2 (.inr h2)), if_pos h2]
      · rw [if_neg (fun h3 => (this.1 h3).elim h1 h2), if_neg h2, if_neg h1]

theorem addPart_spec {E : Prop} {B : Nat → Bool} {m : M} (h : Inv E B m) (s : Seed) (hs : m.cur.seed = some s) :
    ∃ m', addPart m = some m' ∧ Inv E B m' ∧ m'.cur.gens = m.cur.gens ∧ m'.cur.crv = m.cur.crv := by
  simp only [addPart, hs]
  refine ⟨_, rfl, ?_, rfl, rfl⟩
  refine h.grow [m.next] ?_ ?_ ?_ ?_ ?_ h.ok h.few
  · intro x
    rw [own_count, own_count]
    simp only [alloc, seedIds, hs, List.count_append]
    omega
  · intro x; simp [List.count_cons]; split <;> simp
  · intro x hx; simp only [List.mem_singleton] at hx; subst hx; simp [alloc]
  · simp [alloc]
  · intro x; simp [alloc]

/-! ### the curve -/

theorem putCrv_spec {E : Prop} {B : Nat → Bool} {m : M} (h : Inv E B m) (hc : m.cur.crv = none) :
    ∃ m', putCrv m = some m' ∧ Inv E B m' ∧ m'.cur.gens = m.cur.gens ∧ m'.cur.seed = m.cur.seed := by
  refine ⟨_, rfl, ?_, rfl, rfl⟩
  refine h.grow [m.next] ?_ ?_ ?_ ?_ ?_ h.ok h.few
  · intro x
    rw [own_count, own_count]
    simp [alloc, hc]
    omega
  · intro x; simp [List.count_cons]; split <;> simp
  · intro x hx; simp only [List.mem_singleton] at hx; subst hx; simp [alloc]
  · simp [alloc]
  · intro x; simp [alloc]

theorem dropForTwist_spec {E : Prop} {B : Nat → Bool} {m : M} (h : Inv E B m) :
    ∃ m', dropForTwist m = some m' ∧ Inv E B m' ∧ m'.cur.gens = none := by
  unfold dropForTwist
  have e : (seedFree m.cur.seed m).bind (fun m => (subgroupsFreeDeep m.cur.gens m.cur.ngens m).bind fun m =>
      some { m with cur := { m.cur with seed := none, gens := none } })
      = (freeList (seedIds m.cur.seed ++ gensIds m.cur.ngens m.cur.gens) m).bind fun m =>
      some { m with cur := { m.cur with seed := none, gens := none } } := by
    rw [seedFree_eq, freeList_append, Option.bind_assoc]
    refine bind_cur fun m1 h1 => ?_
    rw [h1, subgroupsFreeDeep_eq _ _ h.ok]
  rw [e, h.release _ fun x => by rw [own_count, List.count_append]; omega]
  refine ⟨_, rfl, h.shrink (seedIds m.cur.seed ++ gensIds m.cur.ngens m.cur.gens) ?_ rfl (fun x => rfl) (fun a l hg => by cases hg) h.few, rfl⟩
  intro x
  rw [own_count, own_count]
  simp only [gensIds, seedIds, List.count_nil, List.count_append]
  omega

/-! ### the array of generators -/

/-- the entry `i` of the array -/
def entry (i : Nat) (m : M) : Option (Option Sub) :=
  match m.cur.gens with
  | none => none
  | some (_, l) => l[i]?

theorem getSub_entry (i : Nat) (m : M) : getSub i m = (entry i m).join := by
  unfold getSub entry
  cases m.cur.gens <;> rfl

/-- `m1` is `m` with new blocks -/
structure Grown (m m1 : M) (new : List Nat) : Prop where
  cur : m1.cur = m.cur
  one : ∀ x, new.count x ≤ 1
  rng : ∀ x ∈ new, m.next ≤ x ∧ x < m1.next
  next : m.next ≤ m1.next
  live : ∀ x, m1.live x = if x ∈ new then true else m.live x

theorem Grown.nil (m : M) : Grown m m [] := ⟨rfl, by simp, by simp, by omega, by simp⟩

theorem Grown.alloc (m : M) : Grown m (alloc m).2 [m.next] := by
  refine ⟨rfl, ?_, ?_, ?_, ?_⟩
  · intro x; simp [List.count_cons]; split <;> simp
  · intro x hx; simp only [List.mem_singleton] at hx; subst hx; simp [Own.alloc]
  · simp [Own.alloc]
  · intro x; simp [Own.alloc]

theorem Grown.alloc2 (m : M) : Grown m (Own.alloc (Own.alloc m).2).2 [m.next, m.next + 1] := by
  refine ⟨rfl, ?_, ?_, ?_, ?_⟩
  · intro x; simp [List.count_cons]; split <;> split <;> omega
  · intro x hx
    simp only [List.mem_cons, List.not_mem_nil, or_false] at hx
    simp only [Own.alloc]
    omega
  · simp [Own.alloc]; omega
  · intro x
    simp only [Own.alloc, List.mem_cons, List.not_mem_nil, or_false]
    by_cases h1 : x = m.next <;> by_cases h2 : x = m.next + 1 <;> simp [h1, h2]

/-- an entry of the array is replaced by one with additional blocks -/
theorem setSub_inv {E : Prop} {B : Nat → Bool} {m m1 : M} {new : List Nat} (h : Inv E B m) (g : Grown m m1 new)
    (i : Nat) (hi : i < m.cur.ngens) (old : Option Sub) (ho : entry i m = some old) (s : Sub)
    (hc : ∀ x, (subIds (some s)).count x = (subIds old).count x + new.count x) (hok : PtsOk s) :
    ∃ m', setSub i s m1 = some m' ∧ Inv E B m' ∧ m'.cur.ngens = m.cur.ngens ∧ m'.cur.crv = m.cur.crv ∧ m'.cur.seed = m.cur.seed ∧
      (∀ j, entry j m' = if j = i then some (some s) else entry j m) := by
  unfold entry at ho
  cases hg : m.cur.gens with
  | none => rw [hg] at ho; cases ho
  | some q =>
    obtain ⟨a, l⟩ := q
    rw [hg] at ho
    simp only at ho
    obtain ⟨hlen, hpts⟩ := h.ok a l hg
    have hil : i < l.length := by omega
    have hli : l[i] = old := by
      rw [List.getElem?_eq_getElem hil] at ho
      exact Option.some.inj ho
    obtain ⟨h1, h2⟩ := setSub_spec m1 i s a l (by rw [g.cur, hg]) (by rw [g.cur]; exact hlen) (by rw [g.cur]; exact hi)
    refine ⟨_, h1, ?_, by rw [← g.cur], by rw [← g.cur], by rw [← g.cur], ?_⟩
    · refine h.grow new ?_ g.one ?_ g.next g.live ?_ ?_
      · intro x
        have h3 := h2 x
        rw [hli, hc x] at h3
        simp only [g.cur] at h3 ⊢
        omega
      · exact g.rng
      · intro a' l' hl'
        simp only [Option.some.injEq, Prod.mk.injEq] at hl'
        obtain ⟨rfl, rfl⟩ := hl'
        refine ⟨by simp only [g.cur, List.length_set]; exact hlen, ?_⟩
        intro t ht
        rcases List.mem_or_eq_of_mem_set ht with h4 | h4
        · exact hpts t h4
        · cases h4; exact hok
      · simp only [g.cur]; exact h.few
    · intro j
      simp only [entry, hg]
      by_cases hj : j = i
      · subst hj; simp [hil]
      · rw [if_neg hj, List.getElem?_set_ne (fun h => hj h.symm)]

/-- all generators are there -/
def Full (m : M) : Prop := 0 < m.cur.ngens ∧ ∀ i, i < m.cur.ngens → ∃ s, entry i m = some (some s)

/-- the generators with numbers in `is` are still to come, the others are there, without points -/
def Pending (E : Prop) (B : Nat → Bool) (N : Nat) (is : List Nat) (m : M) : Prop :=
  Inv E B m ∧ m.cur.ngens = N ∧
    ∀ i, i < N → (i ∈ is → entry i m = some none) ∧ (i ∉ is → ∃ s, entry i m = some (some s) ∧ s.points = none)

theorem putGens_spec {E : Prop} {B : Nat → Bool} {m : M} (len : Nat) (h : Inv E B m) (hg : m.cur.gens = none) (hl : m.cur.ngens ≤ 3 * len) :
    ∃ m', putGens len m = some m' ∧ Inv E B m' ∧ m'.cur.ngens = m.cur.ngens ∧
      ∃ a, m'.cur.gens = some (a, List.replicate (3 * len) none) := by
  refine ⟨_, rfl, ?_, rfl, _, rfl⟩
  refine h.grow [m.next] ?_ ?_ ?_ ?_ ?_ ?_ h.few
  · intro x
    rw [own_count, own_count]
    have : ∀ k, (List.replicate k (none : Option Sub)).flatMap subIds = [] := by
      intro k
      induction k with
      | zero => rfl
      | succ k ih => rw [List.replicate_succ, List.flatMap_cons, ih]; rfl
    simp only [alloc, hg, gensIds, List.take_replicate, this, List.count_append, List.count_nil]
    omega
  · intro x; simp [List.count_cons]; split <;> simp
  · intro x hx; simp only [List.mem_singleton] at hx; subst hx; simp [alloc]
  · simp [alloc]
  · intro x; simp [alloc]
  · intro a l hl'
    simp only [Option.some.injEq, Prod.mk.injEq] at hl'
    obtain ⟨rfl, rfl⟩ := hl'
    refine ⟨by simp only [alloc, List.length_replicate]; exact hl, ?_⟩
    intro s hs
    exact absurd (List.eq_of_mem_replicate hs) (by simp)

theorem putNgens_spec {E : Prop} {B : Nat → Bool} {m : M} (n len : Nat) (h : Inv E B m) (a : Nat)
    (hg : m.cur.gens = some (a, List.replicate len none)) (hl : n ≤ len) (h3 : n ≤ 3) :
    ∃ m', putNgens n m = some m' ∧ Pending E B n (List.range n) m' := by
  refine ⟨_, rfl, ?_, rfl, ?_⟩
  · refine h.same ?_ rfl rfl ?_ h3
    · intro x
      rw [own_count, own_count]
      have : ∀ k, (List.replicate k (none : Option Sub)).flatMap subIds = [] := by
        intro k
        induction k with
        | zero => rfl
        | succ k ih => rw [List.replicate_succ, List.flatMap_cons, ih]; rfl
      simp only [hg, gensIds, List.take_replicate, this]
    · intro a' l' hl'
      simp only [hg, Option.some.injEq, Prod.mk.injEq] at hl'
      obtain ⟨rfl, rfl⟩ := hl'
      refine ⟨by simpa using hl, ?_⟩
      intro s hs
      exact absurd (List.eq_of_mem_replicate hs) (by simp)
  · intro i hi
    refine ⟨fun _ => ?_, fun h => absurd (List.mem_range.2 hi) h⟩
    simp only [entry, hg]
    rw [List.getElem?_replicate, if_pos (by omega)]

theorem putSub_spec {E : Prop} {B : Nat → Bool} {N : Nat} {is : List Nat} {m : M} (i : Nat) (hi : i < N) (hn : i ∉ is)
    (h : Pending E B N (i :: is) m) : ∃ m', putSub i m = some m' ∧ Pending E B N is m' := by
  obtain ⟨h1, h2, h3⟩ := h
  obtain ⟨m', e, h4, h5, _, _, h6⟩ := setSub_inv h1 (Grown.alloc2 m) i (by omega) none ((h3 i hi).1 List.mem_cons_self)
    { id := m.next, gen := some (m.next + 1), npoints := 0, points := none }
    (by intro x; simp [subIds, ptsIds, List.count_cons]; omega) (by intro a l hl; cases hl)
  refine ⟨m', e, h4, by omega, ?_⟩
  intro j hj
  rw [h6 j]
  by_cases hji : j = i
  · subst hji
    exact ⟨fun h => absurd h hn, fun _ => ⟨_, if_pos rfl, rfl⟩⟩
  · rw [if_neg hji]
    obtain ⟨h7, h8⟩ := h3 j hj
    exact ⟨fun h => h7 (List.mem_cons_of_mem _ h), fun h => h8 (by simp [hji, h])⟩

theorem subs_trip {E : Prop} {B : Nat → Bool} {N : Nat} (is rest : List Nat) (hlt : ∀ i ∈ is, i < N) (hnd : (is ++ rest).Nodup) :
    Trip (Inv False B) (Pending E B N (is ++ rest)) (is.map putSub) (Pending E B N rest) := by
  induction is with
  | nil => exact Trip.nil (fun m h => h.1.weak) fun m h => h
  | cons i is ih =>
    have h2 := List.nodup_cons.1 hnd
    exact Trip.cons (fun m h => h.1.weak) (fun m h => putSub_spec i (hlt i List.mem_cons_self) h2.1 h)
      (ih (fun j hj => hlt j (List.mem_cons_of_mem _ hj)) h2.2)

theorem Pending.full {E : Prop} {B : Nat → Bool} {N : Nat} {m : M} (h : Pending E B N [] m) (hN : 0 < N) :
    Full m ∧ ∀ i s, entry i m = some (some s) → i < m.cur.ngens → s.points = none := by
  obtain ⟨_, h2, h3⟩ := h
  refine ⟨⟨by omega, fun i hi => ?_⟩, fun i s hs hi => ?_⟩
  · obtain ⟨s, hs, _⟩ := (h3 i (by omega)).2 (by simp)
    exact ⟨s, hs⟩
  · obtain ⟨t, ht, hp⟩ := (h3 i (by omega)).2 (by simp)
    rw [ht] at hs
    cases hs
    exact hp

end Ecgen.Own
