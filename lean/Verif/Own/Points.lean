import Verif.Own.Stages

/-!
# The generators and the points of a curve: what is allocated and released
-/

namespace Ecgen.Own
open Ecgen.Engine

theorem trip_range {R : M → Prop} (P : Nat → M → Prop) (f : Nat → List (M → Option M)) (n k : Nat)
    (hf : ∀ j, k ≤ j → j < k + n → Trip R (P j) (f j) (P (j + 1))) (hR : ∀ j m, P j m → R m) :
    Trip R (P k) ((List.range' k n).flatMap f) (P (k + n)) := by
  induction n generalizing k with
  | zero => exact Trip.nil (hR k) fun m h => h
  | succ n ih =>
    rw [List.range'_succ, List.flatMap_cons]
    refine Trip.append (hf k (Nat.le_refl _) (by omega)) ?_
    have := ih (k + 1) fun j h1 h2 => hf j (by omega) (by omega)
    rwa [show k + 1 + n = k + (n + 1) by omega] at this

theorem trip_map {R : M → Prop} (P : Nat → M → Prop) (f : Nat → M → Option M) (n : Nat)
    (hf : ∀ j, j < n → ∀ m, P j m → ∃ m', f j m = some m' ∧ P (j + 1) m') (hR : ∀ j m, P j m → R m) :
    Trip R (P 0) ((List.range n).map f) (P n) := by
  have h := trip_range (R := R) P (fun j => [f j]) n 0
    (fun j _ hj => Trip.cons (hR j) (hf j (by omega)) (Trip.nil (hR _) fun m h => h)) hR
  rw [Nat.zero_add] at h
  have e : (List.range n).map f = (List.range' 0 n).flatMap fun j => [f j] := by
    rw [← List.range_eq_range', List.map_eq_flatMap]
  rw [e]
  exact h

/-! ### the generators -/

theorem gens_trip {E : Prop} {B : Nat → Bool} (C : Cfg) (p : Pick) (n : Nat) (h1 : 1 ≤ p.len) (h2 : p.len ≤ 2) :
    Trip (Inv False B) (fun m => Inv E B m ∧ m.cur.gens = none) (prog C 6 p n) (fun m => ∃ N, 0 < N ∧ Pending E B N [] m) := by
  have h3 : ∀ m : M, Inv E B m ∧ m.cur.gens = none → ∀ len, 1 ≤ len →
      ∃ m', putGens len m = some m' ∧ (Inv E B m' ∧ ∃ a, m'.cur.gens = some (a, List.replicate (3 * len) none)) := by
    intro m h len hl
    obtain ⟨m', e, i, _, g⟩ := putGens_spec len h.1 h.2 (by have := h.1.few; omega)
    exact ⟨m', e, i, g⟩
  cases hC : C.gens with
  | put =>
    simp only [prog, hC]
    refine Trip.cons (P1 := fun m => Inv E B m ∧ ∃ a, m.cur.gens = some (a, List.replicate (3 * p.len) none))
      (fun m h => h.1.weak) (fun m h => h3 m h p.len h1) ?_
    refine Trip.cons (P1 := Pending E B p.len (List.range p.len)) (fun m h => h.1.weak) (fun m h => ?_) ?_
    · obtain ⟨h, a, ha⟩ := h
      exact putNgens_spec p.len _ h a ha (by omega) (by omega)
    · have := subs_trip (E := E) (B := B) (N := p.len) (List.range p.len) [] (fun i hi => List.mem_range.1 hi)
        (by simp [List.nodup_range])
      rw [List.append_nil] at this
      intro m h
      obtain ⟨⟨m', e, q⟩, r⟩ := this m h
      exact ⟨⟨m', e, p.len, h1, q⟩, r⟩
  | cofactor =>
    simp only [prog, hC, List.cons_append]
    refine Trip.cons (P1 := fun m => Inv E B m ∧ m.cur.gens = none ∧ m.cur.ngens = p.len + 1)
      (fun m h => h.1.weak) (fun m h => ⟨_, rfl, ?_, h.2, rfl⟩) ?_
    · refine h.1.same (fun x => ?_) rfl rfl (fun a l hl => ?_) (by simp only; omega)
      · rw [own_count, own_count]; simp [h.2, gensIds]
      · rw [h.2] at hl; cases hl
    refine Trip.cons (P1 := Pending E B (p.len + 1) (List.range' 1 p.len ++ [0])) (fun m h => h.1.weak) (fun m h => ?_) ?_
    · obtain ⟨m', e, i, g1, a, g2⟩ := putGens_spec (p.len + 1) h.1 h.2.1 (by have := h.1.few; omega)
      refine ⟨m', e, i, by omega, ?_⟩
      intro i hi
      refine ⟨fun _ => ?_, fun hn => absurd ?_ hn⟩
      · simp only [entry, g2]
        rw [List.getElem?_replicate, if_pos (by omega)]
      · rw [List.mem_append, List.mem_range'_1, List.mem_singleton]
        omega
    · have h4 : ((List.range p.len).map fun i => putSub (i + 1)) = (List.range' 1 p.len).map putSub := by
        have : List.range' 1 p.len = (List.range' 0 p.len).map (1 + ·) := by rw [List.map_add_range']
        rw [this, List.map_map, List.range_eq_range']
        refine List.map_congr_left fun i _ => ?_
        simp only [Function.comp_apply, Nat.add_comm]
      rw [h4]
      refine Trip.append (subs_trip _ [0] ?_ ?_) ?_ (P1 := Pending E B (p.len + 1) [0])
      · intro i hi
        rw [List.mem_range'_1] at hi
        omega
      · rw [List.nodup_append]
        refine ⟨List.nodup_range', by simp, ?_⟩
        intro a ha b hb
        rw [List.mem_range'_1] at ha
        rw [List.mem_singleton] at hb
        omega
      · refine Trip.cons (P1 := Pending E B (p.len + 1) []) (fun m h => h.1.weak)
          (fun m h => putSub_spec 0 (by omega) (by simp) h) ?_
        exact Trip.nil (fun m h => h.1.weak) fun m h => ⟨_, by omega, h⟩
  | base =>
    simp only [prog, hC]
    refine Trip.cons (P1 := fun m => Inv E B m ∧ ∃ a, m.cur.gens = some (a, List.replicate (3 * 1) none))
      (fun m h => h.1.weak) (fun m h => h3 m h 1 (by omega)) ?_
    refine Trip.cons (P1 := Pending E B 1 (List.range 1)) (fun m h => h.1.weak) (fun m h => ?_) ?_
    · obtain ⟨h, a, ha⟩ := h
      exact putNgens_spec 1 _ h a ha (by omega) (by omega)
    refine Trip.cons (P1 := fun m => Inv E B m ∧ m.cur.ngens = 1 ∧
        ∃ s, entry 0 m = some (some s) ∧ s.points = none ∧ s.gen = none) (fun m h => h.1.weak) (fun m h => ?_) ?_
    · obtain ⟨i1, i2, i3⟩ := h
      obtain ⟨m', e, j1, j2, _, _, j3⟩ := setSub_inv i1 (Grown.alloc m) 0 (by omega) none ((i3 0 (by omega)).1 (by simp))
        { id := m.next, gen := none, npoints := 0, points := none } (by intro x; simp [subIds, ptsIds]) (by intro a l hl; cases hl)
      exact ⟨m', e, j1, by omega, _, by rw [j3 0, if_pos rfl], rfl, rfl⟩
    refine Trip.cons (P1 := Pending E B 1 []) (fun m h => h.1.weak) (fun m h => ?_)
      (Trip.nil (fun m h => h.1.weak) fun m h => ⟨1, by omega, h⟩)
    obtain ⟨i1, i2, s, i3, i4, i5⟩ := h
    obtain ⟨m', e, j1, j2, _, _, j3⟩ := setSub_inv i1 (Grown.alloc m) 0 (by omega) (some s) i3
      { s with gen := some m.next } (by intro x; simp [subIds, ptsIds, i4, i5, List.count_cons])
      (by intro a l hl; simp only [i4] at hl; cases hl)
    refine ⟨m', ?_, j1, by omega, ?_⟩
    · simp only [putGenerator, getSub_entry, i3, Option.join_some, Option.bind_some]
      exact e
    · intro k hk
      have hk0 : k = 0 := by omega
      subst hk0
      exact ⟨by simp, fun _ => ⟨{ s with gen := some m.next }, by rw [j3 0, if_pos rfl], i4⟩⟩

/-! ### the points -/

/-- generator `i` is `s`, the later ones have no points yet -/
structure At (E : Prop) (B : Nat → Bool) (N i : Nat) (s : Sub) (m : M) : Prop where
  inv : Inv E B m
  full : Full m
  n : m.cur.ngens = N
  lt : i < N
  here : entry i m = some (some s)
  later : ∀ j, i < j → j < N → ∀ t, entry j m = some (some t) → t.points = none

/-- the generators from `i` on have no points yet -/
structure From (E : Prop) (B : Nat → Bool) (N i : Nat) (m : M) : Prop where
  inv : Inv E B m
  full : Full m
  n : m.cur.ngens = N
  later : ∀ j, i ≤ j → j < N → ∀ t, entry j m = some (some t) → t.points = none

theorem At.set {E : Prop} {B : Nat → Bool} {N i : Nat} {s : Sub} {m m1 : M} {new : List Nat} (h : At E B N i s m)
    (g : Grown m m1 new) (s' : Sub) (hc : ∀ x, (subIds (some s')).count x = (subIds (some s)).count x + new.count x) (hok : PtsOk s') :
    ∃ m', setSub i s' m1 = some m' ∧ At E B N i s' m' := by
  obtain ⟨m', e, j1, j2, _, _, j3⟩ := setSub_inv h.inv g i (by rw [h.n]; exact h.lt) (some s) h.here s' hc hok
  refine ⟨m', e, j1, ⟨by have := h.full.1; omega, fun k hk => ?_⟩, by rw [j2, h.n], h.lt, by rw [j3 i, if_pos rfl], ?_⟩
  · rw [j3 k]
    by_cases hki : k = i
    · exact ⟨s', by rw [if_pos hki]⟩
    · rw [if_neg hki]; exact h.full.2 k (by omega)
  · intro j h1 h2 t ht
    rw [j3 j, if_neg (by omega)] at ht
    exact h.later j h1 h2 t ht

theorem At.get {E : Prop} {B : Nat → Bool} {N i : Nat} {s : Sub} {m : M} (h : At E B N i s m) : getSub i m = some s := by
  rw [getSub_entry, h.here]; rfl

theorem At.done {E : Prop} {B : Nat → Bool} {N i : Nat} {s : Sub} {m : M} (h : At E B N i s m) : From E B N (i + 1) m :=
  ⟨h.inv, h.full, h.n, fun j h1 h2 => h.later j h1 h2⟩

theorem From.at {E : Prop} {B : Nat → Bool} {N i : Nat} {m : M} (h : From E B N i m) (hi : i < N) :
    ∃ s, At E B N i s m ∧ s.points = none := by
  obtain ⟨s, hs⟩ := h.full.2 i (by rw [h.n]; exact hi)
  exact ⟨s, ⟨h.inv, h.full, h.n, hi, hs, fun j h1 h2 => h.later j (by omega) h2⟩, h.later i (Nat.le_refl _) hi s hs⟩

theorem From.mono {E : Prop} {B : Nat → Bool} {N i k : Nat} {m : M} (h : From E B N i m) (hk : i ≤ k) : From E B N k m :=
  ⟨h.inv, h.full, h.n, fun j h1 h2 => h.later j (by omega) h2⟩

/-- what remains true when the generation of points is cut off -/
def Kept (B : Nat → Bool) (m : M) : Prop := Inv False B m ∧ Full m

theorem putNpoints_spec {E : Prop} {B : Nat → Bool} {N i : Nat} (n : Nat) {m : M}
    (h : ∃ s, At E B N i s m ∧ s.points = none) :
    ∃ m', putNpoints i n m = some m' ∧ ∃ s, At E B N i s m' ∧ s.points = none ∧ s.npoints = n := by
  obtain ⟨s, h, hp⟩ := h
  obtain ⟨m', e, h'⟩ := h.set (Grown.nil m) { s with npoints := n } (by intro x; simp [subIds, hp, ptsIds])
    (by intro a l hl; simp only [hp] at hl; cases hl)
  exact ⟨m', by simp only [putNpoints, h.get, Option.bind_some]; exact e, _, h', hp, rfl⟩

/-- the first `j` of `n` points are there -/
def Filling (E : Prop) (B : Nat → Bool) (N i n j : Nat) (m : M) : Prop :=
  ∃ s a l, At E B N i s m ∧ s.npoints = n ∧ s.points = some (a, l) ∧ l.length = 3 * n ∧ ∀ k, j ≤ k → k < n → l[k]? = some none

theorem replicate_filterMap (k : Nat) : (List.replicate k (none : Option Nat)).filterMap id = [] := by
  induction k with
  | zero => rfl
  | succ k ih => rw [List.replicate_succ, List.filterMap_cons_none rfl, ih]

theorem putPoints_spec {E : Prop} {B : Nat → Bool} {N i : Nat} (n : Nat) {m : M}
    (h : ∃ s, At E B N i s m ∧ s.points = none ∧ s.npoints = n) :
    ∃ m', putPoints i n m = some m' ∧ Filling E B N i n 0 m' := by
  obtain ⟨s, h, hp, hn⟩ := h
  obtain ⟨m', e, h'⟩ := h.set (Grown.alloc m) { s with points := some (m.next, List.replicate (3 * n) none) }
    (by intro x; simp only [subIds, hp, ptsIds, List.take_replicate, replicate_filterMap, List.count_append, List.nil_append]; omega)
    (by intro a l hl; cases hl; simp only [List.length_replicate]; omega)
  refine ⟨m', by simp only [putPoints, h.get, Option.bind_some]; exact e, _, m.next, _, h', hn, rfl, List.length_replicate, ?_⟩
  intro k _ hk
  rw [List.getElem?_replicate, if_pos (by omega)]

theorem putPoint_spec {E : Prop} {B : Nat → Bool} {N i n : Nat} (j : Nat) (hj : j < n) {m : M} (h : Filling E B N i n j m) :
    ∃ m', putPoint i j m = some m' ∧ Filling E B N i n (j + 1) m' := by
  obtain ⟨s, a, l, h, hn, hp, hl, h0⟩ := h
  have hjl : j < l.length := by omega
  have hnone : l[j] = none := by
    have := h0 j (Nat.le_refl _) hj
    rw [List.getElem?_eq_getElem hjl] at this
    exact Option.some.inj this
  obtain ⟨m', e, h'⟩ := h.set (Grown.alloc m) { s with points := some (a, l.set j (some m.next)) }
    (by
      intro x
      have := filterMap_set_count (l.take n) j m.next (by simp; omega) (by rw [List.getElem_take]; exact hnone) x
      simp only [subIds, hp, ptsIds, List.count_append, List.take_set, hn, this]
      omega)
    (by intro a' l' hl'; cases hl'; simp only [List.length_set]; omega)
  refine ⟨m', ?_, _, a, _, h', hn, rfl, by rw [List.length_set, hl], ?_⟩
  · simp only [putPoint, h.get, Option.bind_some, hp]
    rw [if_pos hjl]
    exact e
  · intro k h1 h2
    rw [List.getElem?_set_ne (by omega)]
    exact h0 k (by omega) h2

theorem fillPoints_length (w : List Bool) (k : Nat) : (fillPoints w k).length = w.length := by
  induction w generalizing k with
  | nil => rfl
  | cons b w ih => cases b <;> simp [fillPoints, ih]

theorem fillPoints_ids (w : List Bool) (k : Nat) : (fillPoints w k).filterMap id = List.range' k (w.count true) := by
  induction w generalizing k with
  | nil => rfl
  | cons b w ih =>
    cases b with
    | false =>
      rw [fillPoints, List.filterMap_cons_none rfl, ih, List.count_cons_of_ne (by decide)]
    | true =>
      rw [fillPoints, List.filterMap_cons_some (f := id) (b := k) rfl, ih, List.count_cons_self, List.range'_succ]

theorem putFilled_spec {E : Prop} {B : Nat → Bool} {N i : Nat} (w : List Bool) {m : M}
    (h : ∃ s, At E B N i s m ∧ s.points = none ∧ s.npoints = w.length) :
    ∃ m', putFilled i w m = some m' ∧ ∃ s, At E B N i s m' := by
  obtain ⟨s, h, hp, hn⟩ := h
  have hmem : ∀ x, x ∈ m.next :: List.range' (m.next + 1) (w.count true) ↔ x = m.next ∨ m.next + 1 ≤ x ∧ x < m.next + 1 + w.count true := by
    intro x; rw [List.mem_cons, List.mem_range'_1]
  obtain ⟨m', e, h'⟩ := h.set (m1 := { (alloc m).2 with
      live := fun x => if m.next + 1 ≤ x ∧ x < m.next + 1 + w.count true then true else (alloc m).2.live x,
      next := m.next + 1 + w.count true }) (new := m.next :: List.range' (m.next + 1) (w.count true))
    ⟨rfl, fun x => List.nodup_iff_count.1 (List.nodup_cons.2 ⟨fun h => by rw [List.mem_range'_1] at h; omega, List.nodup_range'⟩) x,
      fun x hx => by have := (hmem x).1 hx; simp only; omega, by simp only; omega,
      fun x => by
        show (if m.next + 1 ≤ x ∧ x < m.next + 1 + w.count true then true else if x = m.next then true else m.live x) = _
        by_cases h1 : x = m.next
        · rw [if_pos ((hmem x).2 (.inl h1))]; simp [h1]
        · by_cases h2 : m.next + 1 ≤ x ∧ x < m.next + 1 + w.count true
          · rw [if_pos ((hmem x).2 (.inr h2)), if_pos h2]
          · rw [if_neg (fun h3 => ((hmem x).1 h3).elim h1 h2), if_neg h2, if_neg h1]⟩
    { s with points := some (m.next, fillPoints w (m.next + 1) ++ List.replicate (2 * w.length) none) }
    (by
      intro x
      have : (fillPoints w (m.next + 1) ++ List.replicate (2 * w.length) none).take w.length = fillPoints w (m.next + 1) := by
        rw [List.take_append_of_le_length (by rw [fillPoints_length]; exact Nat.le_refl _), List.take_of_length_le (by rw [fillPoints_length]; exact Nat.le_refl _)]
      simp only [subIds, hp, ptsIds, hn, this, fillPoints_ids, List.count_append, List.count_cons, List.count_nil]
      omega)
    (by intro a l hl; cases hl; simp only [List.length_append, fillPoints_length]; omega)
  exact ⟨m', by simp only [putFilled, h.get, Option.bind_some]; exact e, _, h'⟩

theorem At.kept {E : Prop} {B : Nat → Bool} {N i : Nat} {s : Sub} {m : M} (h : At E B N i s m) : Kept B m := ⟨h.inv.weak, h.full⟩
theorem From.kept {E : Prop} {B : Nat → Bool} {N i : Nat} {m : M} (h : From E B N i m) : Kept B m := ⟨h.inv.weak, h.full⟩

theorem random_trip {E : Prop} {B : Nat → Bool} {N : Nat} (i n : Nat) (hi : i < N) :
    Trip (Kept B) (From E B N i) (randomFor i n) (From E B N (i + 1)) := by
  unfold randomFor
  split
  · refine Trip.cons (P1 := fun m => ∃ s, At E B N i s m ∧ s.points = none ∧ s.npoints = 0) (fun m h => h.kept)
      (fun m h => putNpoints_spec 0 (h.at hi)) ?_
    exact Trip.nil (fun m ⟨s, h, _⟩ => h.kept) fun m ⟨s, h, _⟩ => h.done
  · refine Trip.cons (P1 := fun m => ∃ s, At E B N i s m ∧ s.points = none ∧ s.npoints = n) (fun m h => h.kept)
      (fun m h => putNpoints_spec n (h.at hi)) ?_
    refine Trip.cons (P1 := Filling E B N i n 0) (fun m ⟨s, h, _⟩ => h.kept) (fun m h => putPoints_spec n h) ?_
    intro m h
    obtain ⟨⟨m', e, s, a, l, h1, _⟩, r⟩ := trip_map (R := Kept B) (Filling E B N i n) (putPoint i) n
      (fun j hj m h => putPoint_spec j hj h) (fun j m ⟨s, a, l, h, _⟩ => h.kept) m h
    exact ⟨⟨m', e, h1.done⟩, r⟩

theorem orders_trip {E : Prop} {B : Nat → Bool} {N : Nat} (i : Nat) (o : Option (List Bool)) (hi : i < N) :
    Trip (Kept B) (From E B N i) (ordersFor i o) (From E B N (i + 1)) := by
  cases o with
  | none => exact Trip.nil (fun m h => h.kept) fun m h => h.mono (by omega)
  | some w =>
    refine Trip.cons (P1 := fun m => ∃ s, At E B N i s m ∧ s.points = none ∧ s.npoints = w.length) (fun m h => h.kept)
      (fun m h => putNpoints_spec w.length (h.at hi)) ?_
    refine Trip.cons (P1 := fun m => ∃ s, At E B N i s m) (fun m ⟨s, h, _⟩ => h.kept) (fun m h => putFilled_spec w h) ?_
    exact Trip.nil (fun m ⟨s, h⟩ => h.kept) fun m ⟨s, h⟩ => h.done

theorem points_trip {E : Prop} {B : Nat → Bool} {N : Nat} (C : Cfg) (p : Pick) (hN : 0 < N) :
    Trip (Kept B) (From E B N 0) (prog C 7 p N) (fun m => Inv E B m ∧ Full m) := by
  cases hC : C.points with
  | skip => simp only [prog, hC]; exact Trip.nil (fun m h => h.kept) fun m h => ⟨h.inv, h.full⟩
  | single =>
    simp only [prog, hC]
    have hi : p.which % N < N := Nat.mod_lt _ hN
    have := random_trip (E := E) (B := B) (p.which % N) 1 hi
    intro m h
    obtain ⟨⟨m', e, h1⟩, r⟩ := this m (h.mono (Nat.zero_le _))
    exact ⟨⟨m', e, h1.inv, h1.full⟩, r⟩
  | random =>
    simp only [prog, hC]
    rw [List.range_eq_range']
    intro m h
    obtain ⟨⟨m', e, h1⟩, r⟩ := trip_range (R := Kept B) (From E B N) (fun i => randomFor i (p.counts.getD i 0)) N 0
      (fun j _ hj => random_trip j _ (by omega)) (fun j m h => h.kept) m h
    exact ⟨⟨m', e, h1.inv, h1.full⟩, r⟩
  | orders =>
    simp only [prog, hC]
    rw [List.range_eq_range']
    intro m h
    obtain ⟨⟨m', e, h1⟩, r⟩ := trip_range (R := Kept B) (From E B N) (fun i => ordersFor i (p.orders.getD i none)) N 0
      (fun j _ hj => orders_trip j _ (by omega)) (fun j m h => h.kept) m h
    exact ⟨⟨m', e, h1.inv, h1.full⟩, r⟩

/-! ### releasing the points -/

theorem subIds_count (s : Sub) (x : Nat) :
    (subIds (some s)).count x = (ptsIds s.npoints s.points).count x + s.gen.toList.count x + [s.id].count x := by
  simp only [subIds, List.count_append]
  omega

theorem unrollOne {E : Prop} {B : Nat → Bool} {m : M} (h : Inv E B m) (i : Nat) (hi : i < m.cur.ngens) (s : Sub)
    (hs : entry i m = some (some s)) :
    ∃ m', ((pointsFreeDeep s.points s.npoints m).bind fun m => setSub i { s with points := none } m) = some m' ∧
      Inv E B m' ∧ m'.cur.ngens = m.cur.ngens ∧ m'.cur.crv = m.cur.crv ∧ m'.cur.seed = m.cur.seed ∧
      ∀ j, entry j m' = if j = i then some (some { s with points := none }) else entry j m := by
  have hent := hs
  unfold entry at hs
  cases hg : m.cur.gens with
  | none => rw [hg] at hs; cases hs
  | some q =>
    obtain ⟨a, l⟩ := q
    rw [hg] at hs
    simp only at hs
    obtain ⟨hlen, hpts⟩ := h.ok a l hg
    have hil : i < l.length := by omega
    have hli : l[i] = some s := by
      rw [List.getElem?_eq_getElem hil] at hs
      exact Option.some.inj hs
    have hok : PtsOk s := hpts s (by rw [← hli]; exact List.getElem_mem hil)
    have hle : ∀ x, (ptsIds s.npoints s.points).count x ≤ (own m.cur).count x := by
      intro x
      have h2 := (setSub_spec m i { s with points := none } a l hg hlen hi).2 x
      rw [hli] at h2
      rw [subIds_count, subIds_count] at h2
      have h3 : (ptsIds s.npoints none).count x = 0 := rfl
      simp only [h3] at h2
      omega
    rw [pointsFreeDeep_eq _ _ _ hok, h.release _ hle]
    obtain ⟨h1, h2⟩ := setSub_spec { m with live := fun x => if x ∈ ptsIds s.npoints s.points then false else m.live x }
      i { s with points := none } a l hg hlen hi
    refine ⟨⟨fun x => if x ∈ ptsIds s.npoints s.points then false else m.live x, m.next,
      { m.cur with gens := some (a, l.set i (some { s with points := none })) }⟩, by rw [Option.bind_some]; exact h1, ?_, rfl, rfl, rfl, ?_⟩
    · refine h.shrink (ptsIds s.npoints s.points) ?_ rfl (fun x => rfl) ?_ h.few
      · intro x
        have h3 := h2 x
        rw [hli] at h3
        rw [subIds_count, subIds_count] at h3
        have h4 : (ptsIds s.npoints none).count x = 0 := rfl
        simp only [h4] at h3 ⊢
        omega
      · intro a' l' hl'
        simp only [Option.some.injEq, Prod.mk.injEq] at hl'
        obtain ⟨rfl, rfl⟩ := hl'
        refine ⟨by simp only [List.length_set]; exact hlen, ?_⟩
        intro t ht
        rcases List.mem_or_eq_of_mem_set ht with h4 | h4
        · exact hpts t h4
        · cases h4; intro a l hl; cases hl
    · intro j
      simp only [entry, hg]
      by_cases hj : j = i
      · subst hj; simp [hil]
      · rw [if_neg hj, List.getElem?_set_ne (fun h => hj h.symm)]

theorem unrollLoop_spec {E : Prop} {B : Nat → Bool} (n i : Nat) {m : M} (h : Inv E B m) (hf : Full m) (hn : i + n = m.cur.ngens) :
    ∃ m', pointsUnrollLoop i n m = some m' ∧ Inv E B m' ∧ m'.cur.crv = m.cur.crv ∧ m'.cur.seed = m.cur.seed := by
  induction n generalizing i m with
  | zero => exact ⟨m, rfl, h, rfl, rfl⟩
  | succ n ih =>
    obtain ⟨s, hs⟩ := hf.2 i (by omega)
    obtain ⟨m1, e, h1, h2, h3, h4, h5⟩ := unrollOne h i (by omega) s hs
    have hf1 : Full m1 := by
      refine ⟨by have := hf.1; omega, fun k hk => ?_⟩
      rw [h5 k]
      by_cases hki : k = i
      · exact ⟨_, by rw [if_pos hki]⟩
      · rw [if_neg hki]; exact hf.2 k (by omega)
    obtain ⟨m', e', j1, j2, j3⟩ := ih (i + 1) h1 hf1 (by omega)
    refine ⟨m', ?_, j1, by rw [j2, h3], by rw [j3, h4]⟩
    have hget : getSub i m = some s := by rw [getSub_entry, hs]; rfl
    simp only [pointsUnrollLoop, hget, Option.bind_some]
    cases hp : pointsFreeDeep s.points s.npoints m with
    | none => rw [hp] at e; cases e
    | some m2 =>
      rw [hp, Option.bind_some] at e
      rw [Option.bind_some, e, Option.bind_some]
      exact e'

theorem pointsUnroll_spec {E : Prop} {B : Nat → Bool} {m : M} (h : Inv E B m) (hf : Full m) :
    ∃ m', pointsUnroll m = some m' ∧ Inv E B m' ∧ m'.cur.crv = m.cur.crv ∧ m'.cur.seed = m.cur.seed := by
  unfold pointsUnroll
  split
  · exact ⟨m, rfl, h, rfl, rfl⟩
  · exact unrollLoop_spec _ 0 h hf (by omega)

end Ecgen.Own
