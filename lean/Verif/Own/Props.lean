import Verif.Own.Search

/-!
# C68: every object of a search is released exactly once, except lost seeds
-/

namespace Ecgen.Own
open Ecgen.Engine Ecgen.Engine.Spec

/-! ### Specification -/

/-- the block `x` is one that a reader of the curve comes across: the seed, the curve, the array of generators, its first `ngens` entries with
their points -/
def Refers (c : Curve) (x : Nat) : Prop :=
  x = c.id ∨ c.crv = some x ∨ (∃ s, c.seed = some s ∧ (x = s.id ∨ x ∈ s.parts)) ∨
  ∃ a l, c.gens = some (a, l) ∧ (x = a ∨ ∃ i s, i < c.ngens ∧ l[i]? = some (some s) ∧
    (x = s.id ∨ s.gen = some x ∨ ∃ b q, s.points = some (b, q) ∧ (x = b ∨ ∃ j, j < s.npoints ∧ q[j]? = some (some x))))

/-- a block that is neither released nor referred to by the curve -/
def Lost (m : M) (x : Nat) : Prop := m.live x = true ∧ ¬ Refers m.cur x

/-! ### Lemmas -/

theorem refers_own (c : Curve) (x : Nat) (h : Refers c x) : x ∈ own c := by
  unfold own
  simp only [List.mem_append, List.mem_singleton]
  rcases h with rfl | h | ⟨s, hs, h⟩ | ⟨a, l, hg, h⟩
  · exact Or.inr (Or.inr (Or.inr rfl))
  · exact Or.inr (Or.inr (Or.inl (by rw [h]; simp)))
  · left
    rw [hs]
    simp only [seedIds, List.mem_append, List.mem_singleton]
    exact h.symm
  · right; left
    rw [hg]
    simp only [gensIds, List.mem_append, List.mem_singleton, List.mem_flatMap]
    rcases h with h | ⟨i, s, hi, hl, h⟩
    · exact Or.inr h
    · refine Or.inl ⟨some s, ?_, ?_⟩
      · exact List.mem_of_getElem? (i := i) (by rw [List.getElem?_take_of_lt hi]; exact hl)
      · simp only [subIds, List.mem_append, List.mem_singleton]
        rcases h with h | h | ⟨b, q, hp, h⟩
        · exact Or.inr (Or.inr h)
        · exact Or.inr (Or.inl (by rw [h]; simp))
        · left
          rw [hp]
          simp only [ptsIds, List.mem_append, List.mem_singleton, List.mem_filterMap, id]
          rcases h with h | ⟨j, hj, h⟩
          · exact Or.inr h
          · exact Or.inl ⟨some x, List.mem_of_getElem? (i := j) (by rw [List.getElem?_take_of_lt hj]; exact h), rfl⟩

theorem mem_take {α : Type} (l : List α) (n : Nat) (a : α) (h : a ∈ l.take n) : ∃ i, i < n ∧ l[i]? = some a := by
  obtain ⟨i, hi⟩ := List.mem_iff_getElem?.1 h
  rw [List.getElem?_take] at hi
  split at hi
  · exact ⟨i, by assumption, hi⟩
  · cases hi

theorem own_refers (c : Curve) (x : Nat) (h : x ∈ own c) : Refers c x := by
  unfold own at h
  simp only [List.mem_append, List.mem_singleton] at h
  rcases h with h | h | h | h
  · cases hs : c.seed with
    | none => rw [hs] at h; cases h
    | some s =>
      rw [hs] at h
      simp only [seedIds, List.mem_append, List.mem_singleton] at h
      exact Or.inr (Or.inr (Or.inl ⟨s, hs, h.symm⟩))
  · cases hg : c.gens with
    | none => rw [hg] at h; cases h
    | some q =>
      obtain ⟨a, l⟩ := q
      rw [hg] at h
      simp only [gensIds, List.mem_append, List.mem_singleton, List.mem_flatMap] at h
      refine Or.inr (Or.inr (Or.inr ⟨a, l, hg, ?_⟩))
      rcases h with ⟨e, he, h⟩ | h
      · cases e with
        | none => cases h
        | some s =>
          obtain ⟨i, hi, hl⟩ := mem_take _ _ _ he
          refine Or.inr ⟨i, s, hi, hl, ?_⟩
          simp only [subIds, List.mem_append, List.mem_singleton] at h
          rcases h with h | h | h
          · cases hp : s.points with
            | none => rw [hp] at h; cases h
            | some q =>
              obtain ⟨b, q⟩ := q
              rw [hp] at h
              simp only [ptsIds, List.mem_append, List.mem_singleton, List.mem_filterMap, id] at h
              refine Or.inr (Or.inr ⟨b, q, rfl, ?_⟩)
              rcases h with ⟨e, he, rfl⟩ | h
              · exact Or.inr (mem_take _ _ _ he)
              · exact Or.inl h
          · exact Or.inr (Or.inl (by simpa using h))
          · exact Or.inl h
      · exact Or.inl h
  · exact Or.inr (Or.inl (by simpa using h))
  · exact Or.inl h

/-- one search -/
theorem search_spec (C : Cfg) (t : Nat → Pick) (ht : ∀ k, (t k).Ok) (m : M) (hm : ∀ x, m.live x = true → x < m.next) (k fuel : Nat) (retry r : Int)
    (st : St W) (h : genRetry (setup C) 0 9 retry fuel { mem := some (curveNew m), tape := t, pos := k } = some (r, st)) :
    st.w.tape = t ∧ ∃ m', st.w.mem = some m' ∧ Inv (Calm C t) m.live m' ∧ (r = 1 → Full m') := by
  unfold genRetry at h
  rw [if_neg (by decide), if_neg (by decide)] at h
  have := loop_inv (setup C) 0 9 retry (Good C (Calm C t) m.live t)
    (fun w => w.tape = t ∧ ∃ m', w.mem = some m' ∧ Inv (Calm C t) m.live m')
    (fun s w d w' _ hs h hS => good_ok C _ t ht s w d w' hs h hS)
    (fun s w d w' _ hs h hF h0 => good_back C _ t ht s w d w' hs h hF h0)
    (fun s w d w' _ hs h hF => by
      obtain ⟨h1, m', h2, h3, _⟩ := fails_spec C _ t ht s hs w w' d h hF
      exact ⟨h1, m', h2, h3.inv⟩)
    fuel (init 0 { mem := some (curveNew m), tape := t, pos := k }) (Nat.le_refl _) (good_start C _ t k m hm) r st h
  rcases this with ⟨_, h9, h1, m', h2, h3⟩ | ⟨h0, h1, m', h2, h3⟩
  · exact ⟨h1, m', h2, h3.inv, fun _ => h3.full (by omega)⟩
  · exact ⟨h1, m', h2, h3, fun h => by omega⟩

/-- releasing the curve at the end -/
theorem end_spec (E : Prop) (B : Nat → Bool) (m : M) (h : Inv E B m) :
    ∃ m', curveFree m = some m' ∧ (∀ x, m'.live x = true → x < m'.next) ∧ (∀ x, B x = true → m'.live x = true) ∧
      (E → ∀ x, m'.live x = B x) := by
  refine ⟨_, h.curveFree, ?_, ?_, ?_⟩
  · intro x hx
    simp only at hx ⊢
    split at hx
    · cases hx
    · exact h.lt x hx
  · intro x hx
    obtain ⟨h1, h2⟩ := h.base x hx
    simp only [if_neg h2, h1]
  · intro e x
    simp only
    split
    · rename_i ho
      cases hb : B x with
      | false => rfl
      | true => exact absurd ho (h.base x hb).2
    · rename_i ho
      cases hb : B x with
      | true => exact (h.base x hb).1
      | false =>
        cases hl : m.live x with
        | false => rfl
        | true =>
          rcases h.exact e x hl with h1 | h1
          · exact absurd h1 ho
          · rw [hb] at h1; cases h1

theorem generate_spec (C : Cfg) (t : Nat → Pick) (ht : ∀ k, (t k).Ok) (fuel count : Nat) (m : M) (hm : ∀ x, m.live x = true → x < m.next) (k : Nat)
    (w' : W) (h : generate C fuel count { mem := some m, tape := t, pos := k } = some w') :
    ∃ m', w'.mem = some m' ∧ (∀ x, m'.live x = true → x < m'.next) ∧ (∀ x, m.live x = true → m'.live x = true) ∧
      (Calm C t → ∀ x, m'.live x = m.live x) := by
  induction count generalizing m k with
  | zero =>
    simp only [generate, Option.some.injEq] at h
    rw [← h]
    exact ⟨m, rfl, hm, fun x hx => hx, fun _ x => rfl⟩
  | succ n ih =>
    simp only [generate, Option.map_some] at h
    cases hg : gen (setup C) 0 9 fuel { mem := some (curveNew m), tape := t, pos := k } with
    | none => rw [hg] at h; cases h
    | some q =>
      obtain ⟨r, st⟩ := q
      rw [hg] at h
      simp only at h
      obtain ⟨h1, m1, h2, h3, _⟩ := search_spec C t ht m hm k fuel 0 r st hg
      obtain ⟨m2, e, j1, j2, j3⟩ := end_spec _ _ m1 h3
      have hst : ({ st.w with mem := st.w.mem.bind curveFree } : W) = { mem := some m2, tape := t, pos := st.w.pos } := by
        simp only [h2, Option.bind_some, e, h1]
      rw [hst] at h
      split at h
      · simp only [Option.some.injEq] at h
        rw [← h]
        exact ⟨m2, rfl, j1, j2, j3⟩
      · obtain ⟨m', i1, i2, i3, i4⟩ := ih m2 j1 st.w.pos h
        exact ⟨m', i1, i2, fun x hx => i3 x (j2 x hx), fun hE x => by rw [i4 hE x, j3 hE x]⟩

/-! ### Theorems -/

/-- C68. Whatever the generators return and wherever the timer cuts them off, no state of a search comes after a double release, a use of a null
pointer or an index outside an array. -/
theorem search_defined (C : Cfg) (t : Nat → Pick) (ht : ∀ k, (t k).Ok) (m : M) (hm : ∀ x, m.live x = true → x < m.next) (k : Nat) (retry : Int)
    (st : St W) (h : Reaches (setup C) 0 9 retry (init 0 { mem := some (curveNew m), tape := t, pos := k }) st) : ∃ m', st.w.mem = some m' := by
  obtain ⟨_, _, m', e, _⟩ := reaches_inv (setup C) 0 9 retry (Good C (Calm C t) m.live t)
    (fun s w d w' _ hs h hS => good_ok C _ t ht s w d w' hs h hS)
    (fun s w d w' _ hs h hF h0 => good_back C _ t ht s w d w' hs h hF h0)
    (init 0 { mem := some (curveNew m), tape := t, pos := k }) st (Nat.le_refl _) (good_start C _ t k m hm) h
  exact ⟨m', e⟩

/-- C68. The same for a run that makes any number of curves and releases each; the blocks others had allocated are still allocated. -/
theorem run_defined (C : Cfg) (t : Nat → Pick) (ht : ∀ k, (t k).Ok) (m : M) (hm : ∀ x, m.live x = true → x < m.next) (k fuel count : Nat)
    (w' : W) (h : generate C fuel count { mem := some m, tape := t, pos := k } = some w') :
    ∃ m', w'.mem = some m' ∧ ∀ x, m.live x = true → m'.live x = true := by
  obtain ⟨m', h1, _, h3, _⟩ := generate_spec C t ht fuel count m hm k w' h
  exact ⟨m', h1, h3⟩

/-- C68. The curve of a successful search has generators, none of them null, and all it refers to is allocated: printing it reads no released
block. -/
theorem printed_allocated (C : Cfg) (t : Nat → Pick) (ht : ∀ k, (t k).Ok) (m : M) (hm : ∀ x, m.live x = true → x < m.next) (k fuel : Nat) (retry : Int)
    (st : St W) (h : genRetry (setup C) 0 9 retry fuel { mem := some (curveNew m), tape := t, pos := k } = some (1, st)) :
    ∃ m', st.w.mem = some m' ∧ (∀ x, Refers m'.cur x → m'.live x = true) ∧
      ∃ a l, m'.cur.gens = some (a, l) ∧ 0 < m'.cur.ngens ∧ ∀ i, i < m'.cur.ngens → ∃ s, l[i]? = some (some s) := by
  obtain ⟨_, m', h1, h2, h3⟩ := search_spec C t ht m hm k fuel retry 1 st h
  refine ⟨m', h1, fun x hx => h2.live x (refers_own _ _ hx), ?_⟩
  obtain ⟨h4, h5⟩ := h3 rfl
  cases hg : m'.cur.gens with
  | none => obtain ⟨s, hs⟩ := h5 0 h4; simp [entry, hg] at hs
  | some q =>
    obtain ⟨a, l⟩ := q
    refine ⟨a, l, rfl, h4, fun i hi => ?_⟩
    obtain ⟨s, hs⟩ := h5 i hi
    rw [entry, hg] at hs
    exact ⟨s, hs⟩

/-- C68, the claim on released memory, for runs in which the timer cuts off no generator and no failure leads back to the choice of the seed:
after the run exactly those blocks are allocated that were before, whatever the number of retries. Missing: runs with such failures, where the
claim is false, `seeds_lost`. -/
theorem all_released_partial (C : Cfg) (t : Nat → Pick) (ht : ∀ k, (t k).Ok) (hcut : ∀ k, (t k).cut = none)
    (hseed : C.seed = .none ∨ ∀ k s, 1 ≤ s → (t k).fail s ≠ some (-(s : Int))) (m : M) (hm : ∀ x, m.live x = true → x < m.next) (k fuel count : Nat)
    (w' : W) (h : generate C fuel count { mem := some m, tape := t, pos := k } = some w') :
    ∃ m', w'.mem = some m' ∧ ∀ x, m'.live x = m.live x := by
  obtain ⟨m', h1, _, _, h4⟩ := generate_spec C t ht fuel count m hm k w' h
  exact ⟨m', h1, h4 ⟨hcut, hseed⟩⟩

/-- C68, the claim that no block is ever lost, for the same runs: in no state of a search. Missing: as above. -/
theorem none_lost_partial (C : Cfg) (t : Nat → Pick) (ht : ∀ k, (t k).Ok) (hcut : ∀ k, (t k).cut = none)
    (hseed : C.seed = .none ∨ ∀ k s, 1 ≤ s → (t k).fail s ≠ some (-(s : Int))) (k : Nat) (retry : Int)
    (st : St W) (h : Reaches (setup C) 0 9 retry
      (init 0 { mem := some (curveNew { live := fun _ => false, next := 0, cur := { id := 0, seed := none, crv := none, gens := none, ngens := 0 } }), tape := t, pos := k }) st) :
    ∃ m', st.w.mem = some m' ∧ ∀ x, ¬ Lost m' x := by
  obtain ⟨_, _, m', e, hst⟩ := reaches_inv (setup C) 0 9 retry (Good C (Calm C t) (fun _ => false) t)
    (fun s w d w' _ hs h hS => good_ok C _ t ht s w d w' hs h hS)
    (fun s w d w' _ hs h hF h0 => good_back C _ t ht s w d w' hs h hF h0)
    (init 0 _) st (Nat.le_refl _) (good_start C _ t k _ (fun x hx => by cases hx)) h
  refine ⟨m', e, fun x hx => ?_⟩
  rcases hst.inv.exact ⟨hcut, hseed⟩ x hx.1 with h1 | h1
  · exact hx.2 (own_refers _ _ h1)
  · cases h1

/-! ### Lost seeds -/

/-- an empty memory -/
def empty : M := { live := fun _ => false, next := 0, cur := { id := 0, seed := none, crv := none, gens := none, ngens := 0 } }

/-- a call that succeeds, with one generator and three points of its orders -/
def plain : Pick := { fail := fun _ => none, cut := none, len := 1, which := 0, counts := [2], orders := [some [true, false, true]], check := fun _ => none }

/-- a request for a curve of a pairing-friendly family -/
def family : Cfg := { seed := .family, curve := .any, gens := .put, points := .orders }

/-- `z` never makes a prime field: `family_gen_field` returns -1 -/
def composite : Pick := { plain with fail := fun s => if s = 1 then some (-1) else none }

theorem plain_ok : plain.Ok := ⟨by decide, by decide, fun s d h => by simp [plain] at h, fun s d h => by simp [plain] at h⟩

theorem composite_ok : composite.Ok := by
  refine ⟨by decide, by decide, fun s d h => ?_, fun s d h => by simp [composite, plain] at h⟩
  simp only [composite] at h
  split at h
  · rename_i hs
    subst hs
    cases h
    decide
  · cases h

/-- the state after `n` tries -/
def lostSt (n : Nat) (st : St W) : Prop :=
  st.state = 0 ∧ st.w.tape = (fun _ => composite) ∧ ∃ m, st.w.mem = some m ∧ m.next = 1 + 2 * n ∧ (∀ x, m.live x = true ↔ x < 1 + 2 * n) ∧
    m.cur.id = 0 ∧ m.cur.gens = none ∧ m.cur.crv = none ∧
    (m.cur.seed = none ∨ ∃ s, m.cur.seed = some s ∧ ∀ x, x = s.id ∨ x ∈ s.parts → 1 + 2 * (n - 1) ≤ x)

theorem lost_round (n : Nat) (st : St W) (h : lostSt n st) :
    ∃ st', Reaches (setup family) 0 9 0 st st' ∧ lostSt (n + 1) st' := by
  obtain ⟨hs, ht, m, hm, hn, hl, hid, hg, hc, _⟩ := h
  have e1 : step (setup family) 0 0 st = .inl ⟨1, setTries st.tries 0 0,
      { mem := (putSeed 0 m).bind addPart, tape := st.w.tape, pos := st.w.pos + 1 },
      Ev.check 0 0 1 :: Ev.gen 0 (.ret 1) :: st.log⟩ := by
    simp only [step, execStage, hs, setup, genStage, hm, ht, composite, plain, prog, family, runProg, runChecks]
    simp
    rfl
  have e2 : ∀ m' tr lg, step (setup family) 0 0 { state := 1, tries := tr, w := { mem := some m', tape := st.w.tape, pos := st.w.pos + 1 }, log := lg }
      = .inl { state := 0, tries := tr, w := { mem := some m', tape := st.w.tape, pos := st.w.pos + 2 }, log := Ev.cleanup 1 :: Ev.gen 1 (.ret (-1)) :: lg } := by
    intro m' tr lg
    simp only [step, execStage, setup, genStage, ht, composite, plain]
    simp [unrollLoop, INT_MIN]
  have e3 : ∃ m', (putSeed 0 m).bind addPart = some m' ∧ m'.next = m.next + 2 ∧ (∀ x, m'.live x = if x = m.next + 1 then true else if x = m.next then true else m.live x) ∧
      m'.cur.id = m.cur.id ∧ m'.cur.gens = m.cur.gens ∧ m'.cur.crv = m.cur.crv ∧ m'.cur.seed = some { id := m.next, parts := [m.next + 1] } := by
    refine ⟨_, rfl, rfl, fun x => ?_, rfl, rfl, rfl, rfl⟩
    simp [alloc]
    have h1 : (decide (m.next + 1 ≤ x) && decide (x < m.next + 1)) = false := by simp
    rw [h1]
    simp
  obtain ⟨m', j0, j1, j2, j3, j4, j5, j6⟩ := e3
  rw [j0] at e1
  refine ⟨_, .next (.next .refl (by rw [hs]; decide) e1) (by show 1 < 9; decide) (e2 m' _ _), rfl, ht, m', rfl, by omega, ?_, by rw [j3, hid], by rw [j4, hg], by rw [j5, hc], Or.inr ⟨_, j6, ?_⟩⟩
  · intro x
    rw [j2 x]
    have := hl x
    split
    · simp; omega
    · split
      · simp; omega
      · rw [this]; omega
  · intro x hx
    simp only [List.mem_singleton] at hx
    omega

/-- C68 is false for seeds: the cleanup of the seed's stage never runs, a search that starts again with a new seed forgets the old one without releasing
it. With a family parameter that never gives a prime field, the search reaches states with any number of lost blocks. -/
theorem seeds_lost (n : Nat) : ∃ st m', Reaches (setup family) 0 9 0 (init 0 { mem := some (curveNew empty), tape := fun _ => composite, pos := 0 }) st ∧
    st.w.mem = some m' ∧ ∃ l : List Nat, l.Nodup ∧ l.length = 2 * n ∧ ∀ x ∈ l, Lost m' x := by
  have key : ∀ n, ∃ st, Reaches (setup family) 0 9 0 (init 0 { mem := some (curveNew empty), tape := fun _ => composite, pos := 0 }) st ∧ lostSt n st := by
    intro n
    induction n with
    | zero =>
      refine ⟨_, .refl, rfl, rfl, _, rfl, rfl, fun x => ?_, rfl, rfl, rfl, Or.inl rfl⟩
      show (if x = 0 then true else false) = true ↔ x < 1 + 2 * 0
      split <;> simp <;> omega
    | succ n ih =>
      obtain ⟨st, h1, h2⟩ := ih
      obtain ⟨st', h3, h4⟩ := lost_round n st h2
      refine ⟨st', ?_, h4⟩
      clear h4 h2
      induction h3 with
      | refl => exact h1
      | next _ a b ih => exact .next ih a b
  obtain ⟨st, h1, _, _, m', h3, _, h5, h6, h7, h8, h9⟩ := key (n + 1)
  refine ⟨st, m', h1, h3, List.range' 1 (2 * n), List.nodup_range', List.length_range', fun x hx => ?_⟩
  rw [List.mem_range'_1] at hx
  refine ⟨(h5 x).2 (by omega), ?_⟩
  rintro (h | h | ⟨s, hs, h⟩ | ⟨a, l, hg, _⟩)
  · omega
  · rw [h8] at h; cases h
  · rcases h9 with h9 | ⟨s', h9, h10⟩
    · rw [h9] at hs; cases hs
    · rw [h9] at hs; cases hs
      have := h10 x h
      omega
  · rw [h7] at hg; cases hg

/-- C68 is false for seeds, for a run that ends: the second value gives a prime field, a curve is made, printed and released; blocks 1 and 2, the first
seed, are still allocated. -/
theorem seeds_leak : ∃ w' m', generate family 20 1 { mem := some empty, tape := fun k => if k = 1 then composite else plain, pos := 0 } = some w' ∧
    w'.mem = some m' ∧ (∀ x, empty.live x = false) ∧ m'.live 1 = true ∧ m'.live 2 = true := by
  have h : ((generate family 20 1 { mem := some empty, tape := fun k => if k = 1 then composite else plain, pos := 0 }).bind fun w =>
      w.mem.map fun m => m.live 1 && m.live 2) = some true := by decide +kernel
  cases hg : generate family 20 1 { mem := some empty, tape := fun k => if k = 1 then composite else plain, pos := 0 } with
  | none => rw [hg] at h; cases h
  | some w' =>
    rw [hg, Option.bind_some] at h
    cases hm : w'.mem with
    | none => rw [hm] at h; cases h
    | some m' =>
      rw [hm, Option.map_some, Option.some.injEq, Bool.and_eq_true] at h
      exact ⟨w', m', rfl, hm, fun _ => rfl, h.1, h.2⟩

/-! ### Concrete cases -/

/-- a run of two curves with a refused curve, an order that is not wanted and points that are refused: it ends, and releases everything -/
example : let t : Nat → Pick := fun k => if k = 5 then { plain with fail := fun s => if s = 5 then some (-4) else none } else
      if k = 12 then { plain with check := fun s => if s = 7 then some (-6) else none } else plain
    (generate { seed := .none, curve := .any, gens := .cofactor, points := .orders } 60 2 { mem := some empty, tape := t, pos := 0 }).bind (fun w =>
      w.mem.map fun m => (m.next, (List.range 60).any m.live)) = some (30, false) := by decide +kernel

/-- a generator of points cut off after its first assignment, with one block not yet assigned: the run ends without undefined behaviour -/
example : let t : Nat → Pick := fun k => if k = 7 then { plain with cut := some (1, 1) } else plain
    (generate { seed := .hashed, curve := .any, gens := .put, points := .random } 60 1 { mem := some empty, tape := t, pos := 0 }).bind (fun w =>
      w.mem.map fun m => (List.range 60).filter m.live) = some [1, 2, 3, 8] := by decide +kernel

/-- the hypotheses on the calls hold for these -/
example : ∀ k, (if k = 1 then composite else plain).Ok := by
  intro k
  split
  · exact composite_ok
  · exact plain_ok

end Ecgen.Own
