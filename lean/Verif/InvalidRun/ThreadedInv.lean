import Verif.InvalidRun.Threaded
import Verif.InvalidRun.Loop
import Verif.Invalid.Props

/-!
# What the threads of a run keep
-/

namespace Ecgen.InvalidRun

open Output Output.Spec Cli Whole Json
open Invalid (upd)

/-! ## A worker -/

/-- a worker has found this curve -/
structure Caught (c : Config) (T : Nat → Pick) (f : Fld) (a : Elt) (primes : List Nat) (w : W) (d : TCurve) : Prop where
  taken : taken w = some d
  ready : Ready T f a w
  inv : Inv (invalid c) T 7 w.cur
  divides : ∃ q ∈ primes, q ∣ d.order

/-- a worker has computed points for the primes `l` -/
structure Finished (c : Config) (T : Nat → Pick) (f : Fld) (a : Elt) (d : TCurve) (l : List Nat) : Prop where
  curve : ∃ (x : Cur) (E : Crv) (gs : List (Group.Sub E.Pt)), Inv (invalid c) T 7 x ∧ x.gens = some ⟨E, gs⟩ ∧ x.crv = some E ∧ d.rest.cur = withTrial l x E gs ∧ x.field = some f ∧
    x.a = some a ∧ x.order = some d.order ∧ d.order = Nat.card E.Pt
  field : d.field = .inl f
  a : d.a = .inr a

theorem taken_some {w : W} {d : TCurve} (h : taken w = some d) : ∃ f a, w.cur.field = some f ∧ w.cur.a = some a ∧ w.cur.order = some d.order ∧
    d = ⟨.inl f, .inr a, d.order, w⟩ := by
  unfold taken at h
  split at h
  · rename_i f a o e1 e2 e3
    cases h
    exact ⟨f, a, e1, e2, e3, rfl⟩
  · cases h

theorem taken_of {w : W} {f : Fld} {a : Elt} {o : Nat} (h1 : w.cur.field = some f) (h2 : w.cur.a = some a) (h3 : w.cur.order = some o) :
    taken w = some ⟨.inl f, .inr a, o, w⟩ := by
  simp only [taken, h1, h2, h3]

theorem ready_unrolled {T : Nat → Pick} {f : Fld} {a : Elt} {w : W} (h : Ready T f a w) (pos : Nat) : Ready T f a { unrolled w with pos := pos } := h

theorem hunt_cases {P : Pari} (hP : P.Ok) {c : Config} {T : Nat → Pick} (hT : TapeOk (original c) T) {f : Fld} {a : Elt} (hb : Base c T f a)
    {primes : List Nat} (h63 : ∀ q ∈ primes, q < 2 ^ 63) (fuel : Nat) (w : W) (hw : Ready T f a w) :
    hunt P c primes fuel w = .running ∨
    (∃ w', Ready T f a w' ∧ hunt P c primes fuel w = .done (none, w')) ∨
    ∃ d w', hunt P c primes fuel w = .done (some d, w') ∧ Caught c T f a primes w' d := by
  unfold hunt
  rcases phase_order hP hT hb fuel w hw with h1 | ⟨r1, w1, h1, hw1⟩
  · simp only [h1]
    exact Or.inl trivial
  · obtain ⟨E, hE, ho, -⟩ := hw1.2.1.order (by omega)
    simp only [h1, ho]
    by_cases hl : primes.countP (divides · (Nat.card E.Pt)) > 0
    · rw [if_pos hl]
      rcases phase_gens hP hT fuel w1 hw1 with h2 | ⟨r2, w2, h2, hw2, h3⟩
      · simp only [h2]
        exact Or.inl trivial
      · simp only [h2]
        by_cases hr : r2 = 0
        · rw [if_pos hr]
          exact Or.inr (Or.inl ⟨_, hw2, rfl⟩)
        · rw [if_neg hr]
          obtain ⟨-, h3, h4⟩ := h3.resolve_left hr
          have ht := taken_of hw2.2.2.1 hw2.2.2.2.1 (h4.trans ho)
          simp only [ht]
          refine Or.inr (Or.inr ⟨_, _, rfl, ht, hw2, h3, ?_⟩)
          obtain ⟨q, hq, hd⟩ := List.countP_pos_iff.1 hl
          exact ⟨q, hq, divides_small (h63 q hq) hd⟩
    · rw [if_neg hl]
      exact Or.inr (Or.inl ⟨_, hw1.2.2, rfl⟩)

theorem trial_cases {P : Pari} {c : Config} {T : Nat → Pick} {f : Fld} {a : Elt}
    {primes : List Nat} (hp : ∀ q ∈ primes, q.Prime) (l : List Nat) (fuel : Nat) {w : W} {d : TCurve} (hw : Caught c T f a primes w d) (pos : Nat) :
    trial P c l fuel { w with pos := pos } = .running ∨
    ∃ d' w', trial P c l fuel { w with pos := pos } = .done (d', w') ∧ Ready T f a w' ∧ Finished c T f a d' l ∧ d' = { d with rest := w' } := by
  obtain ⟨E, gs, hE, hgs, -⟩ := hw.inv.gens (by omega)
  obtain ⟨E', hE', ho, -⟩ := hw.inv.order (by omega)
  rw [hE] at hE'
  cases hE'
  obtain ⟨f', a', e1, e2, e3, e4⟩ := taken_some hw.taken
  have hr := hw.ready
  rw [hr.2.2.1] at e1
  cases e1
  rw [hr.2.2.2.1] at e2
  cases e2
  have hcard : d.order = Nat.card E.Pt := by rw [ho] at e3; exact (Option.some.inj e3).symm
  have hne : gs ≠ [] := by
    refine gens_ne hw.inv (fun E0 h0 h1 => ?_) hgs
    rw [hE] at h0
    cases h0
    obtain ⟨q, hq, hd⟩ := hw.divides
    rw [hcard, h1, Nat.dvd_one] at hd
    exact (hp q hq).one_lt.ne hd.symm
  unfold trial
  rcases phase_points (P := P) (c := c) l fuel { w with pos := pos } hr.2.2.2.2.2 E gs hE hgs hne with h9 | ⟨r3, w3, h9, c1, c2, c3⟩
  · simp only [h9]
    exact Or.inl trivial
  · have t1 : w3.cur.field = some f := by rw [c1]; exact hr.2.2.1
    have t2 : w3.cur.a = some a := by rw [c1]; exact hr.2.2.2.1
    have t3 : w3.cur.order = some d.order := by rw [c1]; exact e3
    simp only [h9, taken_of t1 t2 t3]
    refine Or.inr ⟨_, _, rfl, ⟨by rw [c1]; exact hr.1, by rw [c1]; exact hr.2.1, t1, t2, c2.trans hr.2.2.2.2.1, c3⟩,
      ⟨⟨w.cur, E, gs, hw.inv, hgs, hE, c1, hr.2.2.1, hr.2.2.2.1, e3, hcard⟩, rfl, rfl⟩, ?_⟩
    rw [e4]

/-! ## All the threads -/

/-- what holds for a worker at its position -/
def WorkerOk (c : Config) (T : Nat → Pick) (f : Fld) (a : Elt) (primes : List Nat) (w : W) : Invalid.Worker Member W → Prop
  | .wantClaim d | .inClaim d | .points d _ => Caught c T f a primes w d
  | .wantStore d l | .inStore d l => Finished c T f a d l
  | _ => True

/-- the invariant -/
structure TInv (c : Config) (T : Nat → Pick) (f : Fld) (a : Elt) (primes : List Nat) (s : TSt) : Prop where
  ready : ∀ t, Ready T f a (s.ws t)
  worker : ∀ t, WorkerOk c T f a primes (s.ws t) (s.g.workers t)
  stored : ∀ i d, s.g.curves i = some d → ∃ l : List Nat, Finished c T f a d l ∧ primes.getD i 0 ∈ l ∧ l.Pairwise (· > ·) ∧ ∀ q ∈ l, q ∈ primes ∧ q ∣ d.order

theorem worker_upd {c : Config} {T : Nat → Pick} {f : Fld} {a : Elt} {primes : List Nat} {ws : Nat → W} {wk : Nat → Invalid.Worker Member W}
    (h : ∀ t, WorkerOk c T f a primes (ws t) (wk t)) (t : Nat) (v : Invalid.Worker Member W) (hv : WorkerOk c T f a primes (ws t) v) :
    ∀ t', WorkerOk c T f a primes (ws t') (upd wk t v t') := by
  intro t'
  unfold upd
  by_cases ht : t' = t
  · subst ht; rw [if_pos rfl]; exact hv
  · rw [if_neg ht]; exact h t'

theorem worker_upd2 {c : Config} {T : Nat → Pick} {f : Fld} {a : Elt} {primes : List Nat} {ws : Nat → W} {wk : Nat → Invalid.Worker Member W}
    (h : ∀ t, WorkerOk c T f a primes (ws t) (wk t)) (t : Nat) (v : Invalid.Worker Member W) (w : W) (hv : WorkerOk c T f a primes w v) :
    ∀ t', WorkerOk c T f a primes (upd ws t w t') (upd wk t v t') := by
  intro t'
  unfold upd
  by_cases ht : t' = t
  · subst ht; rw [if_pos rfl, if_pos rfl]; exact hv
  · rw [if_neg ht, if_neg ht]; exact h t'

theorem ready_upd {T : Nat → Pick} {f : Fld} {a : Elt} {ws : Nat → W} (h : ∀ t, Ready T f a (ws t)) (t : Nat) (w : W) (hw : Ready T f a w) :
    ∀ t', Ready T f a (upd ws t w t') := by
  intro t'
  unfold upd
  by_cases ht : t' = t
  · rw [if_pos ht]; exact hw
  · rw [if_neg ht]; exact h t'

theorem getD_mem {primes : List Nat} {i : Nat} (h : i < primes.length) : primes.getD i 0 ∈ primes := by
  simp [List.getD, h]

theorem getD_lt {primes : List Nat} (hs : primes.Pairwise (· < ·)) {i j : Nat} (hj : j < primes.length) (h : i < j) : primes.getD i 0 < primes.getD j 0 := by
  have hi : i < primes.length := by omega
  simp only [List.getD, List.getElem?_eq_getElem hi, List.getElem?_eq_getElem hj, Option.getD_some]
  exact List.pairwise_iff_getElem.1 hs i j hi hj h

theorem distinct {primes : List Nat} (hs : primes.Pairwise (· < ·)) : Invalid.Distinct (fun i => primes.getD i 0) primes.length := by
  intro i j hi hj h
  rcases Nat.lt_trichotomy i j with h1 | h1 | h1
  · exact absurd h (getD_lt hs hj h1).ne
  · exact h1
  · exact absurd h (getD_lt hs hi h1).ne'

theorem worker_at {c : Config} {T : Nat → Pick} {f : Fld} {a : Elt} {primes : List Nat} {w : W} {x y : Invalid.Worker Member W}
    (h : WorkerOk c T f a primes w x) (e : x = y) : WorkerOk c T f a primes w y := e ▸ h

theorem upd_same {α : Type} (g : Nat → α) (t : Nat) (x : α) : upd g t x t = x := by simp [upd]

/-- a step of the shared system that is quiet keeps the invariant -/
theorem tinv_shared {c : Config} {T : Nat → Pick} {f : Fld} {a : Elt} {primes : List Nat} (hs : primes.Pairwise (· < ·)) {orig : TCurve}
    {s : TSt} {g' : Invalid.G Member W} (hw : Invalid.WInv (fun i => primes.getD i 0) primes.length c.threads orig s.g)
    (h : TInv c T f a primes s) (hst : Invalid.Step (fun i => primes.getD i 0) primes.length c.threads orig s.g g') (hq : Quiet s.g g') :
    TInv c T f a primes ⟨g', s.ws⟩ := by
  obtain ⟨g, ws⟩ := s
  have hk := h.worker
  cases hst with
  | checkLock t _ _ _ => exact ⟨h.ready, worker_upd hk t _ trivial, h.stored⟩
  | check t _ _ _ =>
    refine ⟨h.ready, worker_upd hk t _ ?_, h.stored⟩
    split <;> trivial
  | searchFail t _ ht =>
    exact nomatch (upd_same _ _ _).symm.trans ((hq t).1 ht)
  | searchFound t o r _ ht _ =>
    exact nomatch (upd_same _ _ _).symm.trans ((hq t).1 ht)
  | claimLock t d _ ht _ => exact ⟨h.ready, worker_upd hk t _ (by have := worker_at (hk t) ht; exact this), h.stored⟩
  | claim t d _ ht _ =>
    refine ⟨h.ready, worker_upd hk t _ ?_, h.stored⟩
    split
    · have := worker_at (hk t) ht
      exact this
    · trivial
  | points t d l r _ ht =>
    exact nomatch (upd_same _ _ _).symm.trans ((hq t).2 d l ht)
  | storeLock t d l _ ht _ => exact ⟨h.ready, worker_upd hk t _ (by have := worker_at (hk t) ht; exact this), h.stored⟩
  | store t d l _ ht _ =>
    refine ⟨h.ready, worker_upd hk t _ trivial, ?_⟩
    obtain ⟨idx, rfl, hpw, hg⟩ := hw.held t d l (by rw [ht]; rfl)
    simp only
    rw [Invalid.storeLoop_eq _ d _ (distinct hs) _ _ _ idx 0 (Nat.le_refl _) hpw (fun j hj => (hg j hj).1)]
    intro i e he
    simp only at he
    split at he
    · rename_i hi
      cases he
      have hf : Finished c T f a d (idx.map fun i => primes.getD i 0) := worker_at (hk t) ht
      refine ⟨_, hf, List.mem_map_of_mem hi, ?_, ?_⟩
      · rw [List.pairwise_map]
        exact hpw.imp_of_mem fun {x y} hx _ hxy => getD_lt hs (hg x hx).1 hxy
      · intro q hq'
        obtain ⟨j, hj, rfl⟩ := List.mem_map.1 hq'
        exact ⟨getD_mem (hg j hj).1, (hg j hj).2.2.1⟩
    · exact h.stored i e he
  | spurious _ => exact ⟨h.ready, hk, h.stored⟩
  | mainLock _ _ => exact ⟨h.ready, hk, h.stored⟩
  | scan _ _ => exact ⟨h.ready, hk, h.stored⟩

/-- the conditions of a run that its states need -/
structure Sound (P : Pari) (c : Config) (T : Nat → Pick) (f : Fld) (a : Elt) (primes : List Nat) (orig : TCurve) : Prop where
  pari : P.Ok
  tape : TapeOk (original c) T
  base : Base c T f a
  sorted : primes.Pairwise (· < ·)
  prime : ∀ q ∈ primes, q.Prime
  small : ∀ q ∈ primes, q < 2 ^ 63
  some : 0 < primes.length
  field : orig.field = .inl f
  a : orig.a = .inr a

/-- every state is one of the transition system of C43, and the invariant holds -/
theorem treach_inv {P : Pari} {c : Config} {T : Nat → Pick} {f : Fld} {a : Elt} {primes : List Nat} {orig : TCurve} (hS : Sound P c T f a primes orig)
    {w : W} (hw : w.tape = T) (hu : w.ub = false) {s : TSt} (h : TReach P c primes orig (begin w orig f a) s) :
    Invalid.Reachable (fun i => primes.getD i 0) primes.length c.threads orig s.g ∧ TInv c T f a primes s := by
  induction h with
  | refl => exact ⟨.initial, fun _ => ⟨rfl, rfl, rfl, rfl, hw, hu⟩, fun _ => trivial, fun i d hd => nomatch hd⟩
  | @step s s' _ hst ih =>
    obtain ⟨hr, hi⟩ := ih
    have hwi := (Invalid.inv_reachable (distinct hS.sorted) hS.some hr).1
    cases hst with
    | shared g' h1 h2 => exact ⟨hr.step h1, tinv_shared hS.sorted hwi hi h1 h2⟩
    | nothing t pos fuel w' ht hwk hh =>
      refine ⟨hr.step (.searchFail s.g t ht hwk), ?_⟩
      rcases hunt_cases hS.pari hS.tape hS.base hS.small fuel _ (ready_unrolled (hi.ready t) pos) with h1 | ⟨w1, h1, h2⟩ | ⟨d, w1, h1, -⟩
      · rw [hh] at h1; cases h1
      · rw [hh] at h2
        cases h2
        exact ⟨ready_upd hi.ready t _ h1, worker_upd2 hi.worker t _ _ trivial, hi.stored⟩
      · rw [hh] at h1; cases h1
    | found t pos fuel d w' ht hwk hh =>
      rcases hunt_cases hS.pari hS.tape hS.base hS.small fuel _ (ready_unrolled (hi.ready t) pos) with h1 | ⟨w1, h1, h2⟩ | ⟨d', w1, h1, h2⟩
      · rw [hh] at h1; cases h1
      · rw [hh] at h2; cases h2
      · rw [hh] at h1
        cases h1
        obtain ⟨f', a', e1, e2, -, e4⟩ := taken_some h2.taken
        rw [h2.ready.2.2.1] at e1
        cases e1
        rw [h2.ready.2.2.2.1] at e2
        cases e2
        rw [← hS.field, ← hS.a] at e4
        refine ⟨?_, ready_upd hi.ready t _ h2.ready, worker_upd2 hi.worker t _ _ h2, hi.stored⟩
        obtain ⟨q, hq, hd⟩ := h2.divides
        obtain ⟨i, hlt, rfl⟩ := List.getElem_of_mem hq
        have := Invalid.Step.searchFound (p := fun i => primes.getD i 0) (n := primes.length) (orig := orig) s.g t d.order w' ht hwk
          ⟨i, hlt, by simp only [List.getD, List.getElem?_eq_getElem hlt, Option.getD_some]; exact Nat.mod_eq_zero_of_dvd hd⟩
        rw [← e4] at this
        exact hr.step this
    | points t pos fuel d d' l w' ht hwk hh =>
      have hc : Caught c T f a primes (s.ws t) d := by have := hi.worker t; rw [hwk] at this; exact this
      rcases trial_cases hS.prime l fuel hc pos with h1 | ⟨d1, w1, h1, h2, h3, h4⟩
      · rw [hh] at h1; cases h1
      · rw [hh] at h1
        cases h1
        refine ⟨?_, ready_upd hi.ready t _ h2, worker_upd2 hi.worker t _ _ h3, hi.stored⟩
        have := Invalid.Step.points (p := fun i => primes.getD i 0) (n := primes.length) (orig := orig) s.g t d l w' ht hwk
        rw [← h4] at this
        exact hr.step this

end Ecgen.InvalidRun
