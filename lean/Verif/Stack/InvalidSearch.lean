import Verif.Stack.InvalidCheck

/-!
# Several curves at once
-/

namespace Ecgen.Stack
open Ecgen.Engine Ecgen.Engine.Spec

theorem leads_sound {rel : Bool} {p : Stmt} {a b : AState} {t : Nat → Cell} {w : W} (h : leads rel p a b = true) (hw : Holds t a w) :
    Holds t b (call rel p w).1 := by
  unfold leads at h
  split at h
  · rename_i l hl
    rcases call_sound (t := t) (by simp) hl hw with ⟨_, c, hc, hcw⟩ | ⟨c, hc, _⟩
    · exact hcw.le ((List.all_eq_true.mp h) c hc)
    · simp at hc
  · cases h

/-! ## functions that release no clones -/

def Op.gentle : Op → Bool
  | .insert _ | .insertClone _ | .objFree => false
  | _ => true

def Stmt.gentle : Stmt → Bool
  | .skip => true
  | .op o => o.gentle
  | .seq p q => p.gentle && q.gentle
  | .choice p q => p.gentle && q.gentle
  | .loop p => p.gentle
  | .again p => p.gentle
  | .ifClone _ p q => p.gentle && q.gentle
  | .ifNull _ p q => p.gentle && q.gentle
  | .ifStat p q => p.gentle && q.gentle
  | .ret _ => true

theorem copies_clones (xs : List Slot) (m : Mem) : (m.copies xs).clones = m.clones := by
  induction xs generalizing m with
  | nil => rfl
  | cons x l ih => simp only [Mem.copies, ih]; rfl

theorem Op.gentle_clones {rel : Bool} {n : Nat} {m m' : Mem} {o : Op} (h : o.gentle = true) (e : o.exec rel n m = some m') :
    ∀ i ∈ m.clones, i ∈ m'.clones := by
  intro i hi
  cases o <;> simp only [Op.exec, Op.gentle, Bool.false_eq_true] at e h
  case keep k xs =>
    split at e <;> cases e
    rw [copies_clones]; exact hi
  case card d =>
    split at e
    · split at e <;> cases e
      · exact List.mem_append_left _ hi
      · exact hi
    · cases e
  case cacheGens d =>
    split at e <;> cases e
    exact List.mem_append_left _ hi
  case const => cases e; exact hi
  case set => cases e; exact hi
  case null => cases e; exact hi
  case save => cases e; exact hi
  case restore => cases e; exact hi
  case statNew => cases e; exact hi
  all_goals (split at e <;> cases e; exact hi)

theorem times_gentle {C : List Nat} {f : Nat → Mem → Out × Nat}
    (hf : ∀ k m, (∀ i ∈ C, i ∈ m.clones) → (f k m).1.All fun m' => ∀ i ∈ C, i ∈ m'.clones) :
    ∀ n k m, (∀ i ∈ C, i ∈ m.clones) → (times f n k m).1.All fun m' => ∀ i ∈ C, i ∈ m'.clones := by
  intro n
  induction n with
  | zero => intro k m h; exact h
  | succ n ih =>
    intro k m h
    have := hf k m h
    simp only [times]
    split
    · rename_i m' k' e
      rw [e] at this
      exact ih k' m' this
    · exact this

theorem exec_gentle (rel : Bool) (t : Nat → Cell) (timed : Bool) (C : List Nat) :
    ∀ (p : Stmt), p.gentle = true → ∀ (k : Nat) (m : Mem), (∀ i ∈ C, i ∈ m.clones) →
      (exec rel t timed p k m).1.All fun m' => ∀ i ∈ C, i ∈ m'.clones := by
  intro p
  induction p with
  | skip => intro _ k m h; exact h
  | op o =>
    intro hg k m h
    simp only [exec]
    split
    · exact h
    · split
      · rename_i m' e; exact fun i hi => Op.gentle_clones hg e i (h i hi)
      · trivial
  | seq p q ihp ihq =>
    intro hg k m h
    simp only [Stmt.gentle, Bool.and_eq_true] at hg
    have := ihp hg.1 k m h
    simp only [exec]
    split
    · rename_i m' k' e
      rw [e] at this
      exact ihq hg.2 k' m' this
    · exact this
  | choice p q ihp ihq =>
    intro hg k m h
    simp only [Stmt.gentle, Bool.and_eq_true] at hg
    simp only [exec]
    split
    · exact ihp hg.1 _ m h
    · exact ihq hg.2 _ m h
  | loop p ih => intro hg k m h; exact times_gentle (fun k m h => ih hg k m h) _ _ m h
  | again p ih => intro hg k m h; exact times_gentle (fun k m h => ih hg k m h) _ _ m h
  | ifClone x p q ihp ihq =>
    intro hg k m h
    simp only [Stmt.gentle, Bool.and_eq_true] at hg
    simp only [exec]
    split
    · split
      · exact ihq hg.2 _ m h
      · exact ihp hg.1 _ m h
    · trivial
  | ifNull x p q ihp ihq =>
    intro hg k m h
    simp only [Stmt.gentle, Bool.and_eq_true] at hg
    simp only [exec]
    split
    · exact ihp hg.1 _ m h
    · exact ihq hg.2 _ m h
  | ifStat p q ihp ihq =>
    intro hg k m h
    simp only [Stmt.gentle, Bool.and_eq_true] at hg
    simp only [exec]
    split
    · exact ihp hg.1 _ m h
    · exact ihq hg.2 _ m h
  | ret d => intro _ k m h; exact h

theorem call_gentle {rel : Bool} {p : Stmt} (hp : p.gentle = true) {w : W} {m m' : Mem} (hm : w.mem = some m) (hm' : (call rel p w).1.mem = some m') :
    ∀ i ∈ m.clones, i ∈ m'.clones := by
  have := exec_gentle rel w.tape false m.clones p hp w.pos m (fun i hi => hi)
  unfold call at hm'
  rw [hm] at hm'
  simp only at hm'
  split at hm' <;> rename_i he <;> rw [he] at this <;> cases hm' <;> exact this

theorem call_tape (rel : Bool) (p : Stmt) (w : W) : (call rel p w).1.tape = w.tape := by
  unfold call
  split
  · rfl
  · split <;> rfl

/-! ## records -/

/-- a record refers to a clone -/
def Rec.clone (r : Rec) (n : Nat) : Prop := ∃ x l, x.member = true ∧ r x = some l ∧ Id.cln n ∈ l

/-- some of the records does -/
def cloneOf (k : List Rec) (n : Nat) : Prop := ∃ r ∈ k, Rec.clone r n

/-- nothing is known about positions -/
def AVal.zero : AVal → Bool
  | .live s _ => s == 0
  | .opt s _ => s == 0
  | _ => true

theorem zero_get {a : AState} (h : a.v.all AVal.zero = true) (x : Slot) : (a.get x).zero = true := by
  unfold AState.get
  rw [List.getD_eq_getElem?_getD]
  cases e : a.v[x.idx]? with
  | none => rfl
  | some v => exact (List.all_eq_true.mp h) v (List.mem_of_getElem? e)

theorem Good.zero {m m' : Mem} {c : Bool} {l : List Id} (h : Good m 0 c l) (hs : ∀ n, Id.stk n ∈ l → n ∈ m.stack → n ∈ m'.stack)
    (hc : ∀ n, Id.cln n ∈ l → n ∈ m'.clones) : Good m' 0 c l :=
  ⟨fun n hn => ⟨hs n hn (h.1 n hn).1, fun k hk => by simp at hk⟩, fun n hn => ⟨hc n hn, (h.2 n hn).2⟩⟩

theorem VRep.zero {m m' : Mem} {a : AVal} (ha : a.zero = true) {v : Option (List Id)} (h : VRep m a v)
    (hs : ∀ n ∈ m.stack, n ∈ m'.stack) (hc : ∀ l n, v = some l → Id.cln n ∈ l → n ∈ m'.clones) : VRep m' a v := by
  cases a with
  | null => exact h
  | any => trivial
  | live s c =>
    simp only [AVal.zero, beq_iff_eq] at ha
    subst ha
    obtain ⟨l, e, g⟩ := h
    exact ⟨l, e, g.zero (fun n _ => hs n) (fun n hn => hc l n e hn)⟩
  | opt s c =>
    simp only [AVal.zero, beq_iff_eq] at ha
    subst ha
    intro l e
    exact (h l e).zero (fun n _ => hs n) (fun n hn => hc l n e hn)

theorem whole_zero : wholeA.v.all AVal.zero = true := by decide

theorem load_member (m : Mem) (r : Rec) {x : Slot} (hx : x.member = true) : (m.load r).slot x = r x := by simp [Mem.load, hx]
theorem load_other (m : Mem) (r : Rec) {x : Slot} (hx : x.member = false) : (m.load r).slot x = none := by simp [Mem.load, hx]

/-- a complete curve stays one if its numbers stay -/
theorem whole_mono {m m' : Mem} {r : Rec} (h : Rep wholeA (m.load r)) (hs : ∀ n ∈ m.stack, n ∈ m'.stack) (hc : ∀ n, r.clone n → n ∈ m'.clones) :
    Rep wholeA (m'.load r) := by
  refine ⟨fun x => ?_, trivial⟩
  have hx := h.slot x
  by_cases hm : x.member = true
  · rw [load_member _ _ hm] at hx ⊢
    exact hx.zero (zero_get whole_zero x) hs fun l n e hn => hc n ⟨x, l, hm, e, hn⟩
  · rw [load_other _ _ (by simpa using hm)] at hx ⊢
    exact hx.zero (zero_get whole_zero x) hs fun l n e => by cases e

theorem VRep.found {m : Mem} {a : AVal} {l : List Id} (h : VRep m a (some l)) (ha : a ≠ .any) : ∃ s, Good m s a.c l := by
  cases a with
  | null => cases h
  | any => exact absurd rfl ha
  | live s c => obtain ⟨l', e, g⟩ := h; cases e; exact ⟨s, g⟩
  | opt s c => exact ⟨s, h l rfl⟩

theorem whole_known {x : Slot} (hx : x.member = true) : wholeA.get x ≠ .any := by
  cases x <;> first | decide | cases hx

theorem copy_known {x : Slot} (hx : x.member = true) : copyA.get x ≠ .any ∧ (copyA.get x).c = false := by
  cases x <;> first | decide | cases hx

/-- the numbers of a complete curve are there -/
theorem whole_good {m : Mem} {r : Rec} (h : Rep wholeA (m.load r)) {x : Slot} (hx : x.member = true) {l : List Id} (e : r x = some l) :
    Good m 0 true l := by
  have hv := h.slot x
  rw [load_member _ _ hx, e] at hv
  obtain ⟨s, g⟩ := hv.found (whole_known hx)
  exact ⟨fun n hn => ⟨(g.1 n hn).1, fun k hk => by simp at hk⟩, fun n hn => ⟨(g.2 n hn).1, rfl⟩⟩

theorem whole_clone {m : Mem} {r : Rec} (h : Rep wholeA (m.load r)) {n : Nat} (hn : r.clone n) : n ∈ m.clones := by
  obtain ⟨x, l, hx, e, hl⟩ := hn
  exact ((whole_good h hx e).2 n hl).1

/-- the record of the curve in the memory -/
theorem record_whole {m : Mem} (h : Rep wholeA m) : Rep wholeA (m.load m.record) := by
  refine ⟨fun x => ?_, trivial⟩
  have hx := h.slot x
  by_cases hm : x.member = true
  · rw [load_member _ _ hm]
    simp only [Mem.record, hm, if_true]
    refine VRep.zero (m := m) (zero_get whole_zero x) hx (fun n hn => hn) fun l n e hn => ?_
    rw [e] at hx
    obtain ⟨s, g⟩ := hx.found (whole_known hm)
    exact (g.2 n hn).1
  · rw [load_other _ _ (by simpa using hm)]
    have : wholeA.get x = .any := by
      cases x with
      | loc n =>
        unfold AState.get
        rw [List.getD_eq_getElem?_getD]
        cases e : wholeA.v[(Slot.loc n).idx]? with
        | none => rfl
        | some v =>
          simp only [Slot.idx, wholeA] at e
          rw [List.getElem?_append_right (by simp)] at e
          exact (List.mem_replicate.mp (List.mem_of_getElem? e)).2
      | disc => rfl
      | _ => exact absurd rfl hm
    rw [this]
    trivial

/-- the records of complete curves, with the memory they are in; no two of them share clones -/
structure Shelf (t : Nat → Cell) (k : List Rec) (w : W) : Prop where
  tape : w.tape = t
  mem : ∃ m, w.mem = some m ∧ (∀ n ∈ m.clones, n < m.next) ∧ ∀ r ∈ k, Rep wholeA (m.load r)
  apart : k.Pairwise fun r s => ∀ n, r.clone n → ¬ s.clone n

theorem Shelf.perm {t : Nat → Cell} {k l : List Rec} {w : W} (h : Shelf t k w) (p : k.Perm l) : Shelf t l w := by
  refine ⟨h.tape, ?_, ?_⟩
  · obtain ⟨m, e, f, hr⟩ := h.mem
    exact ⟨m, e, f, fun r hr' => hr r (p.mem_iff.mpr hr')⟩
  · exact (p.pairwise_iff fun hxy n hy hx => hxy n hx hy).mp h.apart

theorem Shelf.tail {t : Nat → Cell} {r : Rec} {k : List Rec} {w : W} (h : Shelf t (r :: k) w) : Shelf t k w := by
  obtain ⟨m, e, f, hr⟩ := h.mem
  exact ⟨h.tape, ⟨m, e, f, fun r hr' => hr r (List.mem_cons_of_mem _ hr')⟩, (List.pairwise_cons.mp h.apart).2⟩

/-- the memory with one of the curves, the others being left alone -/
theorem load_frame {m : Mem} {r : Rec} {k : List Rec} (f : ∀ n ∈ m.clones, n < m.next) (hk : ∀ r ∈ k, Rep wholeA (m.load r))
    (ha : ∀ n, r.clone n → ¬ cloneOf k n) : Fr m.stack (cloneOf k) (m.load r) := by
  refine ⟨by simp [Mem.load], fun _ => Nat.le_refl _, f, fun n hn => ?_, fun x l n e hn => ?_⟩
  · obtain ⟨s, hs, hc⟩ := hn
    exact whole_clone (hk s hs) hc
  · by_cases hx : x.member = true
    · rw [load_member _ _ hx] at e
      exact ha n ⟨x, l, hx, e, hn⟩
    · rw [load_other _ _ (by simpa using hx)] at e
      cases e

theorem not_cloneOf {r : Rec} {k : List Rec} (h : (r :: k).Pairwise fun r s => ∀ n, r.clone n → ¬ s.clone n) : ∀ n, r.clone n → ¬ cloneOf k n := by
  rintro n hn ⟨s, hs, hc⟩
  exact (List.pairwise_cons.mp h).1 s hs n hn hc

theorem mem_of_frame {S : List Nat} {K : Nat → Prop} {m : Mem} (h : Fr S K m) {n : Nat} (hn : n ∈ S) : n ∈ m.stack := by
  rw [← h.old] at hn
  exact List.mem_of_mem_take hn

/-- a curve is released -/
theorem Shelf.free {t : Nat → Cell} {rel : Bool} {r : Rec} {k : List Rec} {w : W} (h : Shelf t (r :: k) w) :
    Shelf t k (call rel Prog.curveFree (w.load r)).1 := by
  obtain ⟨m, e, f, hr⟩ := h.mem
  have hw : Holds t wholeA (w.load r) := ⟨h.tape, m.load r, by simp [W.load, e], hr r List.mem_cons_self⟩
  obtain ⟨ht, m', e', _⟩ := leads_sound (leads_free rel) hw
  have hfr : WFr m.stack (cloneOf k) (w.load r) := by
    intro m1 e1
    simp only [W.load, e, Option.map_some, Option.some.injEq] at e1
    subst e1
    exact load_frame f (fun s hs => hr s (List.mem_cons_of_mem _ hs)) (not_cloneOf h.apart)
  have hf' := call_frame rel Prog.curveFree hfr m' e'
  exact ⟨ht, ⟨m', e', hf'.fresh, fun s hs => whole_mono (hr s (List.mem_cons_of_mem _ hs)) (fun n hn => mem_of_frame hf' hn)
    fun n hn => hf'.kept n ⟨s, hs, hn⟩⟩, h.tail.apart⟩

/-- a curve is looked at -/
theorem Shelf.look {t : Nat → Cell} {rel : Bool} {r : Rec} {k : List Rec} {w : W} {p : Stmt} {b : AState} (h : Shelf t k w) (hr : r ∈ k)
    (hp : p.gentle = true) (hb : leads rel p wholeA b = true) :
    Shelf t k (call rel p (w.load r)).1 ∧ Holds t b (call rel p (w.load r)).1 := by
  obtain ⟨m, e, f, hk⟩ := h.mem
  have el : (w.load r).mem = some (m.load r) := by simp [W.load, e]
  have hw : Holds t wholeA (w.load r) := ⟨h.tape, m.load r, el, hk r hr⟩
  have hh := leads_sound hb hw
  refine ⟨?_, hh⟩
  obtain ⟨ht, m', e', _⟩ := hh
  have hfr : WFr m.stack (cloneOf []) (w.load r) := by
    intro m1 e1
    rw [el] at e1
    cases e1
    exact load_frame f (fun s hs => by cases hs) (by rintro n _ ⟨s, hs, _⟩; cases hs)
  have hf' := call_frame rel p hfr m' e'
  have hg := call_gentle hp el e'
  exact ⟨ht, ⟨m', e', hf'.fresh, fun s hs => whole_mono (hk s hs) (fun n hn => mem_of_frame hf' hn)
    fun n hn => hg n (whole_clone (hk s hs) hn)⟩, h.apart⟩

theorem copy_no_clone {m : Mem} (h : Rep copyA m) (n : Nat) : ¬ m.record.clone n := by
  rintro ⟨x, l, hx, e, hn⟩
  simp only [Mem.record, hx, if_true] at e
  have hv := h.slot x
  rw [e] at hv
  obtain ⟨s, g⟩ := hv.found (copy_known hx).1
  have := (g.2 n hn).2
  rw [(copy_known hx).2] at this
  cases this

/-- a copy is put beside the curves -/
theorem Shelf.add {t : Nat → Cell} {k : List Rec} {w : W} (h : Shelf t k w) (hc : Holds t copyA w) :
    Shelf t (w.record :: k) w ∧ ∀ n, ¬ w.record.clone n := by
  obtain ⟨m, e, f, hk⟩ := h.mem
  obtain ⟨_, m', e', hm⟩ := hc
  rw [e] at e'
  cases e'
  have er : w.record = m.record := by simp [W.record, e]
  rw [er]
  refine ⟨⟨h.tape, ⟨m, e, f, fun r hr => ?_⟩, List.pairwise_cons.mpr ⟨fun r _ n hn => absurd hn (copy_no_clone hm n), h.apart⟩⟩, copy_no_clone hm⟩
  rcases List.mem_cons.mp hr with rfl | hr
  · exact record_whole (hm.le whole_of_copy)
  · exact hk r hr

theorem Shelf.copyOut {t : Nat → Cell} {rel : Bool} {r : Rec} : ∀ (n : Nat) {k : List Rec} {w : W}, Shelf t k w → r ∈ k →
    Shelf t ((copyOut rel r n w).2 ++ k) (copyOut rel r n w).1 := by
  intro n
  induction n with
  | zero => intro k w h _; exact h
  | succ n ih =>
    intro k w h hr
    obtain ⟨h1, h2⟩ := h.look (rel := rel) hr (by decide) (leads_copyOut rel)
    have h3 := ih (h1.add h2).1 (List.mem_cons_of_mem _ hr)
    simp only [Stack.copyOut]
    exact h3.perm (by simp [List.perm_middle])

theorem Shelf.copyMany {t : Nat → Cell} {rel : Bool} {r : Rec} : ∀ (n : Nat) {k : List Rec} {w : W}, Shelf t k w → r ∈ k →
    Shelf t ((copyMany rel r n w).2 ++ k) (copyMany rel r n w).1 ∧ ∀ s ∈ (copyMany rel r n w).2, ∀ n, ¬ s.clone n := by
  intro n
  induction n with
  | zero => intro k w h _; exact ⟨h, fun s hs => by cases hs⟩
  | succ n ih =>
    intro k w h hr
    obtain ⟨h1, h2⟩ := h.look (rel := rel) hr (by decide) (leads_copy rel)
    obtain ⟨h3, h4⟩ := ih (h1.add h2).1 (List.mem_cons_of_mem _ hr)
    simp only [Stack.copyMany]
    refine ⟨h3.perm (by simp [List.perm_middle]), fun s hs => ?_⟩
    rcases List.mem_cons.mp hs with rfl | hs
    · exact (h1.add h2).2
    · exact h4 s hs

theorem Shelf.freeAll {t : Nat → Cell} {rel : Bool} : ∀ {l : List Rec} {w : W}, Shelf t l w → Shelf t [] (freeAll rel l w) := by
  intro l
  induction l with
  | nil => intro w h; exact h
  | cons r l ih => intro w h; exact ih h.free

/-! ## a curve in the memory, the others being left alone -/

structure Top (t : Nat → Cell) (a : AState) (k : List Rec) (w : W) : Prop where
  holds : Holds t a w
  frame : ∃ m0 : Mem, WFr m0.stack (cloneOf k) w ∧ ∀ r ∈ k, Rep wholeA (m0.load r)
  apart : k.Pairwise fun r s => ∀ n, r.clone n → ¬ s.clone n

theorem Top.le {t : Nat → Cell} {a b : AState} {k : List Rec} {w : W} (h : Top t a k w) (hab : a.le b = true) : Top t b k w :=
  ⟨h.holds.le hab, h.frame, h.apart⟩

theorem Top.call {t : Nat → Cell} {rel : Bool} {a b : AState} {k : List Rec} {w : W} {p : Stmt} (h : Top t a k w) (hp : leads rel p a b = true) :
    Top t b k (call rel p w).1 := by
  obtain ⟨m0, hf, hk⟩ := h.frame
  exact ⟨leads_sound hp h.holds, ⟨m0, call_frame rel p hf, hk⟩, h.apart⟩

/-- a search -/
theorem Top.search {t : Nat → Cell} {P : Plan} {stop : Nat} {F : Fns} (hF : P.Certified stop F) (ht : P.TapeOk t) {retry : Int}
    (hretry : retry ≠ 0 → P.retry = true) {k : List Rec} {w : W} (h : Top t (P.known P.start) k w) (hle : P.start ≤ stop) {st : St W}
    (hr : Reaches P.rel F P.start stop retry (init P.start w) st) :
    st.state ≤ stop ∧ Top t (P.known st.state) k st.w ∧
      ∀ st', st.state < stop → step P.rel F P.start retry st = .inr st' → ∃ a, P.fail a = true ∧ Top t a k st'.w := by
  obtain ⟨m0, hf, hk⟩ := h.frame
  have h1 := plan_reaches hF ht retry hretry (init P.start w) st (Nat.le_refl _) hle h.holds hr
  have h2 := reaches_frame (S := m0.stack) (K := cloneOf k) (st := init P.start w) (Nat.le_refl _) hf hr
  refine ⟨h1.2.1, ⟨h1.2.2, ⟨m0, h2.2, hk⟩, h.apart⟩, fun st' hlt he => ?_⟩
  obtain ⟨a, ha, hw⟩ := (plan_step hF ht retry hretry st h1.1 hlt h1.2.2).2 st' he
  exact ⟨a, ha, hw, ⟨m0, (step_frame P.rel F P.start stop retry st h1.1 hlt h2.2).2 st' he, hk⟩, h.apart⟩

theorem Top.shelf {t : Nat → Cell} {a : AState} {k : List Rec} {w : W} (h : Top t a k w) : Shelf t k w := by
  obtain ⟨m0, hf, hk⟩ := h.frame
  obtain ⟨ht, m, e, _⟩ := h.holds
  have hfm := hf m e
  exact ⟨ht, ⟨m, e, hfm.fresh, fun r hr => whole_mono (hk r hr) (fun n hn => mem_of_frame hfm hn) fun n hn => hfm.kept n ⟨r, hr, hn⟩⟩, h.apart⟩

/-- a complete curve is put beside the others -/
theorem Top.store {t : Nat → Cell} {k : List Rec} {w : W} (h : Top t wholeA k w) : Shelf t (w.record :: k) w := by
  have hs := h.shelf
  obtain ⟨m0, hf, hk⟩ := h.frame
  obtain ⟨ht, m, e, hm⟩ := h.holds
  obtain ⟨m', e', f, hk'⟩ := hs.mem
  rw [e] at e'
  cases e'
  have er : w.record = m.record := by simp [W.record, e]
  rw [er]
  refine ⟨ht, ⟨m, e, f, fun r hr => ?_⟩, List.pairwise_cons.mpr ⟨fun r hr n hn hc => ?_, h.apart⟩⟩
  · rcases List.mem_cons.mp hr with rfl | hr
    · exact record_whole hm
    · exact hk' r hr
  · obtain ⟨x, l, hx, el, hl⟩ := hn
    simp only [Mem.record, hx, if_true] at el
    exact (hf m e).slot x l n el hl ⟨r, hr, hc⟩

/-- one of the curves is looked at again -/
theorem Shelf.top {t : Nat → Cell} {r : Rec} {k : List Rec} {w : W} (h : Shelf t (r :: k) w) : Top t wholeA k (w.load r) := by
  obtain ⟨m, e, f, hk⟩ := h.mem
  have el : (w.load r).mem = some (m.load r) := by simp [W.load, e]
  refine ⟨⟨h.tape, m.load r, el, hk r List.mem_cons_self⟩, ⟨m, fun m1 e1 => ?_, fun s hs => hk s (List.mem_cons_of_mem _ hs)⟩, h.tail.apart⟩
  rw [el] at e1
  cases e1
  exact load_frame f (fun s hs => hk s (List.mem_cons_of_mem _ hs)) (not_cloneOf h.apart)

/-- a new curve with two numbers -/
theorem Shelf.two {t : Nat → Cell} {k : List Rec} {w : W} (h : Shelf t k w)
    (hw : Holds t ⟨List.replicate 13 .any ++ [.live 0 false, .live 0 false], .any⟩ w) : Top t newA k (w.load w.two) := by
  obtain ⟨m, e, f, hk⟩ := h.mem
  obtain ⟨_, m', e', hm⟩ := hw
  rw [e] at e'
  cases e'
  have e2 : w.two = m.two := by simp [W.two, e]
  have el : (w.load w.two).mem = some (m.load m.two) := by simp [W.load, e, e2]
  obtain ⟨l0, h0, g0⟩ : ∃ l, m.slot (.loc 0) = some l ∧ Good m 0 false l := hm.slot (.loc 0)
  obtain ⟨l1, h1, g1⟩ : ∃ l, m.slot (.loc 1) = some l ∧ Good m 0 false l := hm.slot (.loc 1)
  have gz : ∀ l, Good m 0 false l → Good (m.load m.two) 0 false l :=
    fun l g => g.zero (fun n _ hn => hn) fun n hn => absurd (g.2 n hn).2 (by simp)
  have hnc : ∀ n, ¬ m.two.clone n := by
    rintro n ⟨x, l, _, hl, hn⟩
    cases x <;> simp only [Mem.two, reduceCtorEq] at hl
    · rw [h0] at hl; cases hl; exact absurd (g0.2 n hn).2 (by simp)
    · rw [h1] at hl; cases hl; exact absurd (g1.2 n hn).2 (by simp)
  refine ⟨⟨h.tape, _, el, fun x => ?_, trivial⟩, ⟨m, fun m1 e1 => ?_, hk⟩, h.apart⟩
  · have hn : ∀ x, x ≠ .field → x ≠ .a → (m.load m.two).slot x = none := by
      intro x hx1 hx2
      by_cases hx : x.member = true
      · rw [load_member _ _ hx]; cases x <;> simp_all [Mem.two]
      · rw [load_other _ _ (by simpa using hx)]
    by_cases hx1 : x = .field
    · subst hx1
      exact ⟨l0, h0, gz _ g0⟩
    · by_cases hx2 : x = .a
      · subst hx2
        exact ⟨l1, h1, gz _ g1⟩
      · rw [hn x hx1 hx2]
        have : newA.get x = .null ∨ newA.get x = .any := by
          cases x with
          | loc n =>
            unfold AState.get
            rw [List.getD_eq_getElem?_getD]
            cases e : newA.v[(Slot.loc n).idx]? with
            | none => exact Or.inr rfl
            | some v =>
              refine Or.inl ?_
              simp only [Slot.idx, newA] at e
              rw [List.getElem?_append_right (by simp)] at e
              exact (List.mem_replicate.mp (List.mem_of_getElem? e)).2
          | _ => first | exact absurd rfl hx1 | exact absurd rfl hx2 | exact Or.inl rfl
        rcases this with h' | h' <;> rw [h']
        · rfl
        · trivial
  · rw [el] at e1
    cases e1
    exact load_frame f hk fun n hn => absurd hn (hnc n)

theorem Shelf.newCurve {t : Nat → Cell} {rel : Bool} {o : Rec} {k : List Rec} {w : W} (h : Shelf t k w) (ho : o ∈ k) :
    Top t newA k (newCurve rel o w) := by
  obtain ⟨h1, h2⟩ := h.look (rel := rel) ho (by decide) (leads_two rel)
  exact h1.two h2

end Ecgen.Stack
