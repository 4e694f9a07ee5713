import Verif.Stack.InvalidSearch
import Verif.Stack.Props

/-!
# C73: the invalid curve method never looks at memory it has given back, and keeps the curves it prints

Proved for all tapes: all curves drawn, all primes that divide their orders, all points at which the timer goes off, any number of rounds. For the threads
it is proved without the timer. Releasing the original curve after its search failed and releasing the last curve of a thread are exceptions; for
both there is an execution that reads numbers given back.
-/

namespace Ecgen.Stack
open Ecgen.Engine Ecgen.Cli

/-! ### Specification -/

/-- nothing undefined was done, and all the numbers that the curves in `k` refer to are there -/
def Intact (k : List Rec) (w : W) : Prop :=
  ∃ m, w.mem = some m ∧ ∀ r ∈ k, ∀ x l, x.member = true → r x = some l → ∀ i ∈ l, m.here i = true

/-- nothing undefined is done in the three searches of a round that begins with `w`, and the curves in `k` are kept; the first and the third search,
whose results are not looked at (invalid.c:139, 187), do not give up -/
def SafeRound (rel : Bool) (F : Fns) (k : List Rec) (w : W) : Prop :=
  ∀ s1, First rel F w s1 → Intact k s1.w ∧ (s1.state < 6 → ∀ s', step rel F 3 0 s1 ≠ .inr s') ∧
    (6 ≤ s1.state → ∀ s2, Second rel F s1.w s2 → Intact k s2.w ∧ (s2.state < 7 → ∀ s', step rel F 6 1 s2 = .inr s' → Intact k s'.w) ∧
      (7 ≤ s2.state → ∀ s3, Third rel F s2.w s3 → Intact k s3.w ∧ (s3.state < 9 → ∀ s', step rel F 7 0 s3 ≠ .inr s')))

/-- nothing undefined is done in a run with one thread: not while the original curve is searched for; not in any round, and when the next one
begins (which includes printing and copying); not when all curves are released. The original curve and all curves found stay as they are. -/
def SafeInvalid (rel : Bool) (Fo Fi : Fns) (w : W) : Prop :=
  ∀ st, Original rel Fo w st → st.w.mem.isSome = true ∧ (st.state < 7 → ∀ st', step rel Fo 1 0 st = .inr st' → st'.w.mem.isSome = true) ∧
    (7 ≤ st.state → ∀ b w' k, Single rel Fi st.w.record (printOriginal rel st.w) b w' k →
      Intact (st.w.record :: k) w' ∧ SafeRound rel Fi (st.w.record :: k) w' ∧
      (b = true → ∀ l, l.Perm k → (endSingle rel st.w.record l w').mem.isSome = true))

/-- the numbers of a curve are all on the stack -/
def Rec.OnStack (r : Rec) : Prop := ∀ x l, x.member = true → r x = some l → ∀ i ∈ l, ∃ n, i = .stk n

/-- nothing undefined is done in a thread; the curves it has handed over are on its stack and stay there, also after its end -/
def SafeThread (rel : Bool) (F : Fns) (w : W) : Prop :=
  ∀ b w' k, Thread rel F w b w' k → (∀ r ∈ k, r.OnStack) ∧ Intact k w' ∧ SafeRound rel F k w' ∧ (b = true → Intact k (endThread rel w'))

/-- the memory at the beginning: nothing is as young as the next clone -/
def Mem.Sound (m : Mem) : Prop := ∀ n ∈ m.clones, n < m.next

/-! ### Lemmas -/

theorem Shelf.intact {t : Nat → Cell} {k : List Rec} {w : W} (h : Shelf t k w) : Intact k w := by
  obtain ⟨m, e, _, hr⟩ := h.mem
  refine ⟨m, e, fun r hk x l hx e' i hi => ?_⟩
  have g := whole_good (hr r hk) hx e'
  cases i with
  | stk n => exact List.contains_iff_mem.mpr (g.1 n hi).1
  | cln n => exact List.contains_iff_mem.mpr (g.2 n hi).1

theorem Top.intact {t : Nat → Cell} {a : AState} {k : List Rec} {w : W} (h : Top t a k w) : Intact k w := h.shelf.intact

theorem stage_of_pass {P : Plan} {s : Nat} {gs : List Gen} {l : List Check} (h : pass P s gs l = true) {g : Gen} (hg : g ∈ gs) :
    stageOk P s (Prog.gen g) (seqs (l.map Prog.check)) = true := (List.all_eq_true.mp h) g hg

theorem certified_of {P : Plan} {stop : Nat} {F : Fns} (hu : F.unroll = Prog.unroll) (h9 : stop ≤ 9)
    (h : ∀ s, P.start ≤ s → s < stop → stageOk P s (F.gen s) (F.check s) = true) : P.Certified stop F :=
  ⟨hu, h9, fun s h1 h2 => ⟨P, rfl, rfl, rfl, rfl, id, id, fun _ _ => rfl, h s h1 h2⟩⟩

theorem original_certified (c : Config) (rel : Bool) : (planO rel).Certified 7 (fns (originalSetup c)) := by
  refine certified_of rfl (by decide) fun s h1 h2 => ?_
  have h1 : 1 ≤ s := h1
  have h : s = 1 ∨ s = 2 ∨ s = 3 ∨ s = 4 ∨ s = 5 ∨ s = 6 := by omega
  rcases h with rfl | rfl | rfl | rfl | rfl | rfl
  · exact stage_of_pass (original_1 rel) (g := if has c.random RANDOM_FIELD then .fieldRandom else .fieldInput) (by split <;> decide)
  · exact stage_of_pass (original_2 rel) (g := if has c.random RANDOM_A then .aRandom else .aInput) (by split <;> decide)
  · exact stage_of_pass (original_3 rel) (g := if has c.random RANDOM_B then .bRandom else .bInput) (by split <;> decide)
  · exact stage_of_pass (original_4 rel) (g := .curveAny) (by decide)
  · exact stage_of_pass (original_5 rel) (g := .orderAny) (by decide)
  · exact stage_of_pass (original_6 rel) (g := .gensAny) (by decide)

theorem first_certified (c : Config) (timer rel : Bool) : (plan1 timer rel).Certified 6 (fns (invalidSetup c)) := by
  refine certified_of rfl (by decide) fun s h1 h2 => ?_
  have h1 : 3 ≤ s := h1
  have h : s = 3 ∨ s = 4 ∨ s = 5 := by omega
  rcases h with rfl | rfl | rfl
  · exact stage_of_pass (first_3 timer rel) (g := .bRandom) (by decide)
  · exact stage_of_pass (first_4 timer rel) (g := .curveAny) (by decide)
  · exact stage_of_pass (first_5 timer rel) (g := .orderAny) (by decide)

theorem second_certified (c : Config) (rel : Bool) : (plan2 rel).Certified 7 (fns (invalidSetup c)) := by
  refine certified_of rfl (by decide) fun s h1 h2 => ?_
  have h1 : 6 ≤ s := h1
  have h : s = 6 := by omega
  subst h
  exact stage_of_pass (second_6 rel) (g := if c.unique then .gensOne else .gensAny) (by split <;> decide)

theorem secondT_certified (c : Config) (rel : Bool) : (plan2T rel).Certified 7 (fns (invalidSetup c)) := by
  refine certified_of rfl (by decide) fun s h1 h2 => ?_
  have h1 : 6 ≤ s := h1
  have h : s = 6 := by omega
  subst h
  exact stage_of_pass (secondT_6 rel) (g := if c.unique then .gensOne else .gensAny) (by split <;> decide)

theorem third_certified (c : Config) (timer rel : Bool) : (plan3 timer rel).Certified 9 (fns (invalidSetup c)) := by
  refine certified_of rfl (by decide) fun s h1 h2 => ?_
  have h1 : 7 ≤ s := h1
  have h : s = 7 ∨ s = 8 := by omega
  rcases h with rfl | rfl
  · exact stage_of_pass (third_7 timer rel) (g := .pointsTrial) (by decide)
  · exact stage_of_pass (third_8 timer rel) (g := .skip) (by decide)

/-- what is to be known of the functions of a round -/
structure RoundOk (timer rel : Bool) (F : Fns) (P2 : Plan) : Prop where
  one : (plan1 timer rel).Certified 6 F
  two : P2.Certified 7 F
  three : (plan3 timer rel).Certified 9 F
  known : P2.known = knownI timer
  start : P2.start = 6
  rel : P2.rel = rel
  retry : P2.retry = true

section
variable {timer rel : Bool} {F : Fns} {P2 : Plan} {t : Nat → Cell} {k : List Rec} {w : W}

theorem first_top (hF : RoundOk timer rel F P2) (ht : (plan1 timer rel).TapeOk t) (h : Top t (topA timer) k w) {s1 : St W} (h1 : First rel F w s1) :
    s1.state ≤ 6 ∧ Top t (knownI timer s1.state) k s1.w ∧ ∀ st', s1.state < 6 → step rel F 3 0 s1 ≠ .inr st' := by
  have := Top.search hF.one ht (retry := 0) (by simp) (h.call (leads_save timer rel)) (show 3 ≤ 6 by decide) h1
  refine ⟨this.1, this.2.1, fun st' hlt he => ?_⟩
  obtain ⟨a, ha, _⟩ := this.2.2 st' hlt he
  cases ha

theorem second_top (hF : RoundOk timer rel F P2) (ht2 : P2.TapeOk t) (h : Top t (knownI timer 6) k w) {s2 : St W} (h2 : Second rel F w s2) :
    s2.state ≤ 7 ∧ Top t (knownI timer s2.state) k s2.w ∧
      ∀ st', s2.state < 7 → step rel F 6 1 s2 = .inr st' → ∃ a, P2.fail a = true ∧ Top t a k st'.w := by
  have h' : Top t (P2.known P2.start) k (call rel Prog.divides w).1 := by
    rw [hF.known, hF.start]; exact h.call (leads_divides_6 timer rel)
  have h2' : Reaches P2.rel F P2.start 7 1 (init P2.start (call rel Prog.divides w).1) s2 := by
    rw [hF.start, hF.rel]; exact h2
  have := Top.search hF.two ht2 (retry := 1) (fun _ => hF.retry) h' (by rw [hF.start]; decide) h2'
  rw [hF.known, hF.start, hF.rel] at this
  exact this

theorem third_top (hF : RoundOk timer rel F P2) (ht : (plan3 timer rel).TapeOk t) (h : Top t (knownI timer 7) k w) {s3 : St W} (h3 : Third rel F w s3) :
    s3.state ≤ 9 ∧ Top t (knownI timer s3.state) k s3.w ∧ ∀ st', s3.state < 9 → step rel F 7 0 s3 ≠ .inr st' := by
  have := Top.search hF.three ht (retry := 0) (by simp) (h.call (leads_divides_7 timer rel)) (show 7 ≤ 9 by decide) h3
  refine ⟨this.1, this.2.1, fun st' hlt he => ?_⟩
  obtain ⟨a, ha, _⟩ := this.2.2 st' hlt he
  cases ha

theorem at_end {n j : Nat} (h1 : n ≤ j) (h2 : j ≤ n) {A : Nat → AState} (h : Top t (A n) k w) : Top t (A j) k w := by
  have : n = j := by omega
  subst this
  exact h

theorem safe_round (hF : RoundOk timer rel F P2) (ht : (plan1 timer rel).TapeOk t) (ht2 : P2.TapeOk t) (h : Top t (topA timer) k w) :
    SafeRound rel F k w := by
  intro s1 h1
  obtain ⟨a1, b1, c1⟩ := first_top hF ht h h1
  refine ⟨b1.intact, fun hlt st' => c1 st' hlt, fun hge s2 h2 => ?_⟩
  obtain ⟨a2, b2, c2⟩ := second_top hF ht2 (at_end a1 hge b1) h2
  refine ⟨b2.intact, fun hlt st' he => ?_, fun hge2 s3 h3 => ?_⟩
  · obtain ⟨a, _, ha⟩ := c2 st' hlt he
    exact ha.intact
  · obtain ⟨_, b3, c3⟩ := third_top hF ht (at_end a2 hge2 b2) h3
    exact ⟨b3.intact, fun hlt st' => c3 st' hlt⟩

end

theorem single_round (c : Config) (rel : Bool) : RoundOk true rel (fns (invalidSetup c)) (plan2 rel) :=
  ⟨first_certified c true rel, second_certified c rel, third_certified c true rel, rfl, rfl, rfl, rfl⟩

theorem thread_round (c : Config) (rel : Bool) : RoundOk false rel (fns (invalidSetup c)) (plan2T rel) :=
  ⟨first_certified c false rel, secondT_certified c rel, third_certified c false rel, rfl, rfl, rfl, rfl⟩

/-- the tops of the rounds -/
theorem single_top (c : Config) {rel : Bool} {t : Nat → Cell} {o : Rec} {w : W} (h : Shelf t [o] w) {b : Bool} {w' : W} {k : List Rec}
    (hs : Single rel (fns (invalidSetup c)) o w b w' k) :
    Top t (topA true) (o :: k) w' ∧ (b = true → Top t newA (o :: k) w') := by
  have ht : (plan1 true rel).TapeOk t := ⟨fun h => (nomatch h), fun h => nomatch h⟩
  have ht2 : (plan2 rel).TapeOk t := ⟨fun h => (nomatch h), fun h => nomatch h⟩
  have hF := single_round c rel
  induction hs with
  | first =>
    have := h.newCurve (rel := rel) (o := o) List.mem_cons_self
    exact ⟨this.le (top_of_new true), fun _ => this⟩
  | unused _ h1 hge ih =>
    obtain ⟨a1, b1, _⟩ := first_top hF ht ih.1 h1
    exact ⟨(at_end a1 hge b1).call (leads_unused rel), fun h => by cases h⟩
  | refused _ h1 hge h2 hlt he ih =>
    obtain ⟨a1, b1, _⟩ := first_top hF ht ih.1 h1
    obtain ⟨a2, b2, c2⟩ := second_top hF ht2 (at_end a1 hge b1) h2
    obtain ⟨a, ha, hw⟩ := c2 _ hlt he
    exact ⟨hw.call ha, fun h => by cases h⟩
  | @used b w1 k s1 s2 s3 n _ h1 hge h2 hge2 h3 hge3 ih =>
    obtain ⟨a1, b1, _⟩ := first_top hF ht ih.1 h1
    obtain ⟨a2, b2, _⟩ := second_top hF ht2 (at_end a1 hge b1) h2
    obtain ⟨a3, b3, _⟩ := third_top hF ht (at_end a2 hge2 b2) h3
    have hw := ((at_end a3 hge3 b3).le (whole_of_knownI true)).store
    have hk : Shelf t (s3.w.record :: o :: k) (keepCurve rel s3.w) := (hw.look List.mem_cons_self (by decide) (leads_output rel)).1
    have hc := hk.copyOut (rel := rel) n (r := s3.w.record) List.mem_cons_self
    have hp := hc.perm (l := o :: (s3.w.record :: (copyOut rel s3.w.record n (keepCurve rel s3.w)).2 ++ k)) (by
      refine List.perm_append_comm.trans ?_
      exact (List.Perm.swap _ _ _).trans (List.Perm.cons _ (List.Perm.cons _ List.perm_append_comm)))
    have := hp.newCurve (rel := rel) (o := o) List.mem_cons_self
    exact ⟨this.le (top_of_new true), fun _ => this⟩

theorem new_top (t : Nat → Cell) {m : Mem} (hm : m.Sound) (k : Nat) : Top t (knownO 1) [] (W.load Rec.new ⟨some m, t, k⟩) := by
  refine ⟨⟨rfl, _, rfl, fun x => ?_, trivial⟩, ⟨m, fun m1 e1 => ?_, fun r hr => nomatch hr⟩, List.Pairwise.nil⟩
  · have hn : (m.load Rec.new).slot x = none := by
      by_cases hx : x.member = true
      · rw [load_member _ _ hx]; rfl
      · rw [load_other _ _ (by simpa using hx)]
    rw [hn]
    have : (knownO 1).get x = .null ∨ (knownO 1).get x = .any := by
      cases x with
      | loc n =>
        unfold AState.get
        rw [List.getD_eq_getElem?_getD]
        cases e : (knownO 1).v[(Slot.loc n).idx]? with
        | none => exact Or.inr rfl
        | some v =>
          refine Or.inr ?_
          simp only [Slot.idx, knownO] at e
          rw [List.getElem?_append_right (by simp)] at e
          exact (List.mem_replicate.mp (List.mem_of_getElem? e)).2
      | _ => first | exact Or.inl rfl | exact Or.inr rfl
    rcases this with h' | h' <;> rw [h']
    · rfl
    · trivial
  · have e : (W.load Rec.new ⟨some m, t, k⟩).mem = some (m.load Rec.new) := rfl
    rw [e] at e1
    cases e1
    refine load_frame hm (fun s hs => by cases hs) ?_
    rintro n _ ⟨s, hs, _⟩
    cases hs

theorem onStack_of {r : Rec} (hc : ∀ n, ¬ r.clone n) : r.OnStack := by
  intro x l hx e i hi
  cases i with
  | stk n => exact ⟨n, rfl⟩
  | cln n => exact absurd ⟨x, l, hx, e, hi⟩ (hc n)

theorem thread_first {rel : Bool} (t : Nat → Cell) {m : Mem} (hm : m.Sound) (k : Nat) : Top t newA [] (newThreadCurve rel ⟨some m, t, k⟩) := by
  have h0 : Top t ⟨List.replicate 25 .any, .any⟩ [] (W.load Rec.new ⟨some m, t, k⟩) := (new_top t hm k).le (by decide +kernel)
  have h1 := h0.call (leads_two_new rel)
  exact h1.shelf.two h1.holds

theorem thread_top (c : Config) {rel : Bool} {t : Nat → Cell} (ht : Calm t) {w : W} (h : Top t newA [] (newThreadCurve rel w)) {b : Bool} {w' : W}
    {k : List Rec} (hs : Thread rel (fns (invalidSetup c)) w b w' k) :
    Top t (topA false) k w' ∧ (∀ r ∈ k, ∀ n, ¬ r.clone n) ∧ (b = true → Top t newA k w' ∨ Top t doneA k w') := by
  have ht1 : (plan1 false rel).TapeOk t := ⟨fun h => (nomatch h), fun _ => ht⟩
  have ht2 : (plan2T rel).TapeOk t := ⟨fun h => (nomatch h), fun _ => ht⟩
  have hF := thread_round c rel
  induction hs with
  | first => exact ⟨h.le (top_of_new false), fun r hr => (nomatch hr), fun _ => Or.inl h⟩
  | unused _ h1 hge ih =>
    obtain ⟨a1, b1, _⟩ := first_top hF ht1 ih.1 h1
    exact ⟨(at_end a1 hge b1).call (leads_unusedT rel), ih.2.1, fun h => by cases h⟩
  | refused _ h1 hge h2 hlt he ih =>
    obtain ⟨a1, b1, _⟩ := first_top hF ht1 ih.1 h1
    obtain ⟨a2, b2, c2⟩ := second_top hF ht2 (at_end a1 hge b1) h2
    obtain ⟨a, ha, hw⟩ := c2 _ hlt he
    exact ⟨hw.call ha, ih.2.1, fun h => by cases h⟩
  | late _ h1 hge h2 hge2 ih =>
    obtain ⟨a1, b1, _⟩ := first_top hF ht1 ih.1 h1
    obtain ⟨a2, b2, c2⟩ := second_top hF ht2 (at_end a1 hge b1) h2
    exact ⟨(at_end a2 hge2 b2).call (leads_lateT rel), ih.2.1, fun h => by cases h⟩
  | @used b w1 k s1 s2 s3 n _ h1 hge h2 hge2 h3 hge3 ih =>
    obtain ⟨a1, b1, _⟩ := first_top hF ht1 ih.1 h1
    obtain ⟨a2, b2, _⟩ := second_top hF ht2 (at_end a1 hge b1) h2
    obtain ⟨a3, b3, _⟩ := third_top hF ht1 (at_end a2 hge2 b2) h3
    have hw := ((at_end a3 hge3 b3).le (whole_of_knownI false)).store
    obtain ⟨hc, hn⟩ := hw.copyMany (rel := rel) n (r := s3.w.record) List.mem_cons_self
    have hp := (hc.perm (l := s3.w.record :: ((copyMany rel s3.w.record n s3.w).2 ++ k)) List.perm_middle).top
    have hd := hp.call (leads_done rel)
    refine ⟨hd.le top_of_done, fun r hr => ?_, fun _ => Or.inr hd⟩
    rcases List.mem_append.mp hr with hr | hr
    · exact hn r hr
    · exact ih.2.1 r hr

theorem invalid_run {order : Str → Str} {prime : Str → Bool} {c : Config} {so si : Cli.Setup} {range : Option Str}
    (h : run order prime c = .invalid so si range) : so = originalSetup c ∧ si = invalidSetup c := by
  unfold run at h
  split at h
  · cases h
  · split at h
    · cases h; exact ⟨rfl, rfl⟩
    · cases h

/-! ### The theorems -/

/-- Missing: the release of the original curve after its search failed (invalid.c:323-326); the claim is false for it. -/
theorem invalid_no_stale_memory_partial (order : Str → Str) (prime : Str → Bool) (c : Config) (so si : Cli.Setup) (range : Option Str)
    (hrun : run order prime c = .invalid so si range) (rel : Bool) (t : Nat → Cell) (m : Mem) (hm : m.Sound) (k : Nat) :
    SafeInvalid rel (fns so) (fns si) ⟨some m, t, k⟩ := by
  obtain ⟨rfl, rfl⟩ := invalid_run hrun
  intro st hst
  have ht : (planO rel).TapeOk t := ⟨fun h => (nomatch h), fun h => nomatch h⟩
  obtain ⟨h1, h2, h3⟩ := Top.search (original_certified c rel) ht (retry := 0) (by simp) (new_top t hm k) (show 1 ≤ 7 by decide) hst
  refine ⟨h2.holds.some, fun hlt st' he => ?_, fun hge b w' ks hs => ?_⟩
  · obtain ⟨a, _, ha⟩ := h3 st' hlt he
    exact ha.holds.some
  · have hw : Shelf t [st.w.record] st.w := ((at_end (A := knownO) h1 hge h2).le whole_of_knownO).store
    have hp : Shelf t [st.w.record] (printOriginal rel st.w) := (hw.look List.mem_cons_self (by decide) (leads_print rel)).1
    have htop := single_top c hp hs
    refine ⟨htop.1.intact, ?_, fun hb l hl => ?_⟩
    · exact safe_round (single_round c rel) ⟨fun h => (nomatch h), fun h => nomatch h⟩ ⟨fun h => (nomatch h), fun h => nomatch h⟩ htop.1
    · have h4 := ((htop.2 hb).call (leads_free_new rel)).shelf
      have h5 := (h4.perm (l := l ++ [st.w.record]) ((List.Perm.cons _ hl.symm).trans (by simpa using List.perm_append_comm (l₁ := [st.w.record])))).freeAll (rel := rel)
      obtain ⟨m', e, _⟩ := h5.mem
      show (freeAll rel (l ++ [st.w.record]) (call rel Prog.curveFree w').1).mem.isSome = true
      rw [e]; rfl

/-- Missing: the timer; and the release of the last curve of a thread if its numbers have been given back (in `SafeThread` it is only asked for
otherwise), for which the claim is false. -/
theorem thread_no_stale_memory_partial (order : Str → Str) (prime : Str → Bool) (c : Config) (so si : Cli.Setup) (range : Option Str)
    (hrun : run order prime c = .invalid so si range) (rel : Bool) (t : Nat → Cell) (ht : Calm t) (m : Mem) (hm : m.Sound) (k : Nat) :
    SafeThread rel (fns si) ⟨some m, t, k⟩ := by
  obtain ⟨rfl, rfl⟩ := invalid_run hrun
  intro b w' ks hs
  have htop := thread_top c ht (thread_first t hm k) hs
  refine ⟨fun r hr => onStack_of (htop.2.1 r hr), htop.1.intact,
    safe_round (thread_round c rel) ⟨fun h => (nomatch h), fun _ => ht⟩ ⟨fun h => (nomatch h), fun _ => ht⟩ htop.1, fun hb => ?_⟩
  rcases htop.2.2 hb with h | h
  · exact (h.call (leads_free_new rel)).intact
  · exact (h.call (leads_free_done rel)).intact

/-! ### The exceptions -/

/-- the two setups of a command line -/
def invalidOf (os : List Opt) : Option (Cli.Setup × Cli.Setup) :=
  match commandLine 3 os with
  | some c =>
    match run id (fun _ => true) c with
    | .invalid so si _ => some (so, si)
    | _ => none
  | none => none

theorem loop_runs {rel : Bool} {F : Fns} {start stop : Nat} {retry : Int} {fuel : Nat} {st0 st st' : St W} {r : Int}
    (h0 : Reaches rel F start stop retry st0 st) (h : loop rel F start stop retry fuel st = some (r, st')) :
    (r = 1 ∧ Reaches rel F start stop retry st0 st' ∧ stop ≤ st'.state) ∨
    (r = 0 ∧ ∃ st1, Reaches rel F start stop retry st0 st1 ∧ st1.state < stop ∧ step rel F start retry st1 = .inr st') := by
  induction fuel generalizing st with
  | zero =>
    simp only [loop] at h
    split at h
    · cases h
    · cases h; exact Or.inl ⟨rfl, h0, by omega⟩
  | succ fuel ih =>
    simp only [loop] at h
    split at h
    · rename_i hlt
      cases hs : step rel F start retry st with
      | inl st1 => rw [hs] at h; exact ih (h0.next hlt hs) h
      | inr st1 => rw [hs] at h; cases h; exact Or.inr ⟨rfl, st, h0, hlt, hs⟩
    · cases h; exact Or.inl ⟨rfl, h0, by omega⟩

/-- a search that ends, and one that fails -/
def goes (rel : Bool) (F : Fns) (start stop : Nat) (retry : Int) (w : W) : Option W :=
  match loop rel F start stop retry 20 (init start w) with
  | some (r, st) => if r = 1 then some st.w else none
  | _ => none

def gives (rel : Bool) (F : Fns) (start stop : Nat) (retry : Int) (w : W) : Option W :=
  match loop rel F start stop retry 20 (init start w) with
  | some (r, st) => if r = 1 then none else some st.w
  | _ => none

theorem goes_reaches {rel : Bool} {F : Fns} {start stop : Nat} {retry : Int} {w w' : W} (h : goes rel F start stop retry w = some w') :
    ∃ st, Reaches rel F start stop retry (init start w) st ∧ stop ≤ st.state ∧ st.w = w' := by
  unfold goes at h
  split at h
  · rename_i r st hl
    split at h
    · rename_i h1
      cases h
      rcases loop_runs .refl hl with ⟨_, a, b⟩ | ⟨a, _⟩
      · exact ⟨st, a, b, rfl⟩
      · rw [h1] at a; cases a
    · cases h
  · cases h

theorem gives_reaches {rel : Bool} {F : Fns} {start stop : Nat} {retry : Int} {w w' : W} (h : gives rel F start stop retry w = some w') :
    ∃ st st', Reaches rel F start stop retry (init start w) st ∧ st.state < stop ∧ step rel F start retry st = .inr st' ∧ st'.w = w' := by
  unfold gives at h
  split at h
  · rename_i r st hl
    split at h
    · cases h
    · rename_i h1
      cases h
      rcases loop_runs .refl hl with ⟨a, _⟩ | ⟨_, st1, a, b, c⟩
      · exact absurd a h1
      · exact ⟨st1, st, a, b, c, rfl⟩
  · cases h

def typedLine : List Opt := [.fp, .random (some "field".toList), .invalid none, .arg "16".toList]
def randomLine : List Opt := [.fp, .random none, .invalid none, .arg "16".toList]

def failedTape : Nat → Cell := tape [(33, zero), (48, zero)]

/-- The search for the original curve fails: the first curve is singular, and the input ends before the coefficients of the second. `curve_free` (invalid.c:326)
looks at the coefficients of the first one, which were given back. -/
theorem original_failure_false (rel : Bool) :
    ∃ so si, invalidOf typedLine = some (so, si) ∧ fresh.Sound ∧
      ∃ st st', Original rel (fns so) ⟨some fresh, failedTape, 0⟩ st ∧ st.state < 7 ∧ step rel (fns so) 1 0 st = .inr st' ∧
        st'.w.mem.isSome = true ∧ (call rel Prog.curveFree st'.w).1.mem = none := by
  have key : (invalidOf typedLine).any (fun s => (gives rel (fns s.1) 1 7 0 (W.load Rec.new ⟨some fresh, failedTape, 0⟩)).any fun w =>
      w.mem.isSome && (call rel Prog.curveFree w).1.mem.isNone) = true := by
    cases rel <;> decide +kernel
  simp only [Option.any_eq_true, Bool.and_eq_true, Option.isNone_iff_eq_none, Prod.exists] at key
  obtain ⟨so, si, hs, w, hg, h1, h2⟩ := key
  obtain ⟨st, st', a, b, c, rfl⟩ := gives_reaches hg
  exact ⟨so, si, hs, fun n hn => (nomatch hn), st, st', a, b, c, h1, h2⟩

/-- The order of the last curve of a thread has none of the primes as a factor, or other threads have found the curves meanwhile: its numbers are given back
(invalid_thread.c:87), and then `curve_free` (89) looks at them. -/
theorem thread_last_curve_false (rel : Bool) :
    ∃ so si, invalidOf randomLine = some (so, si) ∧ fresh.Sound ∧ Calm (tape []) ∧
      ∃ w', Thread rel (fns si) ⟨some fresh, tape [], 0⟩ false w' [] ∧ w'.mem.isSome = true ∧ (endThread rel w').mem = none := by
  have key : (invalidOf randomLine).any (fun s =>
      (goes rel (fns s.2) 3 6 0 (call rel (Prog.save 16) (newThreadCurve rel ⟨some fresh, tape [], 0⟩)).1).any fun w =>
        (call rel (seqs [Prog.divides, Prog.unrolls, Prog.restore 16]) w).1.mem.isSome &&
        (endThread rel (call rel (seqs [Prog.divides, Prog.unrolls, Prog.restore 16]) w).1).mem.isNone) = true := by
    cases rel <;> decide +kernel
  simp only [Option.any_eq_true, Bool.and_eq_true, Option.isNone_iff_eq_none, Prod.exists] at key
  obtain ⟨so, si, hs, w, hg, h1, h2⟩ := key
  obtain ⟨st, a, b, rfl⟩ := goes_reaches hg
  exact ⟨so, si, hs, fun n hn => (nomatch hn), fun k => rfl, _, .unused .first a b, h1, h2⟩

/-! ### The theorems are about something -/

/-- the rest of a run with one curve, kept for three primes -/
def restOf (rel : Bool) (F : Fns) (o : Rec) (w : W) : Option (W × List Rec) :=
  (goes rel F 3 6 0 (call rel (Prog.save 16) (newCurve rel o w)).1).bind fun w2 =>
  (goes rel F 6 7 1 (call rel Prog.divides w2).1).bind fun w3 =>
  (goes rel F 7 9 0 (call rel Prog.divides w3).1).map fun w4 =>
    (newCurve rel o (copyOut rel w4.record 2 (keepCurve rel w4)).1, w4.record :: (copyOut rel w4.record 2 (keepCurve rel w4)).2 ++ [])

/-- a run with one thread that finds the original curve and a curve for three primes, and ends -/
theorem invalid_met (rel : Bool) :
    ∃ c so si range, commandLine 3 randomLine = some c ∧ run id (fun _ => true) c = .invalid so si range ∧ fresh.Sound ∧
      ∃ st w' k, Original rel (fns so) ⟨some fresh, tape [], 0⟩ st ∧ 7 ≤ st.state ∧
        Single rel (fns si) st.w.record (printOriginal rel st.w) true w' k ∧ k.length = 3 ∧ 100 < w'.pos ∧
        (endSingle rel st.w.record k w').mem.isSome = true := by
  have key : (commandLine 3 randomLine).any (fun c =>
      match run id (fun _ => true) c with
      | .invalid so si _ => (goes rel (fns so) 1 7 0 (W.load Rec.new ⟨some fresh, tape [], 0⟩)).any fun wo =>
          (restOf rel (fns si) wo.record (printOriginal rel wo)).any fun p =>
            decide (p.2.length = 3) && decide (100 < p.1.pos) && (endSingle rel wo.record p.2 p.1).mem.isSome
      | _ => false) = true := by
    cases rel <;> decide +kernel
  simp only [Option.any_eq_true] at key
  obtain ⟨c, hc, h⟩ := key
  split at h
  · rename_i so si range hr
    simp only [Option.any_eq_true, Bool.and_eq_true, decide_eq_true_eq] at h
    obtain ⟨wo, ho, p, hp, ⟨h1, h2⟩, h3⟩ := h
    obtain ⟨st, a, b, rfl⟩ := goes_reaches ho
    simp only [restOf, Option.bind_eq_some_iff, Option.map_eq_some_iff] at hp
    obtain ⟨w2, g2, w3, g3, w4, g4, rfl⟩ := hp
    obtain ⟨s2, a2, b2, rfl⟩ := goes_reaches g2
    obtain ⟨s3, a3, b3, rfl⟩ := goes_reaches g3
    obtain ⟨s4, a4, b4, rfl⟩ := goes_reaches g4
    exact ⟨c, so, si, range, hc, hr, fun n hn => (nomatch hn), st, _, _, a, b, .used 2 .first a2 b2 a3 b3 a4 b4, h1, h2, h3⟩
  · cases h

/-- the same for a thread -/
def restThread (rel : Bool) (F : Fns) (w : W) : Option (W × List Rec) :=
  (goes rel F 3 6 0 (call rel (Prog.save 16) (newThreadCurve rel w)).1).bind fun w2 =>
  (goes rel F 6 7 1 (call rel Prog.divides w2).1).bind fun w3 =>
  (goes rel F 7 9 0 (call rel Prog.divides w3).1).map fun w4 =>
    ((call rel Prog.unrolls ((copyMany rel w4.record 2 w4).1.load w4.record)).1, (copyMany rel w4.record 2 w4).2 ++ [])

/-- a thread that hands over two curves and ends -/
theorem thread_met (rel : Bool) :
    ∃ c so si range, commandLine 3 randomLine = some c ∧ run id (fun _ => true) c = .invalid so si range ∧ fresh.Sound ∧ Calm (tape []) ∧
      ∃ w' k, Thread rel (fns si) ⟨some fresh, tape [], 0⟩ true w' k ∧ k.length = 2 ∧ (∀ r ∈ k, (r .gens).isSome = true) ∧
        (endThread rel w').mem.isSome = true := by
  have key : (commandLine 3 randomLine).any (fun c =>
      match run id (fun _ => true) c with
      | .invalid _ si _ => (restThread rel (fns si) ⟨some fresh, tape [], 0⟩).any fun p =>
            decide (p.2.length = 2) && p.2.all (fun r => (r .gens).isSome) && (endThread rel p.1).mem.isSome
      | _ => false) = true := by
    cases rel <;> decide +kernel
  simp only [Option.any_eq_true] at key
  obtain ⟨c, hc, h⟩ := key
  split at h
  · rename_i so si range hr
    simp only [Option.any_eq_true, Bool.and_eq_true, decide_eq_true_eq, List.all_eq_true] at h
    obtain ⟨p, hp, ⟨h1, h2⟩, h3⟩ := h
    simp only [restThread, Option.bind_eq_some_iff, Option.map_eq_some_iff] at hp
    obtain ⟨w2, g2, w3, g3, w4, g4, rfl⟩ := hp
    obtain ⟨s2, a2, b2, rfl⟩ := goes_reaches g2
    obtain ⟨s3, a3, b3, rfl⟩ := goes_reaches g3
    obtain ⟨s4, a4, b4, rfl⟩ := goes_reaches g4
    exact ⟨c, so, si, range, hc, hr, fun n hn => (nomatch hn), fun k => rfl, _, _, .used 2 .first a2 b2 a3 b3 a4 b4, h1, h2, h3⟩
  · cases h

end Ecgen.Stack
