import Verif.InvalidRun.Lemmas

/-!
# The four searches of a run
-/

namespace Ecgen.InvalidRun

open Output Output.Spec Cli Whole

theorem leftover_low (s : Nat) (x y : Cur) : (leftover s x y).info = x.info ∧ (leftover s x y).seed = x.seed := by
  unfold leftover
  split <;> exact ⟨rfl, rfl⟩

theorem leftover_same (s : Nat) (hs : 3 ≤ s) (x y : Cur) : Same x (leftover s x y) := by
  unfold leftover
  split
  · omega
  · omega
  all_goals exact ⟨rfl, rfl, rfl, rfl⟩

/-- at the stage of the field nothing is needed -/
theorem inv_first {c : Config} {T : Nat → Pick} {x : Cur} (h1 : x.info = []) (h2 : x.seed = none) : Inv (original c) T 1 x :=
  inv_low (by omega) (fun _ => h1) (fun _ => h2) fun _ => ⟨fun h => absurd rfl h, fun b hb => by rw [h2] at hb; cases hb⟩

/-- the phases share this -/
theorem phase_cases {P : Pari} {bits : Nat} {S : Cli.Setup} {primes : List Nat} {start stop : Nat} {retry : Int} {fuel : Nat} {w : W} (hlt : start < stop)
    (A : Nat → W → Prop) (B : W → Prop)
    (hA : A start w) (hstop : ∀ s w, start ≤ s → A s w → s ≤ stop) (hub : ∀ s w, A s w → w.ub = false) (hub' : ∀ w, B w → w.ub = false)
    (hok : ∀ s w d w', start ≤ s → s < stop → A s w → Engine.Spec.Succeeds (setup P bits S primes) s w d w' → A (s + d.toNat) w')
    (hback : retry ≠ 1 → ∀ s w d w', start ≤ s → s < stop → A s w → Engine.Spec.Fails (setup P bits S primes) start s w d w' → 0 ≤ (s : Int) + d →
      A (max ((s : Int) + d).toNat start) (Engine.Spec.cleaned (setup P bits S primes) (max ((s : Int) + d).toNat start) s w'))
    (hfail : ∀ s w d w', start ≤ s → s < stop → A s w → Engine.Spec.Fails (setup P bits S primes) start s w d w' →
      d = Engine.INT_MIN ∨ (s : Int) + d < 0 ∨ retry ≠ 0 → B w') :
    phase P bits S primes start stop retry fuel w = .running ∨
    ∃ r w', phase P bits S primes start stop retry fuel w = .done (r, w') ∧ ((r = 1 ∧ A stop w') ∨ (r = 0 ∧ B w')) := by
  unfold phase
  cases hg : Engine.genRetry (setup P bits S primes) start stop retry fuel w with
  | none => exact Or.inl rfl
  | some rs =>
    obtain ⟨r, st⟩ := rs
    unfold Engine.genRetry at hg
    rw [if_neg (by omega), if_neg (by omega)] at hg
    simp only
    rcases loop_keeps (setup P bits S primes) start stop retry (fun s w => start ≤ s ∧ A s w) B
      (fun s w d w' h1 h2 h3 h4 => ⟨by omega, hok s w d w' h1 h2 h3.2 h4⟩)
      (fun h0 s w d w' h1 h2 h3 h4 h5 => ⟨by omega, hback h0 s w d w' h1 h2 h3.2 h4 h5⟩)
      (fun s w d w' h1 h2 h3 h4 h5 => hfail s w d w' h1 h2 h3.2 h4 h5) fuel (Engine.init start w) (Nat.le_refl _) ⟨Nat.le_refl _, hA⟩ r st hg
      with ⟨rfl, h1, h2, h3⟩ | ⟨rfl, h1⟩
    · have e : st.state = stop := by have := hstop _ _ h2 h3; omega
      rw [hub _ _ h3, if_neg (by simp)]
      exact Or.inr ⟨1, st.w, rfl, Or.inl ⟨rfl, e ▸ h3⟩⟩
    · rw [hub' _ h1, if_neg (by simp)]
      exact Or.inr ⟨0, st.w, rfl, Or.inr ⟨rfl, h1⟩⟩

/-! ## The curve to invalidate -/

/-- during the search for it -/
def First (c : Config) (T : Nat → Pick) (s : Nat) (w : W) : Prop := s ≤ 7 ∧ Inv (original c) T s w.cur ∧ w.tape = T ∧ w.ub = false

theorem phase_original {P : Pari} (hP : P.Ok) {c : Config} {T : Nat → Pick} (hT : TapeOk (original c) T) (fuel : Nat) (w : W) (hw : w.tape = T)
    (hu : w.ub = false) :
    phase P c.bits (originalSetup c) [] 1 7 0 fuel { w with cur := {} } = .running ∨
    ∃ r w', phase P c.bits (originalSetup c) [] 1 7 0 fuel { w with cur := {} } = .done (r, w') ∧ ((r = 1 ∧ First c T 7 w') ∨ r = 0) := by
  have := phase_cases (P := P) (bits := c.bits) (S := originalSetup c) (primes := []) (retry := 0) (fuel := fuel) (w := { w with cur := {} })
    (show 1 < 7 by omega) (First c T) (fun w => w.ub = false) ⟨by omega, inv_first rfl rfl, hw, hu⟩ (fun s w _ h => h.1) (fun s w h => h.2.2.2) (fun w h => h)
    (by
      rintro s w d w' h1 h2 ⟨-, hi, ht, hu⟩ hs
      obtain ⟨g, hg⟩ := stage_original P c [] T hT s h1 h2
      obtain ⟨rfl, h3, h4, h5, -⟩ := stage_ok hP hg w d w' ht hi hs
      exact ⟨by simp only [Int.toNat_one]; omega, h3, h4, by rw [h5, hu]⟩)
    (by
      rintro - s w d w' h1 h2 ⟨-, hi, ht, hu⟩ hf h0
      obtain ⟨g, hg⟩ := stage_original P c [] T hT s h1 h2
      obtain ⟨h4, h5, h6⟩ := stage_fail hP hg 1 w d w' ht hi hf
      have hq : w.cur.info = [] := hi.quiet rfl
      have hn : w.cur.seed = none := hi.noseed rfl
      by_cases hd : d = 0 ∧ w'.cur = w.cur
      · obtain ⟨rfl, hd⟩ := hd
        have e : max ((s : Int) + 0).toNat 1 = s := by omega
        rw [e, cleaned_none]
        exact ⟨by omega, hd ▸ hi, h4, by rw [h5, hu]⟩
      · have hk : max ((s : Int) + d).toNat 1 = 1 ∧ w'.cur.info = [] ∧ w'.cur.seed = none := by
          rcases h6 with ⟨rfl, y, e⟩ | ⟨h6, -, e⟩ | ⟨h6, -, e⟩ | ⟨rfl, rfl, -, e1, e2⟩
          · rw [e, (leftover_low s w.cur y).1, (leftover_low s w.cur y).2]
            exact ⟨by omega, hq, hn⟩
          · rw [e]
            refine ⟨?_, hq, hn⟩
            rcases (failures_spec s d h6).2 h0 with h | h
            · omega
            · exact absurd ⟨h, e⟩ hd
          · rw [e]
            exact ⟨by omega, hq, hn⟩
          · rw [e1, e2]
            exact ⟨by decide, hq, hn⟩
        obtain ⟨hk1, hk2, hk3⟩ := hk
        rw [hk1]
        obtain ⟨⟨c1, c2, -, -⟩, c5, c6⟩ := cleaned_same P (original c).bits (originalSetup c) [] 1 s w'
        exact ⟨by omega, inv_first (c1.trans hk2) (c2.trans hk3), c5.trans h4, c6.trans (h5.trans hu)⟩)
    (by
      rintro s w d w' h1 h2 ⟨-, hi, ht, hu⟩ hf -
      obtain ⟨g, hg⟩ := stage_original P c [] T hT s h1 h2
      obtain ⟨-, h5, -⟩ := stage_fail hP hg 1 w d w' ht hi hf
      rw [h5, hu])
  rcases this with h | ⟨r, w', h1, h2⟩
  · exact Or.inl h
  · refine Or.inr ⟨r, w', h1, ?_⟩
    rcases h2 with h2 | h2
    · exact Or.inl h2
    · exact Or.inr h2.1

/-! ## Another curve: its second coefficient and its order -/

/-- the field and the first coefficient, which stay -/
structure Base (c : Config) (T : Nat → Pick) (f : Fld) (a : Elt) : Prop where
  asked : FieldAsked (original c) f.1
  field : ComesField T f
  a : ComesA (original c) T f a

/-- they are set, and the world behaves -/
def Ready (T : Nat → Pick) (f : Fld) (a : Elt) (w : W) : Prop :=
  w.cur.info = [] ∧ w.cur.seed = none ∧ w.cur.field = some f ∧ w.cur.a = some a ∧ w.tape = T ∧ w.ub = false

theorem ready_same {T : Nat → Pick} {f : Fld} {a : Elt} {w w' : W} (h : Ready T f a w) (hs : Same w.cur w'.cur) (h1 : w'.tape = T) (h2 : w'.ub = w.ub) :
    Ready T f a w' := by
  obtain ⟨e1, e2, e3, e4, -, e6⟩ := h
  obtain ⟨s1, s2, s3, s4⟩ := hs
  exact ⟨s1.trans e1, s2.trans e2, s3.trans e3, s4.trans e4, h1, h2.trans e6⟩

theorem same_trans {x y z : Cur} (h : Same x y) (h' : Same y z) : Same x z :=
  ⟨h'.1.trans h.1, h'.2.1.trans h.2.1, h'.2.2.1.trans h.2.2.1, h'.2.2.2.trans h.2.2.2⟩

/-- so the search can go back to the second coefficient -/
theorem inv_ready {c : Config} {T : Nat → Pick} {f : Fld} {a : Elt} (hb : Base c T f a) {w : W} (h : Ready T f a w) : Inv (invalid c) T 3 w.cur := by
  obtain ⟨e1, e2, e3, e4, -, -⟩ := h
  exact
    { quiet := fun _ => e1
      noseed := fun _ => e2
      seed := fun _ => ⟨fun h => absurd rfl h, fun b hb => by rw [e2] at hb; cases hb⟩
      field := fun _ => ⟨f, e3, hb.asked, hb.field⟩
      a := fun _ _ => ⟨f, a, e3, e4, hb.a⟩
      ab := fun h => absurd h (by omega)
      derived := fun h => absurd h (by omega)
      crv := fun h => absurd h (by omega)
      order := fun h => absurd h (by omega)
      gens := fun h => absurd h (by omega)
      points := fun h => absurd h (by omega)
      info := fun h => absurd h (by omega) }

/-- during the search -/
def Other (c : Config) (T : Nat → Pick) (f : Fld) (a : Elt) (s : Nat) (w : W) : Prop := s ≤ 6 ∧ Inv (invalid c) T s w.cur ∧ Ready T f a w

theorem fail_same {P : Pari} {c : Config} {T : Nat → Pick} {s : Nat} (h1 : 3 ≤ s) (h2 : s < 7) {w w' : W} {d start : Int} {g : Gen}
    (h : (d = (start : Int) - s ∧ ∃ y, w'.cur = leftover s w.cur y) ∨
     (d ∈ failures s ∧ canFail g = true ∧ w'.cur = w.cur) ∨
     ((s : Int) + d = 1 ∧ d ≤ 0 ∧ w'.cur = w.cur) ∨
     (s = 4 ∧ d = -3 ∧ act P (invalid c) (T w.pos) s w.cur = some (w'.cur, 1) ∧ w'.cur.info = w.cur.info ∧ w'.cur.seed = w.cur.seed)) :
    Same w.cur w'.cur := by
  rcases h with ⟨-, y, e⟩ | ⟨-, -, e⟩ | ⟨-, -, e⟩ | ⟨-, -, e, -, -⟩
  · rw [e]; exact leftover_same s h1 _ y
  · rw [e]; exact ⟨rfl, rfl, rfl, rfl⟩
  · rw [e]; exact ⟨rfl, rfl, rfl, rfl⟩
  · exact act_same P c _ s h1 h2 _ _ _ e

theorem phase_order {P : Pari} (hP : P.Ok) {c : Config} {T : Nat → Pick} (hT : TapeOk (original c) T) {f : Fld} {a : Elt} (hb : Base c T f a) (fuel : Nat) (w : W)
    (hw : Ready T f a w) :
    phase P c.bits (invalidSetup c) [] 3 6 0 fuel w = .running ∨
    ∃ r w', phase P c.bits (invalidSetup c) [] 3 6 0 fuel w = .done (r, w') ∧ Other c T f a 6 w' := by
  have := phase_cases (P := P) (bits := c.bits) (S := invalidSetup c) (primes := []) (retry := 0) (fuel := fuel) (w := w)
    (show 3 < 6 by omega) (Other c T f a) (fun _ => False) ⟨by omega, inv_ready hb hw, hw⟩ (fun s w _ h => h.1) (fun s w h => h.2.2.2.2.2.2.2) (fun w h => h.elim)
    (by
      rintro s w d w' h1 h2 ⟨-, hi, hr⟩ hs
      have hg := stage_invalid P c [] T hT s h1 (by omega)
      obtain ⟨rfl, h3, h4, h5, h6⟩ := stage_ok hP hg w d w' hr.2.2.2.2.1 hi hs
      exact ⟨by simp only [Int.toNat_one]; omega, h3, ready_same hr (act_same P c _ s h1 (by omega) _ _ _ h6) h4 h5⟩)
    (by
      rintro - s w d w' h1 h2 ⟨-, hi, hr⟩ hf h0
      have hg := stage_invalid P c [] T hT s h1 (by omega)
      obtain ⟨h4, h5, h6⟩ := stage_fail hP hg 3 w d w' hr.2.2.2.2.1 hi hf
      have hk : max ((s : Int) + d).toNat 3 = 3 := by
        rcases h6 with ⟨rfl, -⟩ | ⟨h6, h7, -⟩ | ⟨h6, -⟩ | ⟨rfl, rfl, -⟩
        · omega
        · obtain rfl := invalid_fails c s h1 (by omega) h7
          simp only [failures, List.mem_singleton] at h6
          omega
        · omega
        · decide
      have hr' := ready_same hr (fail_same h1 (by omega) h6) h4 h5
      rw [hk]
      obtain ⟨c1, c5, c6⟩ := cleaned_same P (invalid c).bits (invalidSetup c) [] 3 s w'
      have hr'' := ready_same hr' c1 (c5.trans h4) c6
      exact ⟨by omega, inv_ready hb hr'', hr''⟩)
    (by
      rintro s w d w' h1 h2 ⟨-, hi, hr⟩ hf h0
      have hg := stage_invalid P c [] T hT s h1 (by omega)
      obtain ⟨h4, h5, h6⟩ := stage_fail hP hg 3 w d w' hr.2.2.2.2.1 hi hf
      simp only [Engine.INT_MIN] at h0
      rcases h6 with ⟨rfl, -⟩ | ⟨h6, h7, -⟩ | ⟨h6, -⟩ | ⟨rfl, rfl, -⟩
      · omega
      · obtain rfl := invalid_fails c s h1 (by omega) h7
        simp only [failures, List.mem_singleton] at h6
        omega
      · omega
      · omega)
  rcases this with h | ⟨r, w', h1, h2⟩
  · exact Or.inl h
  · refine Or.inr ⟨r, w', h1, ?_⟩
    rcases h2 with h2 | h2
    · exact h2.2
    · exact h2.2.elim

/-! ## Its generators -/

theorem phase_gens {P : Pari} (hP : P.Ok) {c : Config} {T : Nat → Pick} (hT : TapeOk (original c) T) {f : Fld} {a : Elt} (fuel : Nat) (w : W)
    (hw : Other c T f a 6 w) :
    phase P c.bits (invalidSetup c) [] 6 7 1 fuel w = .running ∨
    ∃ r w', phase P c.bits (invalidSetup c) [] 6 7 1 fuel w = .done (r, w') ∧ Ready T f a w' ∧
      (r = 0 ∨ (r = 1 ∧ Inv (invalid c) T 7 w'.cur ∧ w'.cur.order = w.cur.order)) := by
  have := phase_cases (P := P) (bits := c.bits) (S := invalidSetup c) (primes := []) (retry := 1) (fuel := fuel) (w := w)
    (show 6 < 7 by omega) (fun s v => s ≤ 7 ∧ Inv (invalid c) T s v.cur ∧ Ready T f a v ∧ v.cur.order = w.cur.order) (fun v => Ready T f a v)
    ⟨by omega, hw.2.1, hw.2.2, rfl⟩ (fun s w _ h => h.1) (fun s w h => h.2.2.1.2.2.2.2.2) (fun w h => h.2.2.2.2.2)
    (by
      rintro s w d w' h1 h2 ⟨-, hi, hr, ho⟩ hs
      have hg := stage_invalid P c [] T hT s (by omega) (by omega)
      obtain ⟨rfl, h3, h4, h5, h6⟩ := stage_ok hP hg w d w' hr.2.2.2.2.1 hi hs
      refine ⟨by simp only [Int.toNat_one]; omega, h3, ready_same hr (act_same P c _ s (by omega) (by omega) _ _ _ h6) h4 h5, ?_⟩
      rw [← ho]
      have hs6 : s = 6 := by omega
      subst hs6
      rw [← hg.agrees.same _ [] _] at h6
      have hf : ∀ E (o : Option (List (Group.Pt E.Pt))), found w.cur E o = (w'.cur, 1) → w'.cur.order = w.cur.order := by
        intro E o ho
        cases o with
        | none => simp [found] at ho
        | some l =>
          simp only [found, Prod.mk.injEq, and_true] at ho
          rw [← ho]
      cases hu : c.unique <;>
        (simp only [invalidGen, hu, Bool.false_eq_true, if_true, if_false, call, Whole.call, gensStage, Option.bind_eq_some_iff, Option.some.injEq] at h6
         obtain ⟨E, _, n, _, h6⟩ := h6
         exact hf _ _ h6))
    (fun h => absurd rfl h)
    (by
      rintro s w d w' h1 h2 ⟨-, hi, hr, -⟩ hf -
      have hg := stage_invalid P c [] T hT s (by omega) (by omega)
      obtain ⟨h4, h5, h6⟩ := stage_fail hP hg 6 w d w' hr.2.2.2.2.1 hi hf
      exact ready_same hr (fail_same (by omega) (by omega) h6) h4 h5)
  rcases this with h | ⟨r, w', h1, h2⟩
  · exact Or.inl h
  · refine Or.inr ⟨r, w', h1, ?_⟩
    rcases h2 with h2 | h2
    · exact ⟨h2.2.2.2.1, Or.inr ⟨h2.1, h2.2.2.1, h2.2.2.2.2⟩⟩
    · exact ⟨h2.2, Or.inl h2.1⟩

/-! ## Its points -/

theorem trial_gens {A : Type} [AddCommGroup A] (primes : List Nat) (gens : List (Group.Pt A)) : (Group.pointsTrial primes gens).map Group.Sub.gen = gens := by
  unfold Group.pointsTrial
  rw [List.map_map]
  exact List.map_id gens

/-- a curve with the points of a list of primes -/
noncomputable def withTrial (primes : List Nat) (x : Cur) (E : Crv) (l : List (Group.Sub E.Pt)) : Cur :=
  { x with gens := some ⟨E, Group.pointsTrial primes (l.map Group.Sub.gen)⟩ }

open Engine (GenRes) in
theorem gen_points (P : Pari) (c : Config) (primes : List Nat) (w w1 : W) (r : GenRes) (E : Crv) (l : List (Group.Sub E.Pt)) (hE : w.cur.crv = some E)
    (hl : w.cur.gens = some ⟨E, l⟩) (hne : l ≠ []) (hg : gen P c.bits (invalidSetup c) primes 7 w = (w1, r)) :
    (w1 = w.next ∧ r = .timeout) ∨ (w1 = { w.next with cur := withTrial primes w.cur E l } ∧ r = .ret 1) := by
  have h7 : (Whole.stageOf (invalidSetup c).gens 7).bind id = some .pointsTrial := rfl
  have hlen : l.length ≠ 0 := fun h => hne (List.length_eq_zero_iff.1 h)
  unfold gen at hg
  cases h1 : w.pick.cut with
  | some y => rw [h1] at hg; cases hg; exact Or.inl ⟨rfl, rfl⟩
  | none =>
    simp only [h1, h7, canFail, Bool.false_eq_true, if_false, call, hl, hE] at hg
    rw [if_pos ⟨trivial, hlen⟩] at hg
    cases hg
    exact Or.inr ⟨by simp only [withTrial, hE], rfl⟩

open Engine (GenRes) in
theorem gen_metadata (P : Pari) (c : Config) (primes : List Nat) (w w1 : W) (r : GenRes) (hg : gen P c.bits (invalidSetup c) primes 8 w = (w1, r)) :
    (w1 = w.next ∧ r = .timeout) ∨ (w1 = w.next ∧ r = .ret 1) := by
  have h8 : (Whole.stageOf (invalidSetup c).gens 8).bind id = some .skip := rfl
  unfold gen at hg
  cases h1 : w.pick.cut with
  | some y => rw [h1] at hg; cases hg; exact Or.inl ⟨rfl, rfl⟩
  | none =>
    simp only [h1, h8, canFail, Bool.false_eq_true, if_false, call, Whole.call] at hg
    cases hg
    exact Or.inr ⟨rfl, rfl⟩

/-- during the search for points -/
def Trying (primes : List Nat) (w0 : W) (E : Crv) (l0 : List (Group.Sub E.Pt)) (s : Nat) (w : W) : Prop :=
  s ≤ 9 ∧ w.tape = w0.tape ∧ w.ub = w0.ub ∧ ∃ l, w.cur = { w0.cur with gens := some ⟨E, l⟩ } ∧ l.map Group.Sub.gen = l0.map Group.Sub.gen ∧
    (8 ≤ s → l = Group.pointsTrial primes (l0.map Group.Sub.gen))

theorem trying_next {primes : List Nat} {w0 : W} {E : Crv} {l0 : List (Group.Sub E.Pt)} (P : Pari) (c : Config) (s : Nat) (h1 : 7 ≤ s) (h2 : s < 9) {w : W}
    (hE : w0.cur.crv = some E) (hne : l0 ≠ []) (h : Trying primes w0 E l0 s w) (w1 : W) (r : Engine.GenRes)
    (hg : gen P c.bits (invalidSetup c) primes s w = (w1, r)) :
    (r = .timeout ∧ Trying primes w0 E l0 s w1) ∨ (r = .ret 1 ∧ Trying primes w0 E l0 (s + 1) w1) := by
  obtain ⟨-, ht, hu, l, hc, hl, h8⟩ := h
  have hne' : l ≠ [] := by
    rintro rfl
    rw [List.map_nil, eq_comm, List.map_eq_nil_iff] at hl
    exact hne hl
  match s, h1, h2 with
  | 7, _, _ =>
    rcases gen_points P c primes w w1 r E l (by rw [hc]; exact hE) (by rw [hc]) hne' hg with ⟨rfl, rfl⟩ | ⟨rfl, rfl⟩
    · exact Or.inl ⟨rfl, by omega, ht, hu, l, hc, hl, fun h => by omega⟩
    · refine Or.inr ⟨rfl, by omega, ht, hu, _, ?_, ?_, fun _ => rfl⟩
      · simp only [withTrial, hl, hc]
      · exact trial_gens _ _
  | 8, _, _ =>
    rcases gen_metadata P c primes w w1 r hg with ⟨rfl, rfl⟩ | ⟨rfl, rfl⟩
    · exact Or.inl ⟨rfl, by omega, ht, hu, l, hc, hl, h8⟩
    · exact Or.inr ⟨rfl, by omega, ht, hu, l, hc, hl, fun _ => h8 (by omega)⟩

theorem phase_points {P : Pari} {c : Config} (primes : List Nat) (fuel : Nat) (w : W) (hu : w.ub = false) (E : Crv) (l : List (Group.Sub E.Pt))
    (hE : w.cur.crv = some E) (hl : w.cur.gens = some ⟨E, l⟩) (hne : l ≠ []) :
    phase P c.bits (invalidSetup c) primes 7 9 0 fuel w = .running ∨
    ∃ r w', phase P c.bits (invalidSetup c) primes 7 9 0 fuel w = .done (r, w') ∧ w'.cur = withTrial primes w.cur E l ∧ w'.tape = w.tape ∧ w'.ub = false := by
  have hnc : ∀ s, 7 ≤ s → (setup P c.bits (invalidSetup c) primes).checks s = [] := fun s hs => by
    rw [checks_invalid, if_neg (by omega)]
  have := phase_cases (P := P) (bits := c.bits) (S := invalidSetup c) (primes := primes) (retry := 0) (fuel := fuel) (w := w)
    (show 7 < 9 by omega) (Trying primes w E l) (fun _ => False)
    ⟨by omega, rfl, rfl, l, by rw [← hl], rfl, fun h => by omega⟩ (fun s w _ h => h.1) (fun s v h => h.2.2.1.trans hu) (fun w h => h.elim)
    (by
      rintro s v d v' h1 h2 hv ⟨w1, h3, h4, h5⟩
      rw [hnc s h1] at h5
      cases h5
      rcases trying_next P c s h1 h2 hE hne hv _ _ h3 with ⟨hr, -⟩ | ⟨hr, h6⟩
      · cases hr
      · cases hr
        exact h6)
    (by
      rintro - s v d v' h1 h2 hv hf h0
      rcases hf with ⟨h3, rfl⟩ | ⟨h3, h4⟩ | ⟨w1, g, h3, h4, h5⟩
      · rcases trying_next P c s h1 h2 hE hne hv _ _ h3 with ⟨-, h6⟩ | ⟨hr, h6⟩
        · have e : max ((s : Int) + ((7 : Nat) - s)).toNat 7 = 7 := by omega
          rw [e]
          obtain ⟨-, g2, g3, l', g4, g5, -⟩ := h6
          have : s = 7 ∨ s = 8 := by omega
          rcases this with rfl | rfl
          · rw [cleaned_none]
            exact ⟨by omega, g2, g3, l', g4, g5, fun h => by omega⟩
          · exact ⟨by omega, g2, g3, l', g4, g5, fun h => by omega⟩
        · cases hr
      · rcases trying_next P c s h1 h2 hE hne hv _ _ h3 with ⟨hr, -⟩ | ⟨hr, -⟩
        · cases hr
        · cases hr
          omega
      · rw [hnc s h1] at h5
        cases h5)
    (by
      rintro s v d v' h1 h2 hv hf h0
      simp only [Engine.INT_MIN] at h0
      rcases hf with ⟨h3, rfl⟩ | ⟨h3, h4⟩ | ⟨w1, g, h3, h4, h5⟩
      · omega
      · rcases trying_next P c s h1 h2 hE hne hv _ _ h3 with ⟨hr, -⟩ | ⟨hr, -⟩
        · cases hr
        · cases hr
          omega
      · rw [hnc s h1] at h5
        cases h5)
  rcases this with h | ⟨r, w', h1, h2⟩
  · exact Or.inl h
  · refine Or.inr ⟨r, w', h1, ?_⟩
    rcases h2 with ⟨-, -, h2, h3, l', h4, h5, h6⟩ | h2
    · rw [h6 (by omega)] at h4
      exact ⟨h4, h2, h3.trans hu⟩
    · exact h2.2.elim

end Ecgen.InvalidRun
