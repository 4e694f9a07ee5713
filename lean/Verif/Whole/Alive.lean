import Verif.Whole.Exact

/-!
# No search gets stuck: lemmas (C100)
-/

namespace Ecgen.Engine

open Spec

variable {σ : Type}

/-! ## Steps of the loop that do not see a difference between worlds -/

theorem runChecks_map (φ : σ → σ) (s : Nat) : ∀ (cs : List (σ → σ × Int)) (i : Nat) (w : σ) (d : Int) (log : List Ev),
    (∀ k ∈ cs, ∀ w, k (φ w) = (φ (k w).1, (k w).2)) → runChecks s i cs (φ w) d log = (φ (runChecks s i cs w d log).1, (runChecks s i cs w d log).2) := by
  intro cs
  induction cs with
  | nil => intros; rfl
  | cons k cs ih =>
    intro i w d log h
    simp only [runChecks, h k (by simp) w]
    split
    · rfl
    · exact ih _ _ _ _ fun k hk => h k (by simp [hk])

theorem unrollLoop_map (S : Setup σ) (φ : σ → σ) (hun : ∀ i f, S.unroll i = some f → ∀ w, f (φ w) = φ (f w)) (new : Nat) : ∀ (i : Nat) (w : σ) (log : List Ev),
    unrollLoop S new i (φ w) log = (φ (unrollLoop S new i w log).1, (unrollLoop S new i w log).2) := by
  intro i
  induction i with
  | zero => intros; rfl
  | succ i ih =>
    intro w log
    unfold unrollLoop
    split
    · cases hf : S.unroll (i + 1) with
      | none => exact ih _ _
      | some f =>
        simp only
        rw [hun _ _ hf]
        exact ih _ _
    · rfl

/-- the state with another world -/
def St.map (φ : σ → σ) (st : St σ) : St σ := { st with w := φ st.w }

theorem step_map (S : Setup σ) (φ : σ → σ) (start : Nat) (retry : Int) (st : St σ)
    (hgen : S.gen st.state (φ st.w) = (φ (S.gen st.state st.w).1, (S.gen st.state st.w).2))
    (hck : ∀ k ∈ S.checks st.state, ∀ w, k (φ w) = (φ (k w).1, (k w).2)) (hun : ∀ i f, S.unroll i = some f → ∀ w, f (φ w) = φ (f w)) :
    step S start retry (st.map φ) = (step S start retry st).map (St.map φ) (St.map φ) := by
  have he : execStage S start st.state (φ st.w) st.log = (φ (execStage S start st.state st.w st.log).1, (execStage S start st.state st.w st.log).2) := by
    unfold execStage
    rw [hgen]
    generalize S.gen st.state st.w = r
    obtain ⟨w1, r⟩ := r
    cases r with
    | timeout => rfl
    | ret d =>
      simp only
      split
      · exact runChecks_map φ _ _ _ _ _ _ hck
      · rfl
  unfold step
  simp only [St.map, he, unrollLoop_map S φ hun]
  by_cases hd : (execStage S start st.state st.w st.log).2.1 ≤ 0
  · simp only [if_pos hd]
    by_cases hf : (execStage S start st.state st.w st.log).2.1 = INT_MIN ∨ (st.state : Int) + (execStage S start st.state st.w st.log).2.1 < 0
    · simp only [if_pos hf]
      rfl
    · simp only [if_neg hf]
      generalize (if retry ≠ 0 then setTries st.tries st.state (st.tries st.state + 1) else st.tries) = t
      by_cases hr : retry ≠ 0 ∧ (t st.state : Int) ≥ retry
      · simp only [if_pos hr]
        rfl
      · simp only [if_neg hr]
        rfl
  · simp only [if_neg hd]
    rfl

/-- what an iteration is -/
theorem step_cases (S : Setup σ) (start : Nat) (st : St σ) (hge : start ≤ st.state) :
    (∃ st' d w', step S start 0 st = .inl st' ∧ Succeeds S st.state st.w d w' ∧ st'.state = st.state + d.toNat ∧ st'.w = w') ∨
    (∃ st' d w', step S start 0 st = .inl st' ∧ Fails S start st.state st.w d w' ∧ 0 ≤ (st.state : Int) + d ∧
      st'.state = max ((st.state : Int) + d).toNat start ∧ st'.w = cleaned S (max ((st.state : Int) + d).toNat start) st.state w') ∨
    (∃ st' d w', step S start 0 st = .inr st' ∧ Fails S start st.state st.w d w' ∧ (d = INT_MIN ∨ (st.state : Int) + d < 0)) := by
  have hex := execStage_world S start st.state st.w st.log hge
  unfold step
  simp only
  by_cases hd : (execStage S start st.state st.w st.log).2.1 ≤ 0
  · rw [if_pos hd]
    by_cases hfatal : (execStage S start st.state st.w st.log).2.1 = INT_MIN ∨
        (st.state : Int) + (execStage S start st.state st.w st.log).2.1 < 0
    · rw [if_pos hfatal]
      exact Or.inr (Or.inr ⟨_, _, _, rfl, hex.2 hd, hfatal⟩)
    · rw [if_neg hfatal, if_neg (by simp)]
      have e : (max ((st.state : Int) + (execStage S start st.state st.w st.log).2.1) (start : Int)).toNat
          = max ((st.state : Int) + (execStage S start st.state st.w st.log).2.1).toNat start := by omega
      refine Or.inr (Or.inl ⟨_, _, _, rfl, hex.2 hd, by omega, e, ?_⟩)
      simp only
      rw [unrollLoop_world, e]
  · rw [if_neg hd]
    exact Or.inl ⟨_, _, _, rfl, hex.1 (by omega), by simp only; omega, rfl⟩

/-- the states reached one after the other -/
theorem Reaches.trans {S : Setup σ} {start stop : Nat} {retry : Int} {a b c : St σ} (h1 : Reaches S start stop retry a b) (h2 : Reaches S start stop retry b c) :
    Reaches S start stop retry a c := by
  induction h2 with
  | refl => exact h1
  | next _ h3 h4 ih => exact .next ih h3 h4

/-- where the end is reached, the loop ends -/
theorem reaches_loop {S : Setup σ} {start stop : Nat} {retry : Int} {a b : St σ} (h : Reaches S start stop retry a b) : ∀ fuel r,
    loop S start stop retry fuel b = some r → ∃ fuel', loop S start stop retry fuel' a = some r := by
  induction h with
  | refl => exact fun fuel r h => ⟨fuel, h⟩
  | next _ h3 h4 ih =>
    intro fuel r h
    refine ih (fuel + 1) r ?_
    unfold loop
    rw [if_pos h3, h4]
    exact h

end Ecgen.Engine

namespace Ecgen.Whole

open Output Output.Spec Cli
open Engine (St Reaches)

/-! ## What comes later does not matter for what came before -/

/-- the world with other calls -/
def W.on (T : Nat → Pick) (w : W) : W := { w with tape := T }

theorem gen_on (P : Pari) (c : Config) (T : Nat → Pick) (s : Nat) (w : W) (h : T w.pos = w.tape w.pos) :
    (setup P c).gen s (w.on T) = (((setup P c).gen s w).1.on T, ((setup P c).gen s w).2) := by
  change gen P c.bits (exhaustiveSetup c) s (w.on T) = ((gen P c.bits (exhaustiveSetup c) s w).1.on T, (gen P c.bits (exhaustiveSetup c) s w).2)
  have hp : (w.on T).pick = w.pick := h
  unfold gen
  rw [hp]
  cases w.pick.cut with
  | some x => rfl
  | none =>
    cases w.pick.fail s with
    | some d => rfl
    | none =>
      change done (w.on T) (((stageOf (exhaustiveSetup c).gens s).bind id).bind (call P c.bits w.pick ((stageOf (exhaustiveSetup c).genArgs s).bind id) w.cur)) = _
      cases ((stageOf (exhaustiveSetup c).gens s).bind id).bind (call P c.bits w.pick ((stageOf (exhaustiveSetup c).genArgs s).bind id) w.cur) with
      | none => rfl
      | some r => rfl

theorem checks_on (P : Pari) (c : Config) (hc : Covered c) (hh : c.hexCheck = none) (T : Nat → Pick) (s : Nat) :
    ∀ k ∈ (setup P c).checks s, ∀ w : W, k (w.on T) = ((k w).1.on T, (k w).2) ∧ (k w).1.pos = w.pos ∧ (k w).1.tape = w.tape := by
  rw [table_checks P c hc.algo, hh]
  intro k hk w
  split at hk
  · rw [List.mem_singleton] at hk
    subst hk
    simp only [check, W.on]
    cases w.cur.crv <;> exact ⟨rfl, rfl, rfl⟩
  · simp at hk

theorem step_on (P : Pari) (c : Config) (hc : Covered c) (hh : c.hexCheck = none) (T : Nat → Pick) (st : St W) (h : T st.w.pos = st.w.tape st.w.pos) :
    Engine.step (setup P c) 0 0 (st.map (W.on T)) = (Engine.step (setup P c) 0 0 st).map (St.map (W.on T)) (St.map (W.on T)) :=
  Engine.step_map _ _ _ _ _ (gen_on P c T _ _ h) (fun k hk w => (checks_on P c hc hh T _ k hk w).1) fun i f hf w => by
    cases hf
    rfl

theorem gen_pos (P : Pari) (c : Config) (s : Nat) (w : W) : ((setup P c).gen s w).1.pos = w.pos + 1 ∧ ((setup P c).gen s w).1.tape = w.tape := by
  change (gen P c.bits (exhaustiveSetup c) s w).1.pos = w.pos + 1 ∧ (gen P c.bits (exhaustiveSetup c) s w).1.tape = w.tape
  unfold gen
  split
  · exact ⟨rfl, rfl⟩
  · split
    · exact ⟨rfl, rfl⟩
    · unfold done
      split <;> exact ⟨rfl, rfl⟩

theorem passes_pos {cs : List (W → W × Int)} (h : ∀ k ∈ cs, ∀ w : W, (k w).1.pos = w.pos ∧ (k w).1.tape = w.tape) {w w' : W}
    (hp : Engine.Spec.Passes cs w w') : w'.pos = w.pos ∧ w'.tape = w.tape := by
  induction hp with
  | nil => exact ⟨rfl, rfl⟩
  | cons _ _ ih =>
    obtain ⟨h1, h2⟩ := ih fun k hk => h k (by simp [hk])
    exact ⟨h1.trans (h _ (by simp) _).1, h2.trans (h _ (by simp) _).2⟩

theorem rejects_pos {cs : List (W → W × Int)} (h : ∀ k ∈ cs, ∀ w : W, (k w).1.pos = w.pos ∧ (k w).1.tape = w.tape) {w w' : W} {d : Int}
    (hp : Engine.Spec.Rejects cs w d w') : w'.pos = w.pos ∧ w'.tape = w.tape := by
  induction hp with
  | here _ => exact h _ (by simp) _
  | later _ _ ih =>
    obtain ⟨h1, h2⟩ := ih fun k hk => h k (by simp [hk])
    exact ⟨h1.trans (h _ (by simp) _).1, h2.trans (h _ (by simp) _).2⟩

theorem cleaned_pos (P : Pari) (c : Config) (lo : Nat) : ∀ (hi : Nat) (w : W), (Engine.Spec.cleaned (setup P c) lo hi w).pos = w.pos ∧
    (Engine.Spec.cleaned (setup P c) lo hi w).tape = w.tape := by
  intro hi
  induction hi with
  | zero => exact fun w => ⟨rfl, rfl⟩
  | succ i ih =>
    intro w
    unfold Engine.Spec.cleaned
    split
    · exact ih _
    · exact ⟨rfl, rfl⟩

/-- an iteration makes one call -/
theorem step_pos (P : Pari) (c : Config) (hc : Covered c) (hh : c.hexCheck = none) (st st' : St W) (h : Engine.step (setup P c) 0 0 st = .inl st') :
    st'.w.pos = st.w.pos + 1 ∧ st'.w.tape = st.w.tape := by
  have hk : ∀ k ∈ (setup P c).checks st.state, ∀ w : W, (k w).1.pos = w.pos ∧ (k w).1.tape = w.tape := fun k hk w =>
    (checks_on P c hc hh st.w.tape _ k hk w).2
  have hg := gen_pos P c st.state st.w
  rcases Engine.step_cases (setup P c) 0 st (Nat.zero_le _) with ⟨s1, d, w', h1, h2, -, h4⟩ | ⟨s1, d, w', h1, h2, -, -, h4⟩ | ⟨s1, d, w', h1, -⟩
  · rw [h1] at h
    cases h
    obtain ⟨w1, h5, -, h6⟩ := h2
    rw [h5] at hg
    obtain ⟨h7, h8⟩ := passes_pos hk h6
    rw [h4]
    exact ⟨h7.trans hg.1, h8.trans hg.2⟩
  · rw [h1] at h
    cases h
    rw [h4]
    obtain ⟨e1, e2⟩ := cleaned_pos P c (max ((st.state : Int) + d).toNat 0) st.state w'
    rw [e1, e2]
    rcases h2 with ⟨h5, -⟩ | ⟨h5, -⟩ | ⟨w1, g, h5, -, h6⟩ <;> rw [h5] at hg
    · exact hg
    · exact hg
    · obtain ⟨h7, h8⟩ := rejects_pos hk h6
      exact ⟨h7.trans hg.1, h8.trans hg.2⟩
  · rw [h1] at h
    cases h

/-- a run depends only on the calls it makes -/
theorem reaches_on (P : Pari) (c : Config) (hc : Covered c) (hh : c.hexCheck = none) (T : Nat → Pick) (a b : St W) (h : Reaches (setup P c) 0 9 0 a b) :
    a.w.pos ≤ b.w.pos ∧ b.w.tape = a.w.tape ∧
    ((∀ i, a.w.pos ≤ i → i < b.w.pos → T i = a.w.tape i) → Reaches (setup P c) 0 9 0 (a.map (W.on T)) (b.map (W.on T))) := by
  induction h with
  | refl => exact ⟨Nat.le_refl _, rfl, fun _ => .refl⟩
  | next h1 h2 h3 ih =>
    rename_i b' b''
    obtain ⟨i1, i2, i3⟩ := ih
    obtain ⟨e1, e2⟩ := step_pos P c hc hh _ _ h3
    refine ⟨by omega, e2.trans i2, fun hT => .next (i3 fun i j1 j2 => hT i j1 (by omega)) h2 ?_⟩
    rw [step_on P c hc hh T b' (by rw [i2]; exact hT _ i1 (by omega)), h3]
    rfl

/-! ## Calls that turn a run -/

/-- the calls behave, and PARI is right about the curves that may come up, also with the field and the coefficients of the curve `E` -/
structure Right (c : Config) (E : Crv) (T : Nat → Pick) : Prop where
  picks : ∀ i, (T i).Ok c
  sea : ∀ i (E' : Crv), ComesField T E'.field ∨ E'.field = E.field → ComesA c T E'.field E'.a ∨ E'.a = E.a ∨ E'.a = E.b →
    ComesB c T E'.field E'.b ∨ E'.b = E.a ∨ E'.b = E.b → E'.eqn.Δ ≠ 0 → Order.SeaSpec ((T i).sea E') (Nat.card E'.Pt)
  gens : ∀ i (E' : Crv), ComesField T E'.field ∨ E'.field = E.field → ComesA c T E'.field E'.a ∨ E'.a = E.a ∨ E'.a = E.b →
    ComesB c T E'.field E'.b ∨ E'.b = E.a ∨ E'.b = E.b → E'.eqn.Δ ≠ 0 → Group.GensSpec E'.Pt ((T i).gens E')

theorem Right.tape {c : Config} {E : Crv} {T : Nat → Pick} (h : Right c E T) (h0 : c.seedAlgo = .none) : TapeOk c T :=
  ⟨h.picks, fun h => (by rw [h0] at h; cases h), fun i E h1 h2 h3 => h.sea i E (Or.inl h1) (Or.inl h2) (Or.inl h3), fun i E h1 h2 h3 => h.gens i E (Or.inl h1) (Or.inl h2) (Or.inl h3)⟩

open Classical in
/-- the call changed so that it brings up the curve `E` -/
noncomputable def steer (E : Crv) (first : Bool) (p : Pick) : Pick :=
  { p with
    cut := none
    fail := fun _ => none
    randomField := E.field
    typedField := E.field
    elt := fun f => if f = E.field ∧ Elem (out E.field.1) E.a ∧ Elem (out E.field.1) E.b then (if first then E.a else E.b) else p.elt f
    sea := fun E => Nat.card E.Pt
    verdict := none }

/-- the calls before number `n` as they are, then ten that bring up the curve `E`, then those from the beginning again -/
noncomputable def turn (T : Nat → Pick) (n : Nat) (E : Crv) (i : Nat) : Pick :=
  if i < n then T i else if i < n + 10 then steer E (decide (i = n + 1)) (T 0) else T (i - (n + 10))

theorem turn_before (T : Nat → Pick) (n : Nat) (E : Crv) (i : Nat) (h : i < n) : turn T n E i = T i := if_pos h

theorem turn_steer (T : Nat → Pick) (n : Nat) (E : Crv) (j : Nat) (h : j < 10) : turn T n E (n + j) = steer E (decide (j = 1)) (T 0) := by
  unfold turn
  rw [if_neg (by omega), if_pos (by omega)]
  congr 1
  exact decide_eq_decide.2 (by omega)

theorem turn_all (T : Nat → Pick) (n : Nat) (E : Crv) (i : Nat) : turn T n E (n + 10 + i) = T i := by
  unfold turn
  rw [if_neg (by omega), if_neg (by omega)]
  congr 1
  omega

theorem turn_cases (T : Nat → Pick) (n : Nat) (E : Crv) (i : Nat) : (∃ j, turn T n E i = T j) ∨ ∃ first, turn T n E i = steer E first (T 0) := by
  unfold turn
  split
  · exact Or.inl ⟨i, rfl⟩
  · split
    · exact Or.inr ⟨_, rfl⟩
    · exact Or.inl ⟨_, rfl⟩

theorem steer_elt (E : Crv) (first : Bool) (p : Pick) (f : Fld) : (steer E first p).elt f = p.elt f ∨ (steer E first p).elt f = E.a ∨ (steer E first p).elt f = E.b := by
  simp only [steer]
  split
  · split
    · exact Or.inr (Or.inl rfl)
    · exact Or.inr (Or.inr rfl)
  · exact Or.inl rfl

theorem steer_ok {c : Config} {E : Crv} (hf : FieldAsked c E.field.1) (first : Bool) {p : Pick} (hp : p.Ok c) : (steer E first p).Ok c where
  cut x h := by cases h
  fail s d h := by cases h
  seed := hp.seed
  randomField := hf
  typedField := typed_asked hf
  ansiSeed := hp.ansiSeed
  elt f := by
    simp only [steer]
    split
    · rename_i h
      rw [h.1]
      split
      · exact h.2.1
      · exact h.2.2
    · exact hp.elt f
  which := hp.which
  mul := hp.mul
  info := hp.info
  verdict d h := by cases h

theorem turn_comes {c : Config} (h0 : c.seedAlgo = .none) {T : Nat → Pick} {n : Nat} {E : Crv} :
    (∀ f, ComesField (turn T n E) f → ComesField T f ∨ f = E.field) ∧
    (∀ f e, ComesA c (turn T n E) f e → ComesA c T f e ∨ e = E.a ∨ e = E.b) ∧
    (∀ f e, ComesB c (turn T n E) f e → ComesB c T f e ∨ e = E.a ∨ e = E.b) := by
  have key : ∀ i f, (∃ j, (turn T n E i).elt f = (T j).elt f) ∨ (turn T n E i).elt f = E.a ∨ (turn T n E i).elt f = E.b := by
    intro i f
    rcases turn_cases T n E i with ⟨j, e⟩ | ⟨first, e⟩
    · exact Or.inl ⟨j, by rw [e]⟩
    · rw [e]
      rcases steer_elt E first (T 0) f with h | h
      · exact Or.inl ⟨0, h⟩
      · exact Or.inr h
  refine ⟨fun f => ?_, fun f e => ?_, fun f e => ?_⟩
  · rintro ⟨i, hf⟩
    rcases turn_cases T n E i with ⟨j, e⟩ | ⟨first, e⟩
    · rw [e] at hf
      exact Or.inl ⟨j, hf⟩
    · rw [e] at hf
      exact Or.inr (hf.elim id id)
  · unfold ComesA
    simp only [if_pos h0]
    split
    · exact Or.inl
    · rintro ⟨i, he⟩
      rcases key i f with ⟨j, h⟩ | h
      · exact Or.inl ⟨j, he.trans h⟩
      · rw [← he] at h
        exact Or.inr h
  · unfold ComesB
    simp only [if_pos h0]
    split
    · exact Or.inl
    · rintro ⟨i, he⟩
      rcases key i f with ⟨j, h⟩ | h
      · exact Or.inl ⟨j, he.trans h⟩
      · rw [← he] at h
        exact Or.inr h

theorem turn_right {c : Config} (h0 : c.seedAlgo = .none) {E : Crv} {T : Nat → Pick} (h : Right c E T) (n : Nat) (hf : FieldAsked c E.field.1) : Right c E (turn T n E) := by
  obtain ⟨t1, t2, t3⟩ := @turn_comes c h0 T n E
  have u1 : ∀ f, ComesField (turn T n E) f ∨ f = E.field → ComesField T f ∨ f = E.field := fun f hf => hf.elim (t1 f) Or.inr
  have u2 : ∀ f e, ComesA c (turn T n E) f e ∨ e = E.a ∨ e = E.b → ComesA c T f e ∨ e = E.a ∨ e = E.b := fun f e hf => hf.elim (t2 f e) Or.inr
  have u3 : ∀ f e, ComesB c (turn T n E) f e ∨ e = E.a ∨ e = E.b → ComesB c T f e ∨ e = E.a ∨ e = E.b := fun f e hf => hf.elim (t3 f e) Or.inr
  constructor
  · intro i
    rcases turn_cases T n E i with ⟨j, e⟩ | ⟨first, e⟩ <;> rw [e]
    · exact h.picks j
    · exact steer_ok hf first (h.picks 0)
  · intro i E' h1 h2 h3 h4
    rcases turn_cases T n E i with ⟨j, e⟩ | ⟨first, e⟩ <;> rw [e]
    · exact h.sea j E' (u1 _ h1) (u2 _ _ h2) (u3 _ _ h3) h4
    · exact Or.inl rfl
  · intro i E' h1 h2 h3 h4
    rcases turn_cases T n E i with ⟨j, e⟩ | ⟨first, e⟩ <;> rw [e]
    · exact h.gens j E' (u1 _ h1) (u2 _ _ h2) (u3 _ _ h3) h4
    · exact h.gens 0 E' (u1 _ h1) (u2 _ _ h2) (u3 _ _ h3) h4

/-- everything that comes up in one run may come up in the other -/
theorem inv_mono {c : Config} {T T' : Nat → Pick} (h : ∀ i, ∃ j, T' j = T i) {s : Nat} {x : Cur} (hi : Inv c T s x) : Inv c T' s x := by
  have hF : ∀ f, ComesField T f → ComesField T' f := by
    rintro f ⟨i, hf⟩
    obtain ⟨j, e⟩ := h i
    exact ⟨j, by rw [e]; exact hf⟩
  have hD : ∀ i j f a b, (T i).ansi f (T j).seed = .coeffs a b → ∃ i' j', (T' j').seed = (T j).seed ∧ (T' i').ansi f (T' j').seed = .coeffs a b := by
    intro i j f a b he
    obtain ⟨i', e1⟩ := h i
    obtain ⟨j', e2⟩ := h j
    exact ⟨i', j', by rw [e2], by rw [e1, e2]; exact he⟩
  have hA : ∀ f e, ComesA c T f e → ComesA c T' f e := by
    intro f e
    unfold ComesA
    split
    · exact id
    · split
      · rintro ⟨i, he⟩
        obtain ⟨j, e'⟩ := h i
        exact ⟨j, by rw [e']; exact he⟩
      · rintro ⟨i, j, b, he⟩
        obtain ⟨i', j', -, he⟩ := hD i j f e b he
        exact ⟨i', j', b, he⟩
  have hB : ∀ f e, ComesB c T f e → ComesB c T' f e := by
    intro f e
    unfold ComesB
    split
    · exact id
    · split
      · rintro ⟨i, he⟩
        obtain ⟨j, e'⟩ := h i
        exact ⟨j, by rw [e']; exact he⟩
      · rintro ⟨i, j, a, he⟩
        obtain ⟨i', j', -, he⟩ := hD i j f a e he
        exact ⟨i', j', a, he⟩
  exact
    { quiet := hi.quiet
      noseed := hi.noseed
      seed := fun hs => ⟨(hi.seed hs).1, fun b hb => by
        obtain ⟨h1, h2, j, h3⟩ := (hi.seed hs).2 b hb
        obtain ⟨j', e⟩ := h j
        exact ⟨h1, h2, j', by rw [e]; exact h3⟩⟩
      derived := fun hs ha => by
        obtain ⟨i, j, f, a, b, h1, h2, h3, h4, h5⟩ := hi.derived hs ha
        obtain ⟨i', j', e, he⟩ := hD i j f a b h5
        exact ⟨i', j', f, a, b, by rw [e]; exact h1, h2, h3, h4, he⟩
      field := fun hs => by obtain ⟨f, h1, h2, h3⟩ := hi.field hs; exact ⟨f, h1, h2, hF _ h3⟩
      a := fun hs hn => by obtain ⟨f, e, h1, h2, h3⟩ := hi.a hs hn; exact ⟨f, e, h1, h2, hA _ _ h3⟩
      ab := fun hs => by obtain ⟨f, a, b, h1, h2, h3, h4, h5⟩ := hi.ab hs; exact ⟨f, a, b, h1, h2, h3, hA _ _ h4, hB _ _ h5⟩
      crv := hi.crv
      order := hi.order
      gens := hi.gens
      points := hi.points
      info := hi.info }

/-! ## Back to the field, and to the end -/

/-- over prime fields `ansi_gen_equation` never returns -3 -/
theorem no_again (P : Pari) (c : Config) (h : Covered c) {T : Nat → Pick} (hT : TapeOk c T) (ha : c.seedAlgo = .ansi) (hf : c.field = FIELD_PRIME) (i : Nat) (x : Cur)
    (hi : Inv c T 3 x) (x' : Cur) (d : Int) (hd : d ≤ 0) (e : act P c (T i) 3 x = some (x', d)) : False := by
  obtain ⟨f, f1, f2, f3⟩ := hi.field (by omega)
  obtain ⟨h1, h2⟩ := hi.seed (by omega)
  obtain ⟨b, hb⟩ := Option.isSome_iff_exists.1 (h1 (by rw [ha]; decide))
  obtain ⟨-, -, j, rfl⟩ := h2 b hb
  rcases table_b c h with ⟨k, -⟩ | ⟨k, -⟩ | ⟨-, h4⟩
  · rw [ha] at k; cases k
  · rw [ha] at k; cases k
  · simp only [act, stageOf, h4, Option.bind_some, id, call, hb, f1] at e
    have hc := hT.ansi ha i j f f3
    obtain ⟨fv, hgood⟩ := f
    cases fv with
    | binary m e1 e2 e3 => exact absurd (f2.1.symm.trans hf) (by decide)
    | prime p =>
      obtain ⟨junk, sd, -, F, draws, fuel, -, -, hc⟩ := hc
      split at hc
      · rw [hc] at e; cases e
      · exact hc
      · rw [hc] at e
        cases e
        omega

/-- a generator fails only back to the field -/
theorem act_fails_one (P : Pari) (hP : P.Ok) (c : Config) (h : Covered c) (h0 : c.seedAlgo = .none ∨ c.field = FIELD_PRIME) {T : Nat → Pick} (hT : TapeOk c T) (i s : Nat)
    (hs : s < 9) (x : Cur) (hi : Inv c T s x) (x' : Cur) (d : Int) (hd : d ≤ 0) (ha : act P c (T i) s x = some (x', d)) : (s : Int) + d = 1 := by
  match s, hs with
  | 0, _ => obtain ⟨h6, -⟩ := step_seed P c h T i (hT.picks _) x hi x' d ha; omega
  | 1, _ => obtain ⟨h6, -⟩ := step_field P c h T i (hT.picks _) x hi x' d ha; omega
  | 2, _ => obtain ⟨h6, -⟩ := step_a P c h T i x hi x' d ha; omega
  | 3, _ =>
    rcases step_b P c h T i x hi x' d ha with ⟨h6, -⟩ | ⟨h6, -⟩
    · omega
    · rcases h0 with h0 | h0
      · rw [h0] at h6; cases h6
      · exact absurd ha fun ha => no_again P c h hT h6 h0 i x hi x' d hd ha
  | 4, _ => obtain ⟨h6, -⟩ := step_curve P c h T (T i) x hi x' d ha; omega
  | 5, _ => rcases step_order P hP c h T (T i) x hi x' d (fun E hE => (tape_right hT i hi (by omega) hE).1) ha with ⟨h6, -⟩ | ⟨h6, -⟩ <;> omega
  | 6, _ => rcases step_gens P hP c h T (T i) x hi x' d (fun E hE => (tape_right hT i hi (by omega) hE).2) ha with ⟨h6, -⟩ | ⟨h6, -⟩ <;> omega
  | 7, _ => obtain ⟨h6, -⟩ := step_points P hP c T (T i) (hT.picks i) x hi x' d ha; omega
  | 8, _ => obtain ⟨h6, -⟩ := step_metadata P c T (T i) (hT.picks i) x hi x' d ha; omega

open Engine.Spec in
/-- without the timer and failures of PARI a stage fails only back to the field -/
theorem fails_one (P : Pari) (hP : P.Ok) (c : Config) (h : Covered c) (h0 : c.seedAlgo = .none ∨ c.field = FIELD_PRIME) (hh : c.hexCheck = none) (T : Nat → Pick) (hq : StagesFine c T) (s : Nat) (v : W) (d : Int)
    (v' : W) (hs : s < 9) (hv : Sound c T s v) (hcut : v.pick.cut = none) (hfl : v.pick.fail s = none) (hf : Fails (setup P c) 0 s v d v') : (s : Int) + d = 1 := by
  obtain ⟨⟨-, hi, rfl, hT⟩, hu⟩ := hv
  have hdef := fun w1 r => gen_defined P hP c h hT hq s hs w1 r hi
  rcases hf with ⟨h1, rfl⟩ | ⟨h1, h2⟩ | ⟨w1, g, h1, h2, h3⟩
  · rcases gen_cases P c s v v' _ h1 with ⟨x, hc, -⟩ | ⟨d', hf, -⟩ | ⟨x, d', -, -, hr⟩ | ⟨-, hr⟩
    · rw [hcut] at hc; cases hc
    · rw [hfl] at hf; cases hf
    · cases hr
    · cases hr
  · rcases gen_cases P c s v v' _ h1 with ⟨x, hc, -⟩ | ⟨d', hf, -⟩ | ⟨x, d', ha, -, hr⟩ | ⟨rfl, hr⟩
    · rw [hcut] at hc; cases hc
    · rw [hfl] at hf; cases hf
    · cases hr
      exact act_fails_one P hP c h h0 hT v.pos s hs _ hi x d (by omega) ha
    · have := (hdef _ _ h1).1
      rw [hu] at this
      cases this
  · rcases gen_cases P c s v w1 _ h1 with ⟨x, hc, -⟩ | ⟨d', hf, -⟩ | ⟨x, d', ha, rfl, hr⟩ | ⟨rfl, hr⟩
    · rw [hcut] at hc; cases hc
    · rw [hfl] at hf; cases hf
    · rw [table_checks P c h.algo] at h3
      by_cases hs4 : s = 4
      · rw [if_pos hs4] at h3
        cases hr
        rcases act_ok P hP c h v.tape hT v.pos s hs _ hi x g ha with ⟨-, -, h5⟩ | ⟨-, h4, -⟩
        · obtain ⟨-, -, E, h6, -⟩ := h5 hs4
          cases h3 with
          | here h10 =>
            simp only [check, h6] at h10 ⊢
            split
            · rw [hs4]; decide
            · rename_i hd
              rw [if_neg hd] at h10
              omega
          | later _ h11 => cases h11
        · omega
      · rw [if_neg hs4, if_neg (by rw [hh]; simp)] at h3
        cases h3
    · have := (hdef _ _ h1).1
      rw [hu] at this
      cases this

/-- an iteration without the timer and failures of PARI -/
theorem step_clean (P : Pari) (hP : P.Ok) (c : Config) (h : Covered c) (h0 : c.seedAlgo = .none ∨ c.field = FIELD_PRIME) (hh : c.hexCheck = none) (T : Nat → Pick) (hq : StagesFine c T) (st : St W) (hs : st.state < 9)
    (hv : Sound c T st.state st.w) (hcut : st.w.pick.cut = none) (hfl : st.w.pick.fail st.state = none) :
    ∃ st', Engine.step (setup P c) 0 0 st = .inl st' ∧ (st'.state = st.state + 1 ∨ st'.state = 1) ∧ Sound c T st'.state st'.w := by
  rcases Engine.step_cases (setup P c) 0 st (Nat.zero_le _) with ⟨s1, d, w', h1, h2, h3, h4⟩ | ⟨s1, d, w', h1, h2, hz, h3, h4⟩ | ⟨s1, d, w', h1, h2, h3⟩
  · have := sound_ok P hP c h T hq _ _ d w' hs hv h2
    obtain ⟨⟨-, hi, hb⟩, -⟩ := hv
    obtain ⟨rfl, -⟩ := keep_ok P hP c h T _ _ d w' hs hi hb h2
    exact ⟨s1, h1, Or.inl h3, by rw [h3, h4]; exact this⟩
  · have h5 := fails_one P hP c h h0 hh T hq _ _ d w' hs hv hcut hfl h2
    have := sound_back P hP c h T hq _ _ d w' hs hv h2 hz
    exact ⟨s1, h1, Or.inr (by omega), by rw [h3, h4]; exact this⟩
  · have h5 := fails_one P hP c h h0 hh T hq _ _ d w' hs hv hcut hfl h2
    simp only [Engine.INT_MIN] at h3
    omega

/-- the search ends or is back at the field -/
theorem back_or_end (P : Pari) (hP : P.Ok) (c : Config) (h : Covered c) (h0 : c.seedAlgo = .none ∨ c.field = FIELD_PRIME) (hh : c.hexCheck = none) (T : Nat → Pick) (hq : StagesFine c T) (k : Nat) : ∀ (st : St W),
    9 - st.state = k → st.state ≤ 9 → Sound c T st.state st.w → (∀ i, st.w.pos ≤ i → i < st.w.pos + k → (T i).cut = none ∧ ∀ s, (T i).fail s = none) →
    ∃ st', Reaches (setup P c) 0 9 0 st st' ∧ (st'.state = 9 ∨ st'.state = 1) ∧ Sound c T st'.state st'.w := by
  induction k with
  | zero => exact fun st hk h9 hv _ => ⟨st, .refl, Or.inl (by omega), hv⟩
  | succ k ih =>
    intro st hk h9 hv hT
    have hs : st.state < 9 := by omega
    have ht : st.w.tape = T := hv.1.2.2.1
    obtain ⟨c1, c2⟩ := hT st.w.pos (Nat.le_refl _) (by omega)
    obtain ⟨st', h1, h2, h3⟩ := step_clean P hP c h h0 hh T hq st hs hv (by rw [W.pick, ht]; exact c1) (by rw [W.pick, ht]; exact c2 _)
    have hr : Reaches (setup P c) 0 9 0 st st' := .next .refl hs h1
    rcases h2 with h2 | h2
    · have hp := (step_pos P c h hh st st' h1).1
      obtain ⟨s2, i1, i2, i3⟩ := ih st' (by omega) (by omega) h3 (fun i j1 j2 => hT i (by omega) (by omega))
      exact ⟨s2, hr.trans i1, i2, i3⟩
    · exact ⟨st', hr, Or.inr h2, h3⟩

/-- from the stage number `s` on, the curve is found -/
theorem walk (P : Pari) (hP : P.Ok) (c : Config) (hc : Covered c) (h0 : c.seedAlgo = .none) (hh : c.hexCheck = none) (E : Crv) (h : Suits c E) (hl : Listable c E)
    (T : Nat → Pick) (st : St W) (s : Nat) (hs : st.state = s) (ht : st.w.tape = T) (hi : Inv c T s st.w.cur) (hE : Has E s st.w.cur)
    (hT : ∀ j, s + j < 9 → Toward c E (s + j) (T (st.w.pos + j))) (j : Nat) (hj : s + j ≤ 9) :
    ∃ st', Reaches (setup P c) 0 9 0 st st' ∧ st'.state = s + j ∧ st'.w.tape = T ∧ st'.w.pos = st.w.pos + j ∧ st'.w.ub = st.w.ub ∧
      Inv c T (s + j) st'.w.cur ∧ Has E (s + j) st'.w.cur := by
  induction j with
  | zero => exact ⟨st, .refl, hs, ht, rfl, rfl, hi, hE⟩
  | succ j ih =>
    obtain ⟨s1, h1, h2, h3, h4, hub, h5, h6⟩ := ih (by omega)
    have htw := hT j (by omega)
    obtain ⟨x', h7, h8, h9⟩ := next_on P hP c hc h0 E h hl T (st.w.pos + j) (s + j) (by omega) htw _ h5 h6
    have hsucc := succeeds_at P c hc hh s1.w (st.w.pos + j) (s + j) (by rw [h3]; exact htw.cut) (by rw [h3]; exact htw.fail) s1.w.cur x' (by rw [h3]; exact h7)
      (fun h4 => ⟨E, h9.crv (by omega), h.nonsingular⟩)
    have e : ({ s1.w with cur := s1.w.cur, pos := st.w.pos + j } : W) = s1.w := by rw [← h4]
    rw [e, ← h2] at hsucc
    obtain ⟨s2, k1, k2, k3⟩ := step_succeeds (setup P c) s1 _ hsucc
    refine ⟨s2, .next h1 (by omega) k1, by omega, by rw [k3]; exact h3, by rw [k3]; rfl, by rw [k3]; exact hub, ?_, ?_⟩
    · rw [k3]; exact h8
    · rw [k3]; exact h9

theorem turn_toward {c : Config} {E : Crv} (h : Suits c E) {T : Nat → Pick} (hr : Right c E T) (n j : Nat) (hj : 1 + j < 9) (hgen : E.eqn.Δ ≠ 0) : Toward c E (1 + j) (turn T n E (n + j)) := by
  rw [turn_steer T n E j (by omega)]
  exact
    { ok := steer_ok h.field _ (hr.picks 0)
      cut := rfl
      fail := fun _ => rfl
      field := fun _ => by split <;> rfl
      a := fun hk hs => by
        simp only [steer]
        rw [if_pos ⟨rfl, h.element hk⟩, if_pos (by simp; omega)]
      b := fun hk hs => by
        simp only [steer]
        rw [if_pos ⟨rfl, h.element hk⟩, if_neg (by simp; omega)]
      sea := Or.inl rfl
      gens := hr.gens 0 E (Or.inr rfl) (Or.inr (Or.inl rfl)) (Or.inr (Or.inr rfl)) hgen }

/-- whatever has happened, the search can still end with a curve -/
theorem alive (P : Pari) (hP : P.Ok) (c : Config) (hc : Covered c) (h0 : c.seedAlgo = .none) (hh : c.hexCheck = none) (hq : ∀ T, TapeOk c T → StagesFine c T)
    (E : Crv) (h : Suits c E) (hl : Listable c E) (w : W) (hw : Right c E w.tape) (hu : w.ub = false) (st : St W)
    (hst : Reaches (setup P c) 0 9 0 (Engine.init 0 { w with cur := {} }) st) :
    ∃ T, Right c E T ∧ (∀ i, i < st.w.pos → T i = w.tape i) ∧
      Reaches (setup P c) 0 9 0 (Engine.init 0 { w with cur := {}, tape := T }) (st.map (W.on T)) ∧
      ∃ st', Reaches (setup P c) 0 9 0 (st.map (W.on T)) st' ∧ st'.state = 9 := by
  have sound : ∀ (T : Nat → Pick) (a b : St W), TapeOk c T → Reaches (setup P c) 0 9 0 a b → Sound c T a.state a.w → Sound c T b.state b.w := by
    intro T a b hT hr ha
    exact (Engine.reaches_inv (setup P c) 0 9 0 (Sound c T) (fun s v d v' _ => sound_ok P hP c hc T (hq T hT) s v d v')
      (fun s v d v' _ => sound_back P hP c hc T (hq T hT) s v d v') a b (Nat.zero_le _) ha hr).2
  have start : ∀ T, TapeOk c T → Sound c T 0 ({ w with cur := {}, tape := T } : W) := fun T hT =>
    ⟨⟨Nat.zero_le _, inv_low (Nat.zero_le _) (fun _ => rfl) (fun _ => rfl) (fun h => by cases h), rfl, hT⟩, hu⟩
  obtain ⟨p1, p2, p3⟩ := reaches_on P c hc hh (turn w.tape st.w.pos E) _ _ hst
  have hT1 := turn_right h0 hw st.w.pos h.field
  have r1 := p3 fun i _ hi => turn_before _ _ _ _ hi
  have s1 := sound _ _ _ (hT1.tape h0) r1 (start _ (hT1.tape h0))
  obtain ⟨st1, q1, q2, q3⟩ := back_or_end P hP c hc (Or.inl h0) hh _ (hq _ (hT1.tape h0)) _ _ rfl s1.1.1 s1 (by
    intro i i1 i2
    have i1 : st.w.pos ≤ i := i1
    have i2 : i < st.w.pos + (9 - st.state) := i2
    obtain ⟨j, rfl⟩ := Nat.exists_eq_add_of_le i1
    rw [turn_steer _ _ _ _ (by omega)]
    exact ⟨rfl, fun _ => rfl⟩)
  rcases q2 with q2 | q2
  · exact ⟨_, hT1, fun i hi => turn_before _ _ _ _ hi, r1, st1, q1, q2⟩
  · have hT2 := turn_right h0 hT1 st1.w.pos h.field
    obtain ⟨m1, m2, m3⟩ := reaches_on P c hc hh (turn (turn w.tape st.w.pos E) st1.w.pos E) _ _ q1
    have m1 : st.w.pos ≤ st1.w.pos := m1
    have before : ∀ i, i < st.w.pos → turn (turn w.tape st.w.pos E) st1.w.pos E i = w.tape i := fun i hi => by
      rw [turn_before _ _ _ _ (by omega), turn_before _ _ _ _ hi]
    obtain ⟨-, -, p4⟩ := reaches_on P c hc hh (turn (turn w.tape st.w.pos E) st1.w.pos E) _ _ hst
    have r2 := m3 fun i _ hi => turn_before _ _ _ _ hi
    have hi1 : Inv c (turn (turn w.tape st.w.pos E) st1.w.pos E) 1 st1.w.cur := inv_mono (fun i => ⟨_, turn_all _ _ _ i⟩) (q2 ▸ q3.1.2.1)
    obtain ⟨st2, e1, e2, -⟩ := walk P hP c hc h0 hh E h hl _ (st1.map (W.on (turn (turn w.tape st.w.pos E) st1.w.pos E))) 1 q2 rfl hi1
      ⟨fun h => by omega, fun h => by omega, fun h => by omega, fun h => by omega⟩
      (fun j hj => turn_toward h hT1 _ j hj h.nonsingular) 8 (Nat.le_refl _)
    exact ⟨_, hT2, before, p4 fun i _ hi => before i hi, st2, r2.trans e1, e2⟩

end Ecgen.Whole
