import Verif.InvalidRun.Model
import Verif.Whole.Defined

/-!
# The searches within a run of the invalid curve method
-/

namespace Ecgen.InvalidRun

open Output Output.Spec Cli Whole

/-! ## The engine, once more: what is left by a search that fails is only asked for where it can fail -/

section
open Engine Engine.Spec
variable {σ : Type}

theorem step_keeps (S : Engine.Setup σ) (start stop : Nat) (retry : Int) (P : Nat → σ → Prop) (Q : σ → Prop)
    (hok : ∀ s w d w', start ≤ s → s < stop → P s w → Succeeds S s w d w' → P (s + d.toNat) w')
    (hback : retry ≠ 1 → ∀ s w d w', start ≤ s → s < stop → P s w → Fails S start s w d w' → 0 ≤ (s : Int) + d →
      P (max ((s : Int) + d).toNat start) (cleaned S (max ((s : Int) + d).toNat start) s w'))
    (hfail : ∀ s w d w', start ≤ s → s < stop → P s w → Fails S start s w d w' → d = INT_MIN ∨ (s : Int) + d < 0 ∨ retry ≠ 0 → Q w')
    (st : Engine.St σ) (hge : start ≤ st.state) (hlt : st.state < stop) (hP : P st.state st.w) :
    (∀ st', step S start retry st = .inl st' → start ≤ st'.state ∧ P st'.state st'.w) ∧
    (∀ st', step S start retry st = .inr st' → Q st'.w) := by
  have hex := execStage_world S start st.state st.w st.log hge
  unfold step
  simp only
  by_cases hd : (execStage S start st.state st.w st.log).2.1 ≤ 0
  · rw [if_pos hd]
    have hq := hfail _ _ _ _ hge hlt hP (hex.2 hd)
    by_cases hfatal : (execStage S start st.state st.w st.log).2.1 = INT_MIN ∨
        (st.state : Int) + (execStage S start st.state st.w st.log).2.1 < 0
    · rw [if_pos hfatal]
      refine ⟨fun st' h => (by cases h), fun st' h => ?_⟩
      cases h
      exact hq (by tauto)
    · rw [if_neg hfatal]
      by_cases hret : retry ≠ 0 ∧ ((if retry ≠ 0 then setTries st.tries st.state (st.tries st.state + 1) else st.tries) st.state : Int) ≥ retry
      · rw [if_pos hret]
        refine ⟨fun st' h => (by cases h), fun st' h => ?_⟩
        cases h
        exact hq (by tauto)
      · rw [if_neg hret]
        refine ⟨fun st' h => ?_, fun st' h => (by cases h)⟩
        have h1 : retry ≠ 1 := by
          rintro rfl
          apply hret
          simp [setTries]
        cases h
        refine ⟨by simp only; omega, ?_⟩
        simp only
        rw [unrollLoop_world]
        have e : (max ((st.state : Int) + (execStage S start st.state st.w st.log).2.1) (start : Int)).toNat
            = max ((st.state : Int) + (execStage S start st.state st.w st.log).2.1).toNat start := by omega
        rw [e]
        exact hback h1 _ _ _ _ hge hlt hP (hex.2 hd) (by omega)
  · rw [if_neg hd]
    refine ⟨fun st' h => ?_, fun st' h => (by cases h)⟩
    cases h
    refine ⟨by simp only; omega, ?_⟩
    simp only
    have e : (max ((st.state : Int) + (execStage S start st.state st.w st.log).2.1) (start : Int)).toNat
        = st.state + ((execStage S start st.state st.w st.log).2.1).toNat := by omega
    rw [e]
    exact hok _ _ _ _ hge hlt hP (hex.1 (by omega))

theorem loop_keeps (S : Engine.Setup σ) (start stop : Nat) (retry : Int) (P : Nat → σ → Prop) (Q : σ → Prop)
    (hok : ∀ s w d w', start ≤ s → s < stop → P s w → Succeeds S s w d w' → P (s + d.toNat) w')
    (hback : retry ≠ 1 → ∀ s w d w', start ≤ s → s < stop → P s w → Fails S start s w d w' → 0 ≤ (s : Int) + d →
      P (max ((s : Int) + d).toNat start) (cleaned S (max ((s : Int) + d).toNat start) s w'))
    (hfail : ∀ s w d w', start ≤ s → s < stop → P s w → Fails S start s w d w' → d = INT_MIN ∨ (s : Int) + d < 0 ∨ retry ≠ 0 → Q w')
    (fuel : Nat) (st : Engine.St σ) (hge : start ≤ st.state) (hP : P st.state st.w) (res : Int) (st' : Engine.St σ)
    (h : loop S start stop retry fuel st = some (res, st')) :
    (res = 1 ∧ stop ≤ st'.state ∧ P st'.state st'.w) ∨ (res = 0 ∧ Q st'.w) := by
  induction fuel generalizing st with
  | zero =>
    simp only [loop] at h
    split at h
    · cases h
    · cases h; exact Or.inl ⟨rfl, by omega, hP⟩
  | succ fuel ih =>
    simp only [loop] at h
    split at h
    · rename_i hlt
      have hs := step_keeps S start stop retry P Q hok hback hfail st hge hlt hP
      cases hst : step S start retry st with
      | inl st1 =>
        rw [hst] at h
        obtain ⟨h1, h2⟩ := hs.1 st1 hst
        exact ih st1 h1 h2 h
      | inr st1 =>
        rw [hst] at h
        cases h
        exact Or.inr ⟨rfl, hs.2 st' hst⟩
    · cases h; exact Or.inl ⟨rfl, by omega, hP⟩

end

/-! ## The tables -/

theorem covered_original (c : Config) : Covered (original c) :=
  ⟨Or.inl ⟨rfl, rfl⟩, Or.inl rfl, ⟨fun h => (nomatch h.1), fun h => (nomatch h.1), fun h => (nomatch h.1)⟩, fun h => (nomatch h)⟩

theorem covered_invalid (c : Config) : Covered (invalid c) :=
  ⟨Or.inl ⟨rfl, rfl⟩, Or.inl rfl, ⟨fun h => (nomatch h.1), fun h => (nomatch h.1), fun h => (nomatch h.1)⟩, fun h => (nomatch h)⟩

/-- the calls behave for the other curves when they do for the first -/
theorem tape_invalid {c : Config} {T : Nat → Pick} (h : TapeOk (original c) T) : TapeOk (invalid c) T where
  picks i :=
    { cut := (h.picks i).cut
      fail := (h.picks i).fail
      seed := (h.picks i).seed
      randomField := (h.picks i).randomField
      typedField := (h.picks i).typedField
      elt := (h.picks i).elt
      ansiSeed := fun h => (nomatch h)
      which := (h.picks i).which
      mul := (h.picks i).mul
      info := (h.picks i).info
      verdict := (h.picks i).verdict }
  ansi := fun h => (nomatch h)
  sea := h.sea
  gens := h.gens

/-- the generator of a stage is that of the default method -/
structure Agrees (P : Pari) (bits : Nat) (S : Cli.Setup) (cc : Config) (s : Nat) (g : Gen) : Prop where
  entry : (Whole.stageOf S.gens s).bind id = some g
  same : ∀ p primes x, call P bits p primes x g = act P cc p s x

theorem agrees_original (P : Pari) (c : Config) (s : Nat) (h1 : 1 ≤ s) (h2 : s < 7) : ∃ g, Agrees P c.bits (originalSetup c) (original c) s g := by
  have hc := covered_original c
  match s, h1, h2 with
  | 1, _, _ =>
    refine ⟨_, rfl, fun p primes x => ?_⟩
    have ht := table_field (original c) hc
    cases hr : has c.random RANDOM_FIELD <;> (
      have hr' : has (original c).random RANDOM_FIELD = _ := hr
      rw [hr'] at ht
      simp only [act, Whole.stageOf, ht, Option.bind_some, id]
      rfl)
  | 2, _, _ =>
    refine ⟨_, rfl, fun p primes x => ?_⟩
    rcases table_a (original c) hc with ⟨-, h, -⟩ | ⟨-, -, ht⟩ | ⟨h, -⟩
    · cases h
    · cases hr : has c.random RANDOM_A <;> rcases ht with ht | ht <;> (simp only [act, Whole.stageOf, ht, Option.bind_some, id]; rfl)
    · cases h
  | 3, _, _ =>
    refine ⟨_, rfl, fun p primes x => ?_⟩
    rcases table_b (original c) hc with ⟨-, h, -⟩ | ⟨-, -, ht⟩ | ⟨h, -⟩
    · cases h
    · cases hr : has c.random RANDOM_B <;> rcases ht with ht | ht <;> (simp only [act, Whole.stageOf, ht, Option.bind_some, id]; rfl)
    · cases h
  | 4, _, _ => exact ⟨_, rfl, fun p primes x => by simp only [act, Whole.stageOf, table_curve _ hc, Option.bind_some, id]; rfl⟩
  | 5, _, _ =>
    refine ⟨_, rfl, fun p primes x => ?_⟩
    rcases table_order (original c) hc with ⟨h, -⟩ | ⟨-, h, -⟩ | ⟨-, -, h, -⟩ | ⟨-, -, -, ⟨h, -⟩ | ht⟩
    any_goals cases h
    simp only [act, Whole.stageOf, ht, Option.bind_some, id]
    rfl
  | 6, _, _ =>
    refine ⟨_, rfl, fun p primes x => ?_⟩
    rcases table_gens (original c) hc with ⟨h, -⟩ | ⟨-, h, -⟩ | ⟨-, -, ht⟩
    any_goals cases h
    simp only [act, Whole.stageOf, ht, Option.bind_some, id]
    rfl

/-- the generators of the other curves -/
def invalidGen (c : Config) : Nat → Gen
  | 3 => .bRandom
  | 4 => .curveAny
  | 5 => .orderAny
  | _ => if c.unique then .gensOne else .gensAny

theorem agrees_invalid (P : Pari) (c : Config) (s : Nat) (h1 : 3 ≤ s) (h2 : s < 7) : Agrees P c.bits (invalidSetup c) (invalid c) s (invalidGen c s) := by
  have hc := covered_invalid c
  match s, h1, h2 with
  | 3, _, _ =>
    refine ⟨rfl, fun p primes x => ?_⟩
    rcases table_b (invalid c) hc with ⟨-, h, -⟩ | ⟨-, -, ht⟩ | ⟨h, -⟩
    · cases h
    · rcases ht with ht | ht <;> (simp only [act, Whole.stageOf, ht, Option.bind_some, id]; rfl)
    · cases h
  | 4, _, _ => exact ⟨rfl, fun p primes x => by simp only [act, Whole.stageOf, table_curve _ hc, Option.bind_some, id]; rfl⟩
  | 5, _, _ =>
    refine ⟨rfl, fun p primes x => ?_⟩
    rcases table_order (invalid c) hc with ⟨h, -⟩ | ⟨-, h, -⟩ | ⟨-, -, h, -⟩ | ⟨-, -, -, ⟨h, -⟩ | ht⟩
    any_goals cases h
    simp only [act, Whole.stageOf, ht, Option.bind_some, id]
    rfl
  | 6, _, _ =>
    refine ⟨rfl, fun p primes x => ?_⟩
    rcases table_gens (invalid c) hc with ⟨h, ht⟩ | ⟨-, h, -⟩ | ⟨h, -, ht⟩
    · have h : c.unique = true := h
      simp only [act, Whole.stageOf, ht, Option.bind_some, id, invalidGen, h, if_true]
      rfl
    · cases h
    · have h : c.unique = false := h
      simp only [act, Whole.stageOf, ht, Option.bind_some, id, invalidGen, h]
      rfl

theorem invalid_fails (c : Config) (s : Nat) (h1 : 3 ≤ s) (h2 : s < 7) (h : canFail (invalidGen c s) = true) : s = 4 := by
  match s, h1, h2 with
  | 3, _, _ => cases h
  | 4, _, _ => rfl
  | 5, _, _ => cases h
  | 6, _, _ => cases hu : c.unique <;> simp [invalidGen, hu, canFail] at h

/-- what the search for another curve leaves alone -/
def Same (x y : Cur) : Prop := y.info = x.info ∧ y.seed = x.seed ∧ y.field = x.field ∧ y.a = x.a

theorem act_same (P : Pari) (c : Config) (p : Pick) (s : Nat) (h1 : 3 ≤ s) (h2 : s < 7) (x x' : Cur) (d : Int) (h : act P (invalid c) p s x = some (x', d)) :
    Same x x' := by
  rw [← (agrees_invalid P c s h1 h2).same p [] x] at h
  match s, h1, h2 with
  | 3, _, _ =>
    simp only [invalidGen, call, Whole.call, Option.map_eq_some_iff, Prod.mk.injEq] at h
    obtain ⟨_, _, rfl, _⟩ := h
    exact ⟨rfl, rfl, rfl, rfl⟩
  | 4, _, _ =>
    simp only [invalidGen, call, Whole.call] at h
    split at h
    · simp only [Option.some.injEq, Prod.mk.injEq] at h
      obtain ⟨rfl, _⟩ := h
      exact ⟨rfl, rfl, rfl, rfl⟩
    · cases h
  | 5, _, _ =>
    simp only [invalidGen, call, Whole.call, orderStage, Option.bind_eq_some_iff, Option.some.injEq, Prod.mk.injEq] at h
    obtain ⟨_, _, rfl, _⟩ := h
    exact ⟨rfl, rfl, rfl, rfl⟩
  | 6, _, _ =>
    have hf : ∀ E (o : Option (List (Group.Pt E.Pt))), found x E o = (x', d) → Same x x' := by
      intro E o ho
      cases o <;> cases ho <;> exact ⟨rfl, rfl, rfl, rfl⟩
    cases hu : c.unique <;>
      (simp only [invalidGen, hu, Bool.false_eq_true, if_true, if_false, call, Whole.call, gensStage, Option.bind_eq_some_iff, Option.some.injEq] at h
       obtain ⟨E, _, n, _, h⟩ := h
       exact hf _ _ h)

theorem checks_original (P : Pari) (c : Config) (bits : Nat) (primes : List Nat) (s : Nat) :
    (setup P bits (originalSetup c) primes).checks s = if s = 4 then [fun w => check w .curveNonzero] else [] := by
  change (((Whole.stageOf (originalSetup c).checks s).getD []).map fun k w => check w k) = _
  unfold Whole.stageOf
  split <;> simp [originalSetup, Table.const]
  rename_i h
  assumption

theorem checks_invalid (P : Pari) (c : Config) (bits : Nat) (primes : List Nat) (s : Nat) :
    (setup P bits (invalidSetup c) primes).checks s = if s = 4 then [fun w => check w .curveNonzero] else [] := by
  change (((Whole.stageOf (invalidSetup c).checks s).getD []).map fun k w => check w k) = _
  unfold Whole.stageOf
  split <;> simp [invalidSetup, Table.const]
  rename_i h
  assumption

/-! ## One stage -/

/-- the generator of a stage finds what it reads -/
theorem act_original (P : Pari) (c : Config) (T : Nat → Pick) (p : Pick) (hp : p.Ok (original c)) (s : Nat) (hs : s < 9) (x : Cur)
    (hi : Inv (original c) T s x) : ∃ x' d, act P (original c) p s x = some (x', d) :=
  Whole.act_defined P (original c) (covered_original c) T p hp s hs x (Or.inl rfl) (fun _ h => (nomatch h)) hi

/-- the generator of a stage finds what it reads -/
theorem act_invalid (P : Pari) (c : Config) (T : Nat → Pick) (p : Pick) (hp : p.Ok (invalid c)) (s : Nat) (hs : s < 7) (x : Cur)
    (hi : Inv (invalid c) T s x) : ∃ x' d, act P (invalid c) p s x = some (x', d) := by
  have he : act P { original c with unique := c.unique } p s x = act P (invalid c) p s x := by
    match s, hs with
    | 0, _ => rfl
    | 1, _ => rfl
    | 2, _ => rfl
    | 3, _ => rfl
    | 4, _ => rfl
    | 5, _ => rfl
    | 6, _ => rfl
  rw [← he]
  exact Whole.act_defined P { original c with unique := c.unique }
    ⟨(covered_invalid c).algo, (covered_invalid c).value, (covered_invalid c).one, (covered_invalid c).koblitz⟩ T p
    { cut := hp.cut, fail := hp.fail, seed := hp.seed, randomField := hp.randomField, typedField := hp.typedField, elt := hp.elt, ansiSeed := fun h => (nomatch h), which := hp.which
      mul := hp.mul, info := hp.info, verdict := hp.verdict } s (by omega) x (Or.inl rfl) (fun _ h => (nomatch h))
    { quiet := hi.quiet, noseed := hi.noseed, seed := hi.seed, field := hi.field, a := hi.a, ab := hi.ab, derived := hi.derived, crv := hi.crv, order := hi.order
      gens := fun h => absurd h (by omega), points := fun h => absurd h (by omega), info := fun h => absurd h (by omega) }

open Engine (GenRes) in
/-- what a generator does -/
theorem gen_does (P : Pari) (cc : Config) (S : Cli.Setup) (primes : List Nat) (s : Nat) (g : Gen) (ha : Agrees P cc.bits S cc s g)
    {w : W} (hT : TapeOk cc w.tape) (hact : ∃ x' d, act P cc w.pick s w.cur = some (x', d)) (w1 : W) (r : GenRes) (hg : gen P cc.bits S primes s w = (w1, r)) :
    (∃ y, w1 = { w.next with cur := leftover s w.cur y } ∧ r = .timeout) ∨
    (∃ d, d ∈ failures s ∧ canFail g = true ∧ w1 = w.next ∧ r = .ret d) ∨
    (∃ x d, act P cc w.pick s w.cur = some (x, d) ∧ w1 = { w.next with cur := x } ∧ r = .ret d) := by
  obtain ⟨x', d', hact⟩ := hact
  unfold gen at hg
  cases h1 : w.pick.cut with
  | some y => rw [h1] at hg; cases hg; exact Or.inl ⟨y, rfl, rfl⟩
  | none =>
    simp only [h1, ha.entry] at hg
    cases hf : canFail g with
    | false =>
      simp only [hf, Bool.false_eq_true, if_false, ha.same, hact] at hg
      cases hg
      exact Or.inr (Or.inr ⟨x', d', hact, rfl, rfl⟩)
    | true =>
      simp only [hf, if_true] at hg
      cases h2 : w.pick.fail s with
      | some d =>
        simp only [h2] at hg
        cases hg
        exact Or.inr (Or.inl ⟨d, (hT.picks _).fail s d h2, rfl, rfl, rfl⟩)
      | none =>
        simp only [h2, ha.same, hact] at hg
        cases hg
        exact Or.inr (Or.inr ⟨x', d', hact, rfl, rfl⟩)

/-- what the cleaning leaves alone -/
theorem cleaned_same (P : Pari) (bits : Nat) (S : Cli.Setup) (primes : List Nat) (lo : Nat) : ∀ (hi : Nat) (w : W),
    Same w.cur (Engine.Spec.cleaned (setup P bits S primes) lo hi w).cur ∧
    (Engine.Spec.cleaned (setup P bits S primes) lo hi w).tape = w.tape ∧ (Engine.Spec.cleaned (setup P bits S primes) lo hi w).ub = w.ub := by
  intro hi
  induction hi with
  | zero => intro w; exact ⟨⟨rfl, rfl, rfl, rfl⟩, rfl, rfl⟩
  | succ i ih =>
    intro w
    unfold Engine.Spec.cleaned
    split
    · obtain ⟨⟨h1, h2, h3, h4⟩, h5, h6⟩ := ih (((setup P bits S primes).unroll (i + 1)).getD id w)
      unfold Same
      rw [h1, h2, h3, h4, h5, h6]
      simp only [setup, Option.getD_some]
      unfold unroll
      split
      · omega
      all_goals exact ⟨⟨rfl, rfl, rfl, rfl⟩, trivial, trivial⟩
    · exact ⟨⟨rfl, rfl, rfl, rfl⟩, rfl, rfl⟩

theorem cleaned_none (P : Pari) (bits : Nat) (S : Cli.Setup) (primes : List Nat) (s : Nat) (w : W) :
    Engine.Spec.cleaned (setup P bits S primes) s s w = w := by
  cases s with
  | zero => rfl
  | succ s => unfold Engine.Spec.cleaned; rw [if_neg (by omega)]

/-! ## A stage up to the generators -/

/-- the stages of these searches up to the generators -/
structure Stage (P : Pari) (cc : Config) (S : Cli.Setup) (primes : List Nat) (T : Nat → Pick) (s : Nat) (g : Gen) : Prop where
  covered : Covered cc
  tape : TapeOk cc T
  agrees : Agrees P cc.bits S cc s g
  early : s < 7
  defined : ∀ i x, Inv cc T s x → ∃ x' d, act P cc (T i) s x = some (x', d)
  checks : (setup P cc.bits S primes).checks s = if s = 4 then [fun w => check w .curveNonzero] else []
  plain : cc.seedAlgo = .none

theorem stage_original (P : Pari) (c : Config) (primes : List Nat) (T : Nat → Pick) (hT : TapeOk (original c) T) (s : Nat) (h1 : 1 ≤ s) (h2 : s < 7) :
    ∃ g, Stage P (original c) (originalSetup c) primes T s g := by
  obtain ⟨g, hg⟩ := agrees_original P c s h1 h2
  exact ⟨g, covered_original c, hT, hg, h2, fun i x hi => act_original P c T _ (hT.picks i) s (by omega) x hi, checks_original P c _ primes s, rfl⟩

theorem stage_invalid (P : Pari) (c : Config) (primes : List Nat) (T : Nat → Pick) (hT : TapeOk (original c) T) (s : Nat) (h1 : 3 ≤ s) (h2 : s < 7) :
    Stage P (invalid c) (invalidSetup c) primes T s (invalidGen c s) :=
  ⟨covered_invalid c, tape_invalid hT, agrees_invalid P c s h1 h2, h2,
    fun i x hi => act_invalid P c T _ ((tape_invalid hT).picks i) s h2 x hi, checks_invalid P c _ primes s, rfl⟩

open Engine Engine.Spec in
/-- a stage that succeeds -/
theorem stage_ok {P : Pari} (hP : P.Ok) {cc : Config} {S : Cli.Setup} {primes : List Nat} {T : Nat → Pick} {s : Nat} {g : Gen} (h : Stage P cc S primes T s g)
    (w : W) (d : Int) (w' : W) (hw : w.tape = T) (hi : Inv cc T s w.cur) (hs : Succeeds (setup P cc.bits S primes) s w d w') :
    d = 1 ∧ Inv cc T (s + 1) w'.cur ∧ w'.tape = T ∧ w'.ub = w.ub ∧ act P cc (T w.pos) s w.cur = some (w'.cur, 1) := by
  obtain ⟨w1, h1, h2, h3⟩ := hs
  subst hw
  rcases gen_does P cc S primes s g h.agrees h.tape (h.defined w.pos _ hi) w1 _ h1 with ⟨y, -, hr⟩ | ⟨d', hf, -, -, hr⟩ | ⟨x, d', ha, rfl, hr⟩
  · cases hr
  · cases hr
    have := (failures_spec s d hf).1
    omega
  · cases hr
    have hlt := h.early
    rcases act_ok P hP cc h.covered w.tape h.tape w.pos s (by omega) _ hi x d ha with ⟨rfl, h4, h5⟩ | ⟨-, h4, -⟩
    · rw [h.checks] at h3
      by_cases hs4 : s = 4
      · subst hs4
        rw [if_pos rfl] at h3
        obtain ⟨-, -, E, h6, h7⟩ := h5 rfl
        cases h3 with
        | cons h8 h9 =>
          cases h9
          simp only [check, h6] at h8 ⊢
          refine ⟨trivial, h7 fun hd => ?_, rfl, rfl, ha⟩
          rw [if_pos hd] at h8
          omega
      · rw [if_neg hs4] at h3
        cases h3
        exact ⟨rfl, h4 hs4, rfl, rfl, ha⟩
    · omega

open Engine Engine.Spec in
/-- a stage that fails -/
theorem stage_fail {P : Pari} (hP : P.Ok) {cc : Config} {S : Cli.Setup} {primes : List Nat} {T : Nat → Pick} {s : Nat} {g : Gen} (h : Stage P cc S primes T s g)
    (start : Nat) (w : W) (d : Int) (w' : W) (hw : w.tape = T) (hi : Inv cc T s w.cur) (hf : Fails (setup P cc.bits S primes) start s w d w') :
    w'.tape = T ∧ w'.ub = w.ub ∧
    ((d = (start : Int) - s ∧ ∃ y, w'.cur = leftover s w.cur y) ∨
     (d ∈ failures s ∧ canFail g = true ∧ w'.cur = w.cur) ∨
     ((s : Int) + d = 1 ∧ d ≤ 0 ∧ w'.cur = w.cur) ∨
     (s = 4 ∧ d = -3 ∧ act P cc (T w.pos) s w.cur = some (w'.cur, 1) ∧ w'.cur.info = w.cur.info ∧ w'.cur.seed = w.cur.seed)) := by
  subst hw
  have hlt := h.early
  rcases hf with ⟨h1, rfl⟩ | ⟨h1, h2⟩ | ⟨w1, g', h1, h2, h3⟩
  · rcases gen_does P cc S primes s g h.agrees h.tape (h.defined w.pos _ hi) w' _ h1 with ⟨y, rfl, hr⟩ | ⟨d', hf, -, -, hr⟩ | ⟨x, d', ha, rfl, hr⟩
    · exact ⟨rfl, rfl, Or.inl ⟨rfl, y, rfl⟩⟩
    all_goals cases hr
  · rcases gen_does P cc S primes s g h.agrees h.tape (h.defined w.pos _ hi) w' _ h1 with ⟨y, rfl, hr⟩ | ⟨d', hf, hc, rfl, hr⟩ | ⟨x, d', ha, rfl, hr⟩
    · cases hr
    · cases hr
      exact ⟨rfl, rfl, Or.inr (Or.inl ⟨hf, hc, rfl⟩)⟩
    · cases hr
      rcases act_ok P hP cc h.covered w.tape h.tape w.pos s (by omega) _ hi x d ha with ⟨rfl, -, -⟩ | ⟨h4, h5, rfl⟩
      · omega
      · exact ⟨rfl, rfl, Or.inr (Or.inr (Or.inl ⟨h4.resolve_right (fun h' => by rw [h.plain] at h'; cases h'.1), h5, rfl⟩))⟩
  · rcases gen_does P cc S primes s g h.agrees h.tape (h.defined w.pos _ hi) w1 _ h1 with ⟨y, -, hr⟩ | ⟨d', hf, -, -, hr⟩ | ⟨x, d', ha, rfl, hr⟩
    · cases hr
    · cases hr
      have := (failures_spec s g' hf).1
      omega
    · cases hr
      rcases act_ok P hP cc h.covered w.tape h.tape w.pos s (by omega) _ hi x g' ha with ⟨rfl, h4, h5⟩ | ⟨-, h4, -⟩
      · rw [h.checks] at h3
        by_cases hs4 : s = 4
        · subst hs4
          rw [if_pos rfl] at h3
          obtain ⟨h8, h9, E, h6, h7⟩ := h5 rfl
          cases h3 with
          | here h10 =>
            simp only [check, h6] at h10 ⊢
            by_cases hd : E.eqn.Δ = 0
            · rw [if_pos hd]
              exact ⟨rfl, rfl, Or.inr (Or.inr (Or.inr ⟨trivial, rfl, ha, h8, h9⟩))⟩
            · rw [if_neg hd] at h10
              omega
          | later _ h11 => cases h11
        · rw [if_neg hs4] at h3
          cases h3
      · omega

end Ecgen.InvalidRun
