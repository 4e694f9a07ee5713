import Verif.Twisted.Model
import Verif.Twisted.Twist
import Verif.Whole.Props

/-!
# The search for twists keeps what it has established
-/

namespace Ecgen.Twisted

open Whole Output Output.Spec Cli

/-- the configurations that are covered -/
structure Covered (c : Config) : Prop where
  method : c.method = METHOD_TWIST
  algo : c.seedAlgo = .none
  value : c.koblitzValue = 0 ∨ c.koblitzValue = 1
  one : ¬ (c.prime = true ∧ c.cofactor = true) ∧ ¬ (c.prime = true ∧ c.smooth = true) ∧ ¬ (c.smooth = true ∧ c.cofactor = true)
  koblitz : c.koblitz = false

theorem Covered.plain {c : Config} (h : Covered c) : Whole.Covered (plain c) where
  algo := Or.inl ⟨h.algo, rfl⟩
  value := h.value
  one := h.one
  koblitz hk := (no h.koblitz hk).elim

/-! ## The tables -/

theorem table_same (c : Config) (h : Covered c) (s : Nat) (hs : s ≠ 4) :
    stageOf (exhaustiveSetup c).gens s = stageOf (exhaustiveSetup (plain c)).gens s := by
  unfold stageOf
  split
  case h_5 => exact absurd rfl hs
  all_goals simp [exhaustiveSetup, ginit, ginitMethod, plain, h.algo, h.method, METHOD_TWIST, METHOD_FAMILY, orderChoiceKoblitz, gensChoice, pointsChoice]

theorem table_twist (c : Config) (h : Covered c) : (stageOf (exhaustiveSetup c).gens 4).bind id = some .curveAnyTwist := by
  simp [stageOf, exhaustiveSetup, ginit, h.method]

theorem gen_same (P : Pari) (c : Config) (h : Covered c) (s : Nat) (hs : s ≠ 4) (w : Whole.W) :
    Whole.gen P c.bits (exhaustiveSetup c) s w = (Whole.setup P (plain c)).gen s w := by
  change _ = Whole.gen P c.bits (exhaustiveSetup (plain c)) s w
  unfold Whole.gen
  rw [table_same c h s hs]
  rfl

theorem table_checks (P : Pari) (c : Config) (h : Covered c) (s : Nat) :
    (setup P c).checks s = if s = 4 then [check .curveNonzero] else if s = 7 ∧ c.hexCheck.isSome then [check .hexParam] else [] := by
  have hc : (exhaustiveSetup c).checks =
      { Table.const [] with curve := [.curveNonzero], points := if c.hexCheck.isSome then [.hexParam] else [] } := by
    simp [exhaustiveSetup, cinit, h.method, METHOD_SEED, METHOD_TWIST]
  change (((stageOf (exhaustiveSetup c).checks s).getD []).map check) = _
  rw [hc]
  unfold stageOf
  split <;> simp [Table.const]
  · cases c.hexCheck <;> simp
  · split <;> simp_all

/-! ## What the generators leave alone -/

/-- after the curve stage no generator changes the curve -/
theorem call_keeps (P : Pari) (bits : Nat) (p : Pick) (arg : Option Arg) (x x' : Cur) (d : Int) (g : Gen) (h : call P bits p arg x g = some (x', d))
    (hg : g = .orderPrime ∨ g = .orderCofactor ∨ g = .orderSmooth ∨ g = .orderKoblitz ∨ g = .orderAny ∨ g = .gensOne ∨ g = .gensCofactor ∨ g = .gensAny ∨
      g = .pointRandom ∨ g = .pointsRandom ∨ g = .pointsPrime ∨ g = .pointsAll ∨ g = .pointsNonprime ∨ g = .metadata ∨ g = .skip) :
    x'.crv = x.crv := by
  have filt : ∀ o, filtered x o = (x', d) → x'.crv = x.crv := by
    intro o ho
    cases o <;> cases ho <;> rfl
  have fnd : ∀ (E : Crv) (o : Option (List (Group.Pt E.Pt))), found x E o = (x', d) → x'.crv = x.crv := by
    intro E o ho
    cases o <;> cases ho <;> rfl
  have pts : ∀ g, call.withPoints P p arg x g = some (x', d) → x'.crv = x.crv := by
    intro g hp
    unfold call.withPoints at hp
    split at hp
    · split at hp
      · rename_i hE
        rw [Option.map_eq_some_iff] at hp
        obtain ⟨_, _, hp⟩ := hp
        cases hp
        rfl
      · cases hp
    · cases hp
  rcases hg with rfl | rfl | rfl | rfl | rfl | rfl | rfl | rfl | rfl | rfl | rfl | rfl | rfl | rfl | rfl
  · simp only [call, orderStage, Option.bind_eq_some_iff, Option.some.injEq] at h
    obtain ⟨_, _, h⟩ := h
    exact filt _ h
  · simp only [call, orderStage, Option.bind_eq_some_iff, Option.map_eq_some_iff] at h
    obtain ⟨_, _, _, _, h⟩ := h
    exact filt _ h
  · simp only [call, orderStage, Option.bind_eq_some_iff, Option.map_eq_some_iff] at h
    obtain ⟨_, _, _, _, h⟩ := h
    exact filt _ h
  · simp only [call, orderStage, Option.bind_eq_some_iff] at h
    obtain ⟨_, _, h⟩ := h
    split at h
    · cases h; rfl
    · cases h
  · simp only [call, orderStage, Option.bind_eq_some_iff] at h
    obtain ⟨_, _, h⟩ := h
    cases h; rfl
  · simp only [call, gensStage, Option.bind_eq_some_iff, Option.some.injEq] at h
    obtain ⟨_, _, _, _, h⟩ := h
    exact fnd _ _ h
  · simp only [call, gensStage, Option.bind_eq_some_iff, Option.map_eq_some_iff] at h
    obtain ⟨_, _, _, _, _, _, h⟩ := h
    exact fnd _ _ h
  · simp only [call, gensStage, Option.bind_eq_some_iff, Option.some.injEq] at h
    obtain ⟨_, _, _, _, h⟩ := h
    exact fnd _ _ h
  all_goals try exact pts _ h
  all_goals cases h; rfl

/-- before the curve stage no generator changes the order -/
theorem call_order (P : Pari) (bits : Nat) (p : Pick) (arg : Option Arg) (x x' : Cur) (d : Int) (g : Gen) (h : call P bits p arg x g = some (x', d))
    (hg : g = .skip ∨ g = .fieldRandom ∨ g = .fieldInput ∨ g = .aRandom ∨ g = .aInput ∨ g = .bRandom ∨ g = .bInput ∨ g = .aZero ∨ g = .aOne ∨ g = .bOne) :
    x'.order = x.order := by
  rcases hg with rfl | rfl | rfl | rfl | rfl | rfl | rfl | rfl | rfl | rfl
  all_goals simp only [call, Option.map_eq_some_iff, Option.some.injEq, Prod.mk.injEq] at h
  all_goals first
    | (obtain ⟨rfl, -⟩ := h; rfl)
    | (obtain ⟨_, _, rfl, -⟩ := h; rfl)

theorem act_crv (P : Pari) (c : Config) (h : Covered c) (p : Pick) (s : Nat) (h5 : 5 ≤ s) (hs : s < 9) (x x' : Cur) (d : Int)
    (ha : act P (plain c) p s x = some (x', d)) : x'.crv = x.crv := by
  unfold act at ha
  rw [Option.bind_eq_some_iff] at ha
  obtain ⟨g, hg, ha⟩ := ha
  refine call_keeps P _ p _ x x' d g ha ?_
  match s, h5, hs with
  | 5, _, _ =>
    rcases table_order (plain c) h.plain with ⟨_, t⟩ | ⟨_, _, t⟩ | ⟨_, _, _, t⟩ | ⟨_, _, _, ⟨_, _, t⟩ | t⟩ <;>
      simp only [stageOf, t, Option.bind_some, id, Option.some.injEq] at hg <;> subst hg <;> simp
  | 6, _, _ =>
    rcases table_gens (plain c) h.plain with ⟨_, t⟩ | ⟨_, _, t⟩ | ⟨_, _, t⟩ <;>
      simp only [stageOf, t, Option.bind_some, id, Option.some.injEq] at hg <;> subst hg <;> simp
  | 7, _, _ =>
    have t : (exhaustiveSetup (plain c)).gens.points = some (pointsChoice (plain c)) := rfl
    simp only [stageOf, t, Option.bind_some, id, Option.some.injEq] at hg
    subst hg
    unfold pointsChoice
    split
    · split <;> simp
    all_goals simp
  | 8, _, _ =>
    have t : (exhaustiveSetup (plain c)).gens.metadata = some (if (plain c).metadata then .metadata else .skip) := rfl
    simp only [stageOf, t, Option.bind_some, id, Option.some.injEq] at hg
    subst hg
    split <;> simp

theorem act_order (P : Pari) (c : Config) (h : Covered c) (p : Pick) (s : Nat) (hs : s < 4) (x x' : Cur) (d : Int)
    (ha : act P (plain c) p s x = some (x', d)) : x'.order = x.order := by
  unfold act at ha
  rw [Option.bind_eq_some_iff] at ha
  obtain ⟨g, hg, ha⟩ := ha
  refine call_order P _ p _ x x' d g ha ?_
  match s, hs with
  | 0, _ =>
    rcases table_seed (plain c) h.plain with ⟨_, t⟩ | ⟨t, _⟩
    · simp only [stageOf, t, Option.bind_some, id, Option.some.injEq] at hg; subst hg; simp
    · rw [show (plain c).seedAlgo = .none from h.algo] at t; cases t
  | 1, _ =>
    simp only [stageOf, table_field (plain c) h.plain, Option.bind_some, id, Option.some.injEq] at hg
    subst hg
    split <;> simp
  | 2, _ =>
    rcases table_a (plain c) h.plain with ⟨_, _, ⟨_, t⟩ | ⟨_, t⟩⟩ | ⟨_, _, t | t⟩ | ⟨_, t⟩ <;>
      simp only [stageOf, t, Option.bind_some, id, Option.some.injEq] at hg <;> subst hg <;> simp
  | 3, _ =>
    rcases table_b (plain c) h.plain with ⟨_, _, t⟩ | ⟨_, _, t | t⟩ | ⟨t', t⟩
    · simp only [stageOf, t, Option.bind_some, id, Option.some.injEq] at hg; subst hg; simp
    · simp only [stageOf, t, Option.bind_some, id, Option.some.injEq] at hg; subst hg; simp
    · simp only [stageOf, t, Option.bind_some, id, Option.some.injEq] at hg; subst hg; simp
    · rw [show (plain c).seedAlgo = .none from h.algo] at t'; cases t'

/-! ## The stored cardinality -/

theorem cached_none (P : Pari) : cached P none = P := rfl

/-- `order_gen_prime` counts afresh -/
theorem cached_prime (P : Pari) (c : Config) (h : Covered c) (hp : c.prime = true) (k : Option (Crv × Int)) (p : Pick) (x : Cur) :
    act (cached P k) (plain c) p 5 x = act P (plain c) p 5 x := by
  rcases table_order (plain c) h.plain with ⟨_, t⟩ | ⟨t, _⟩ | ⟨t, _⟩ | ⟨t, _⟩
  · simp only [act, stageOf, t, Option.bind_some, id, call, orderStage]
    rfl
  all_goals exact (no t hp).elim

/-! ## The invariant -/

/-- nothing fails once there is an order: no timer, no `--unique`, no `--cofactor`, no hex check, and no other failures -/
structure Calm (c : Config) (T : Nat → Pick) : Prop where
  unique : c.unique = false
  cofactor : c.cofactor = false
  hex : c.hexCheck = none
  cut : ∀ i, (T i).cut = none
  fail : ∀ i s, 6 ≤ s → (T i).fail s = none

/-- the curve at hand is a twist of one that was drawn -/
structure Twin (c : Config) (T : Nat → Pick) (tw : Nat → Crv → Crv) (s : Nat) (x : Cur) : Prop where
  inv : ∃ S : Nat → Pick, (∀ i f, Elem (out f.1) ((S i).elt f)) ∧ Whole.Inv (plain c) S s x
  of : ∃ E j, Drawn T E ∧ E.eqn.Δ ≠ 0 ∧ x.crv = some (tw j E)

/-- what is known at the beginning of a stage -/
structure Inv (c : Config) (T : Nat → Pick) (tw : Nat → Crv → Crv) (s : Nat) (w : W) : Prop where
  low : s ≤ 4 → Whole.Inv (plain c) T s w.base.cur
  high : 5 ≤ s → Twin c T tw s w.base.cur
  clean : c.prime = true ∨ (Calm c T ∧ (s ≤ 5 → w.base.cur.order = none) ∧ (s = 5 → w.cache = none))

/-- the curve has no seed, and no metadata unless asked for -/
theorem Inv.quiet {c : Config} (h : Covered c) {T : Nat → Pick} {tw : Nat → Crv → Crv} {s : Nat} {w : W} (hi : Inv c T tw s w) :
    (c.metadata = false → w.base.cur.info = []) ∧ w.base.cur.seed = none := by
  rcases Nat.lt_or_ge 4 s with hs | hs
  · obtain ⟨S, -, h1⟩ := (hi.high hs).inv
    exact ⟨h1.quiet, h1.noseed h.algo⟩
  · have h1 := hi.low hs
    exact ⟨h1.quiet, h1.noseed h.algo⟩

/-- the first two stages require little -/
theorem low_inv {c : Config} (h : Covered c) {T : Nat → Pick} {k : Nat} (hk : k ≤ 1) {x : Cur} (h1 : c.metadata = false → x.info = []) (h2 : x.seed = none) :
    Whole.Inv (plain c) T k x :=
  inv_low hk h1 (fun _ => h2) fun _ => ⟨fun h' => absurd h.algo h', fun b hb => by rw [h2] at hb; cases hb⟩

open Classical in
/-- calls that pick the given coefficients -/
noncomputable def shadow (T : Nat → Pick) (f : Fld) (a b : Elt) (i : Nat) : Pick :=
  { T 0 with randomField := f, typedField := f, elt := fun g => if g = f then (if i = 0 then a else b) else (T 0).elt g }

open Classical in
/-- the curve stage -/
theorem step_curve (c : Config) (h : Covered c) (T : Nat → Pick) (tw : Nat → Crv → Crv) (hT : TapeOk c T tw) (j : Nat) (x : Cur) (k : Option (Crv × Int))
    (hi : Whole.Inv (plain c) T 4 x) (x' : Cur) (k' : Option (Crv × Int)) (d : Int)
    (ha : curveAct (exhaustiveSetup c) (tw j) x k = some ((x', k'), d)) :
    (d = -3 ∧ x' = x ∧ k' = k) ∨ (d = 1 ∧ Twin c T tw 5 x' ∧ (x.order = none → x'.order = none ∧ k' = none)) := by
  unfold curveAct at ha
  rw [if_pos (table_twist c h)] at ha
  obtain ⟨f, a, b, h1, h2, h3, -, -⟩ := hi.ab (by omega)
  obtain ⟨c1, c2, c3⟩ := comes hi (by omega) h1 h2 h3
  obtain ⟨f', e1, hf, -⟩ := hi.field (by omega)
  rw [h1] at e1; cases e1
  have hkz : ¬ ((plain c).koblitz = true ∧ (plain c).seedAlgo = .none) := fun hk => no h.koblitz hk.1
  have h0 : (plain c).seedAlgo = .none := h.algo
  rw [ComesA, if_neg hkz, if_pos h0] at c2
  rw [ComesB, if_neg hkz, if_pos h0] at c3
  have hdr : Drawn T ⟨f, a, b⟩ := ⟨c1, c2, c3⟩
  unfold curveStage at ha
  simp only [h1, h2, h3] at ha
  by_cases hd : (Crv.mk f a b).eqn.Δ = 0
  · rw [if_pos hd] at ha
    cases ha
    exact Or.inl ⟨rfl, rfl, rfl⟩
  · rw [if_neg hd] at ha
    refine Or.inr ?_
    obtain ⟨a', b', hE, hA, hB, htw⟩ := hT.twist j _ hdr hd
    have hd' := (twist_sum _ _ _ _ _ htw hd).1
    have key : ∀ o, Twin c T tw 5 (replaced x (tw j ⟨f, a, b⟩) o) := by
      intro o
      refine ⟨⟨shadow T f a' b', fun i g => ?_, ?_⟩,
        ⟨f, a, b⟩, j, hdr, hd, rfl⟩
      · show Elem (out g.1) (if g = f then (if i = 0 then a' else b') else (T 0).elt g)
        split
        · rename_i hg
          subst hg
          split
          · exact hA
          · exact hB
        · exact (hT.picks 0).elt g
      · have hA' : ComesA (plain c) (shadow T f a' b') f a' := by
          rw [ComesA, if_neg hkz, if_pos h0]
          exact ⟨0, by simp [shadow]⟩
        have hB' : ComesB (plain c) (shadow T f a' b') f b' := by
          rw [ComesB, if_neg hkz, if_pos h0]
          exact ⟨1, by simp [shadow]⟩
        rw [hE]
        exact
          { quiet := hi.quiet
            noseed := fun _ => rfl
            seed := fun _ => ⟨fun h' => absurd h.algo h', fun b hb => by cases hb⟩
            field := fun _ => ⟨f, h1, hf, 0, Or.inl rfl⟩
            a := fun _ _ => ⟨f, a', h1, rfl, hA'⟩
            ab := fun _ => ⟨f, a', b', h1, rfl, rfl, hA', hB'⟩
            derived := fun _ h' => (by rw [h0] at h'; cases h')
            crv := fun _ => ⟨f, a', b', h1, rfl, rfl, rfl, hd'⟩
            order := fun h => absurd h (by omega)
            gens := fun h => absurd h (by omega)
            points := fun h => absurd h (by omega)
            info := fun h => absurd h (by omega) }
    cases ho : x.order with
    | none =>
      simp only [ho, Option.some.injEq, Prod.mk.injEq] at ha
      obtain ⟨⟨rfl, rfl⟩, rfl⟩ := ha
      exact ⟨rfl, key _, fun _ => ⟨rfl, rfl⟩⟩
    | some n =>
      simp only [ho, Option.some.injEq, Prod.mk.injEq] at ha
      obtain ⟨⟨rfl, rfl⟩, rfl⟩ := ha
      exact ⟨rfl, key _, fun h => by cases h⟩

/-- the stages before the curve -/
theorem act_low (P : Pari) (c : Config) (h : Covered c) (T : Nat → Pick) (i : Nat) (hp : (T i).Ok (plain c)) (s : Nat) (hs : s < 4) (x x' : Cur) (d : Int)
    (hi : Whole.Inv (plain c) T s x) (ha : act P (plain c) (T i) s x = some (x', d)) :
    d = 1 ∧ Whole.Inv (plain c) T (s + 1) x' ∧ x'.order = x.order := by
  have ho := act_order P c h (T i) s hs x x' d ha
  match s, hs with
  | 0, _ => obtain ⟨h1, h2⟩ := step_seed P _ h.plain T i hp x hi x' d ha; exact ⟨h1, h2, ho⟩
  | 1, _ => obtain ⟨h1, h2⟩ := step_field P _ h.plain T i hp x hi x' d ha; exact ⟨h1, h2, ho⟩
  | 2, _ => obtain ⟨h1, h2⟩ := step_a P _ h.plain T i x hi x' d ha; exact ⟨h1, h2, ho⟩
  | 3, _ =>
    have h0 : (plain c).seedAlgo = .none := h.algo
    obtain ⟨h1, h2⟩ := (step_b P _ h.plain T i x hi x' d ha).resolve_right fun h => by rw [h0] at h; cases h.1
    exact ⟨h1, h2, ho⟩

/-- the stages after the curve, when the stored cardinality does not matter -/
theorem act_high (P : Pari) (hP : P.Ok) (c : Config) (h : Covered c) (T : Nat → Pick) (tw : Nat → Crv → Crv) (hT : TapeOk c T tw) (i : Nat) (s : Nat)
    (h5 : 5 ≤ s) (hs : s < 9) (x x' : Cur) (d : Int) (hi : Twin c T tw s x) (ha : act P (plain c) (T i) s x = some (x', d)) :
    (d = 1 ∧ Twin c T tw (s + 1) x') ∨ ((s : Int) + d = 1 ∧ d ≤ 0 ∧ x' = x ∧ (s = 5 ∨ s = 6 ∧ (c.unique = true ∨ c.cofactor = true))) := by
  have hcrv := act_crv P c h (T i) s h5 hs x x' d ha
  obtain ⟨⟨S, hS, hi⟩, E, j, h1, h2, h3⟩ := hi
  have hright : ∀ E', x.crv = some E' → Order.SeaSpec ((T i).sea E') (Nat.card E'.Pt) ∧ Group.GensSpec E'.Pt ((T i).gens E') := by
    intro E' hE'
    rw [h3] at hE'
    cases hE'
    exact ⟨hT.sea i j E h1 h2, hT.gens i j E h1 h2⟩
  have up : ∀ s', Whole.Inv (plain c) S s' x' → Twin c T tw s' x' := fun s' hi' => ⟨⟨S, hS, hi'⟩, E, j, h1, h2, by rw [hcrv]; exact h3⟩
  match s, h5, hs with
  | 5, _, _ =>
    rcases step_order P hP _ h.plain S (T i) x hi x' d (fun E' hE' => (hright E' hE').1) ha with ⟨e, h4⟩ | ⟨rfl, h4⟩
    · exact Or.inl ⟨e, up _ h4⟩
    · exact Or.inr ⟨by decide, by decide, h4, Or.inl rfl⟩
  | 6, _, _ =>
    rcases step_gens P hP _ h.plain S (T i) x hi x' d (fun E' hE' => (hright E' hE').2) ha with ⟨e, h4⟩ | ⟨rfl, h4⟩
    · exact Or.inl ⟨e, up _ h4⟩
    · refine Or.inr ⟨by decide, by decide, h4, Or.inr ⟨rfl, ?_⟩⟩
      rcases table_gens (plain c) h.plain with ⟨t, _⟩ | ⟨_, t, _⟩ | ⟨_, _, t⟩
      · exact Or.inl t
      · exact Or.inr t
      · exfalso
        simp only [act, stageOf, t, Option.bind_some, id, call, gensStage, Option.bind_eq_some_iff, found, Option.some.injEq, Prod.mk.injEq] at ha
        obtain ⟨_, _, _, _, _, ha⟩ := ha
        cases ha
  | 7, _, _ =>
    obtain ⟨e, h4⟩ := step_points P hP _ S (T i) (hT.picks i) x hi x' d ha
    exact Or.inl ⟨e, up _ h4⟩
  | 8, _, _ =>
    obtain ⟨e, h4⟩ := step_metadata P _ S (T i) (hT.picks i) x hi x' d ha
    exact Or.inl ⟨e, up _ h4⟩

/-! ## The engine -/

open Engine (GenRes) in
theorem gen_cases (P : Pari) (c : Config) (h : Covered c) (s : Nat) (hs : s ≠ 4) (w w1 : W) (r : GenRes) (hg : (setup P c).gen s w = (w1, r)) :
    (∃ x, w.base.pick.cut = some x ∧ w1 = { w with base := { w.base.next with cur := x } } ∧ r = .timeout) ∨
    (∃ d, w.base.pick.fail s = some d ∧ w1 = { w with base := w.base.next } ∧ r = .ret d) ∨
    (∃ x d, act (if s = 5 then cached P w.cache else P) (plain c) w.base.pick s w.base.cur = some (x, d) ∧
      w1 = { w with base := { w.base.next with cur := x } } ∧ r = .ret d) ∨
    (w1 = { w with base := { w.base.next with ub := true } } ∧ r = .ret Engine.INT_MIN) := by
  change gen P c.bits (exhaustiveSetup c) s w = _ at hg
  unfold gen at hg
  rw [if_neg hs] at hg
  split at hg
  · cases hg
    exact Or.inr (Or.inr (Or.inr ⟨rfl, rfl⟩))
  simp only [gen_same _ c h s hs] at hg
  cases hr : (Whole.setup (if s = 5 then cached P w.cache else P) (plain c)).gen s w.base with
  | mk b r' =>
    rw [hr] at hg
    simp only [Prod.mk.injEq] at hg
    obtain ⟨rfl, rfl⟩ := hg
    rcases Whole.gen_cases _ (plain c) s w.base b r' hr with ⟨x, e1, rfl, e3⟩ | ⟨d, e1, rfl, e3⟩ | ⟨x, d, e1, rfl, e3⟩ | ⟨rfl, e3⟩
    · exact Or.inl ⟨x, e1, rfl, e3⟩
    · exact Or.inr (Or.inl ⟨d, e1, rfl, e3⟩)
    · exact Or.inr (Or.inr (Or.inl ⟨x, d, e1, rfl, e3⟩))
    · exact Or.inr (Or.inr (Or.inr ⟨rfl, e3⟩))

open Engine (GenRes) in
theorem gen_curve (P : Pari) (c : Config) (w w1 : W) (r : GenRes) (hg : (setup P c).gen 4 w = (w1, r)) :
    (∃ x, w.base.pick.cut = some x ∧ w1 = { w with base := { w.base.next with cur := x } } ∧ r = .timeout) ∨
    (∃ d, w.base.pick.fail 4 = some d ∧ w1 = { w with base := w.base.next } ∧ r = .ret d) ∨
    (∃ x k d, curveAct (exhaustiveSetup c) (w.tw w.base.pos) w.base.cur w.cache = some ((x, k), d) ∧
      w1 = { w with base := { w.base.next with cur := x }, cache := k } ∧ r = .ret d) ∨
    (w1 = { w with base := { w.base.next with ub := true } } ∧ r = .ret Engine.INT_MIN) := by
  change gen P c.bits (exhaustiveSetup c) 4 w = _ at hg
  unfold gen at hg
  rw [if_pos rfl] at hg
  cases h1 : w.base.pick.cut with
  | some x => rw [h1] at hg; cases hg; exact Or.inl ⟨x, rfl, rfl, rfl⟩
  | none =>
    rw [h1] at hg
    cases h2 : w.base.pick.fail 4 with
    | some d => simp only [h2] at hg; cases hg; exact Or.inr (Or.inl ⟨d, rfl, rfl, rfl⟩)
    | none =>
      simp only [h2] at hg
      cases h3 : curveAct (exhaustiveSetup c) (w.tw w.base.pos) w.base.cur w.cache with
      | none => rw [h3] at hg; cases hg; exact Or.inr (Or.inr (Or.inr ⟨rfl, rfl⟩))
      | some xd =>
        obtain ⟨⟨x, k⟩, d⟩ := xd
        rw [h3] at hg; cases hg; exact Or.inr (Or.inr (Or.inl ⟨x, k, d, rfl, rfl, rfl⟩))

theorem cleaned_keeps (P : Pari) (c : Config) (lo : Nat) : ∀ (hi : Nat) (w : W),
    (Engine.Spec.cleaned (setup P c) lo hi w).base.cur.info = w.base.cur.info ∧ (Engine.Spec.cleaned (setup P c) lo hi w).base.cur.seed = w.base.cur.seed ∧
    (Engine.Spec.cleaned (setup P c) lo hi w).base.cur.order = w.base.cur.order ∧
    (Engine.Spec.cleaned (setup P c) lo hi w).base.tape = w.base.tape ∧ (Engine.Spec.cleaned (setup P c) lo hi w).tw = w.tw := by
  intro hi
  induction hi with
  | zero => intro w; exact ⟨rfl, rfl, rfl, rfl, rfl⟩
  | succ i ih =>
    intro w
    unfold Engine.Spec.cleaned
    split
    · obtain ⟨h1, h2, h3, h4, h5⟩ := ih (((setup P c).unroll (i + 1)).getD id w)
      rw [h1, h2, h3, h4, h5]
      simp only [setup, Option.getD_some, unroll]
      unfold Whole.unroll
      split
      · omega
      all_goals exact ⟨rfl, rfl, rfl, trivial, trivial⟩
    · exact ⟨rfl, rfl, rfl, rfl, rfl⟩

theorem cleaned_self (P : Pari) (c : Config) (s : Nat) (w : W) : Engine.Spec.cleaned (setup P c) s s w = w := by
  cases s with
  | zero => rfl
  | succ s => unfold Engine.Spec.cleaned; rw [if_neg (by omega)]

/-- the calls to come behave -/
def Behaves (c : Config) (T : Nat → Pick) (tw : Nat → Crv → Crv) (w : W) : Prop := w.base.tape = T ∧ w.tw = tw ∧ TapeOk c T tw

/-- the generators, all in one: what a positive return value means, and what the others do -/
theorem gen_ok (P : Pari) (hP : P.Ok) (c : Config) (h : Covered c) (T : Nat → Pick) (tw : Nat → Crv → Crv) (s : Nat) (hs : s < 9) (w w1 : W)
    (hi : Inv c T tw s w) (hb : Behaves c T tw w) (r : Engine.GenRes) (hg : (setup P c).gen s w = (w1, r)) :
    Behaves c T tw w1 ∧ ((r = .timeout ∧ c.prime = true ∧ (c.metadata = false → w1.base.cur.info = []) ∧ w1.base.cur.seed = none) ∨
      (∃ d, r = .ret d ∧ d ≤ 0 ∧ (0 ≤ (s : Int) + d → ((s : Int) + d ≤ 1 ∨ d = 0) ∧ w1.base.cur = w.base.cur ∧ w1.cache = w.cache ∧
        (c.prime = true ∨ s ≤ 5))) ∨
      (r = .ret 1 ∧ Inv c T tw (s + 1) w1)) := by
  obtain ⟨rfl, rfl, hT⟩ := hb
  have hb : Behaves c w.base.tape w.tw w := ⟨rfl, rfl, hT⟩
  have hp : w.base.pick.Ok (plain c) := hT.picks w.base.pos
  have hcut : ∀ x, w.base.pick.cut = some x → c.prime = true ∧ (c.metadata = false → x.info = []) ∧ x.seed = none := by
    intro x hx
    refine ⟨?_, (hp.cut x hx).1, (hp.cut x hx).2 h.algo⟩
    rcases hi.clean with hc | ⟨hc, -⟩
    · exact hc
    · have := hc.cut w.base.pos
      change w.base.pick.cut = none at this
      rw [hx] at this; cases this
  have hfail : ∀ d, w.base.pick.fail s = some d → d ≤ 0 ∧ (0 ≤ (s : Int) + d → ((s : Int) + d ≤ 1 ∨ d = 0) ∧ (c.prime = true ∨ s ≤ 5)) := by
    intro d hd
    obtain ⟨h1, h2⟩ := failures_spec s d (hp.fail s d hd)
    refine ⟨h1, fun h0 => ⟨h2 h0, ?_⟩⟩
    rcases hi.clean with hc | ⟨hc, -⟩
    · exact Or.inl hc
    · refine Or.inr (Nat.le_of_not_lt fun hs6 => ?_)
      have := hc.fail w.base.pos s hs6
      change w.base.pick.fail s = none at this
      rw [hd] at this; cases this
  by_cases h4 : s = 4
  · subst h4
    rcases gen_curve P c w w1 r hg with ⟨x, e1, rfl, e2⟩ | ⟨d, e1, rfl, e2⟩ | ⟨x, k, d, e1, rfl, e2⟩ | ⟨rfl, e2⟩
    · obtain ⟨g1, g2, g3⟩ := hcut x e1
      exact ⟨hb, Or.inl ⟨e2, g1, g2, g3⟩⟩
    · obtain ⟨g1, g2⟩ := hfail d e1
      exact ⟨hb, Or.inr (Or.inl ⟨d, e2, g1, fun h0 => ⟨(g2 h0).1, rfl, rfl, (g2 h0).2⟩⟩)⟩
    · rcases step_curve c h _ _ hT _ _ _ (hi.low (by omega)) _ _ _ e1 with ⟨rfl, rfl, rfl⟩ | ⟨rfl, g1, g2⟩
      · exact ⟨hb, Or.inr (Or.inl ⟨-3, e2, by decide, fun _ => ⟨Or.inl (by decide), rfl, rfl, Or.inr (by omega)⟩⟩)⟩
      · refine ⟨hb, Or.inr (Or.inr ⟨e2, fun h => absurd h (by omega), fun _ => g1, ?_⟩)⟩
        rcases hi.clean with hc | ⟨hc, h5, -⟩
        · exact Or.inl hc
        · exact Or.inr ⟨hc, fun _ => (g2 (h5 (by omega))).1, fun _ => (g2 (h5 (by omega))).2⟩
    · exact ⟨hb, Or.inr (Or.inl ⟨_, e2, by decide, fun h0 => by simp [Engine.INT_MIN] at h0⟩)⟩
  · rcases gen_cases P c h s h4 w w1 r hg with ⟨x, e1, rfl, e2⟩ | ⟨d, e1, rfl, e2⟩ | ⟨x, d, e1, rfl, e2⟩ | ⟨rfl, e2⟩
    · obtain ⟨g1, g2, g3⟩ := hcut x e1
      exact ⟨hb, Or.inl ⟨e2, g1, g2, g3⟩⟩
    · obtain ⟨g1, g2⟩ := hfail d e1
      exact ⟨hb, Or.inr (Or.inl ⟨d, e2, g1, fun h0 => ⟨(g2 h0).1, rfl, rfl, (g2 h0).2⟩⟩)⟩
    · have ha : act P (plain c) w.base.pick s w.base.cur = some (x, d) := by
        by_cases h5 : s = 5
        · subst h5
          rw [if_pos rfl] at e1
          rcases hi.clean with hc | ⟨-, -, hc⟩
          · rw [cached_prime P c h hc] at e1; exact e1
          · rw [hc rfl, cached_none] at e1; exact e1
        · rw [if_neg h5] at e1; exact e1
      rcases Nat.lt_or_ge s 4 with hs4 | hs4
      · obtain ⟨rfl, g1, g2⟩ := act_low P c h w.base.tape w.base.pos hp s hs4 _ _ _ (hi.low (by omega)) ha
        refine ⟨hb, Or.inr (Or.inr ⟨e2, fun _ => g1, fun h => absurd h (by omega), ?_⟩)⟩
        rcases hi.clean with hc | ⟨hc, h5, -⟩
        · exact Or.inl hc
        · exact Or.inr ⟨hc, fun _ => by rw [g2]; exact h5 (by omega), fun h => absurd h (by omega)⟩
      · rcases act_high P hP c h _ _ hT w.base.pos s (by omega) hs _ _ _ (hi.high (by omega)) ha with ⟨rfl, g1⟩ | ⟨g1, g2, rfl, g3⟩
        · refine ⟨hb, Or.inr (Or.inr ⟨e2, fun h => absurd h (by omega), fun _ => g1, ?_⟩)⟩
          rcases hi.clean with hc | ⟨hc, -, -⟩
          · exact Or.inl hc
          · exact Or.inr ⟨hc, fun h => absurd h (by omega), fun h => absurd h (by omega)⟩
        · refine ⟨hb, Or.inr (Or.inl ⟨d, e2, g2, fun _ => ⟨Or.inl (by omega), rfl, rfl, ?_⟩⟩)⟩
          rcases hi.clean with hc | ⟨hc, -, -⟩
          · exact Or.inl hc
          · rcases g3 with g3 | ⟨-, g3 | g3⟩
            · exact Or.inr (by omega)
            · exact (no hc.unique g3).elim
            · exact (no hc.cofactor g3).elim
    · exact ⟨hb, Or.inr (Or.inl ⟨_, e2, by simp [Engine.INT_MIN], fun h0 => by simp [Engine.INT_MIN] at h0; omega⟩)⟩

open Engine Engine.Spec in
theorem keep_ok (P : Pari) (hP : P.Ok) (c : Config) (h : Covered c) (T : Nat → Pick) (tw : Nat → Crv → Crv) (s : Nat) (w : W) (d : Int) (w' : W) (hs : s < 9)
    (hi : Inv c T tw s w) (hb : Behaves c T tw w) (hsucc : Succeeds (setup P c) s w d w') :
    d = 1 ∧ Inv c T tw (s + 1) w' ∧ Behaves c T tw w' := by
  obtain ⟨w1, h1, h2, h3⟩ := hsucc
  obtain ⟨hb1, ⟨h4, -⟩ | ⟨d', h4, h5, -⟩ | ⟨h4, h5⟩⟩ := gen_ok P hP c h T tw s hs w w1 hi hb _ h1
  · cases h4
  · cases h4; omega
  · cases h4
    refine ⟨rfl, ?_⟩
    rw [table_checks P c h] at h3
    by_cases hs4 : s = 4
    · rw [if_pos hs4] at h3
      subst hs4
      cases h3 with
      | cons h8 h9 =>
        cases h9
        obtain ⟨E, j, -, -, hE⟩ := (h5.high (by omega)).of
        simp only [check, Whole.check, hE]
        exact ⟨h5, hb1⟩
    · rw [if_neg hs4] at h3
      by_cases hs7 : s = 7 ∧ c.hexCheck.isSome
      · rw [if_pos hs7] at h3
        cases h3 with
        | cons h8 h9 =>
          cases h9
          exact ⟨⟨h5.low, h5.high, h5.clean⟩, hb1⟩
      · rw [if_neg hs7] at h3
        cases h3
        exact ⟨h5, hb1⟩

open Engine Engine.Spec in
theorem keep_fail (P : Pari) (hP : P.Ok) (c : Config) (h : Covered c) (T : Nat → Pick) (tw : Nat → Crv → Crv) (s : Nat) (w : W) (d : Int) (w' : W) (hs : s < 9)
    (hi : Inv c T tw s w) (hb : Behaves c T tw w) (hf : Fails (setup P c) 0 s w d w') :
    Behaves c T tw w' ∧ (0 ≤ (s : Int) + d → (∃ k : Nat, k ≤ 1 ∧ (s : Int) + d = k ∧ (c.metadata = false → w'.base.cur.info = []) ∧ w'.base.cur.seed = none ∧
      (c.prime = true ∨ (Calm c T ∧ w'.base.cur.order = none))) ∨ (d = 0 ∧ w'.base.cur = w.base.cur ∧ w'.cache = w.cache)) := by
  obtain ⟨q1, q2⟩ := hi.quiet h
  rcases hf with ⟨h1, rfl⟩ | ⟨h1, h2⟩ | ⟨w1, g, h1, h2, h3⟩
  · obtain ⟨hb1, ⟨-, h5, h6, h7⟩ | ⟨d', h4, -⟩ | ⟨h4, -⟩⟩ := gen_ok P hP c h T tw s hs w w' hi hb _ h1
    · exact ⟨hb1, fun _ => Or.inl ⟨0, by omega, by omega, h6, h7, Or.inl h5⟩⟩
    · cases h4
    · cases h4
  · obtain ⟨hb1, ⟨h4, -⟩ | ⟨d', h4, h5, h6⟩ | ⟨h4, -⟩⟩ := gen_ok P hP c h T tw s hs w w' hi hb _ h1
    · cases h4
    · cases h4
      refine ⟨hb1, fun h0 => ?_⟩
      obtain ⟨g1, g2, g3, g4⟩ := h6 h0
      by_cases hd : d = 0
      · exact Or.inr ⟨hd, g2, g3⟩
      · refine Or.inl ⟨((s : Int) + d).toNat, by omega, by omega, by rw [g2]; exact q1, by rw [g2]; exact q2, ?_⟩
        rcases hi.clean with hc | ⟨hc, h7, -⟩
        · exact Or.inl hc
        · rcases g4 with g4 | g4
          · exact Or.inl g4
          · exact Or.inr ⟨hc, by rw [g2]; exact h7 g4⟩
    · cases h4; omega
  · obtain ⟨hb1, ⟨h4, -⟩ | ⟨d', h4, h5, -⟩ | ⟨h4, h5⟩⟩ := gen_ok P hP c h T tw s hs w w1 hi hb _ h1
    · cases h4
    · cases h4; omega
    · cases h4
      obtain ⟨q1, q2⟩ := h5.quiet h
      rw [table_checks P c h] at h3
      by_cases hs4 : s = 4
      · rw [if_pos hs4] at h3
        subst hs4
        obtain ⟨S, -, hinv⟩ := (h5.high (by omega)).inv
        obtain ⟨f, a, b, -, -, -, hE, hD⟩ := hinv.crv (by omega)
        cases h3 with
        | here h10 =>
          simp only [check, Whole.check, hE] at h10
          rw [if_neg hD] at h10
          omega
        | later _ h11 => cases h11
      · rw [if_neg hs4] at h3
        by_cases hs7 : s = 7 ∧ c.hexCheck.isSome
        · obtain ⟨rfl, hx⟩ := hs7
          rw [if_pos ⟨rfl, hx⟩] at h3
          have hprime : c.prime = true := by
            rcases hi.clean with hc | ⟨hc, -⟩
            · exact hc
            · rw [hc.hex] at hx; cases hx
          cases h3 with
          | here h10 =>
            simp only [check, Whole.check] at h10 ⊢
            refine ⟨hb1, fun _ => ?_⟩
            cases hv : w1.base.pick.verdict with
            | none => rw [hv] at h10; simp at h10
            | some v =>
              obtain ⟨e1, e2, hT⟩ := hb1
              subst e1
              obtain rfl := (hT.picks w1.base.pos).verdict v hv
              exact Or.inl ⟨1, by omega, by decide, q1, q2, Or.inl hprime⟩
          | later _ h11 => cases h11
        · rw [if_neg hs7] at h3
          cases h3

/-- going back -/
theorem back (P : Pari) (hP : P.Ok) (c : Config) (h : Covered c) (T : Nat → Pick) (tw : Nat → Crv → Crv) (s : Nat) (w : W) (d : Int) (w' : W) (hs : s < 9)
    (hi : Inv c T tw s w) (hb : Behaves c T tw w) (hf : Engine.Spec.Fails (setup P c) 0 s w d w') (h0 : 0 ≤ (s : Int) + d) :
    max ((s : Int) + d).toNat 0 ≤ 9 ∧ Inv c T tw (max ((s : Int) + d).toNat 0) (Engine.Spec.cleaned (setup P c) (max ((s : Int) + d).toNat 0) s w') ∧
      Behaves c T tw (Engine.Spec.cleaned (setup P c) (max ((s : Int) + d).toNat 0) s w') := by
  obtain ⟨h1, h2⟩ := keep_fail P hP c h T tw s w d w' hs hi hb hf
  rcases h2 h0 with ⟨k, hk, e, h3, h4, h5⟩ | ⟨rfl, h3, h4⟩
  · have e' : max ((s : Int) + d).toNat 0 = k := by omega
    rw [e']
    obtain ⟨e1, e2, e3, e4, e5⟩ := cleaned_keeps P c k s w'
    refine ⟨by omega, ⟨fun _ => low_inv h hk (e1 ▸ h3) (e2 ▸ h4), fun h => absurd h (by omega), ?_⟩, by rw [e4]; exact h1.1, by rw [e5]; exact h1.2.1, h1.2.2⟩
    rcases h5 with h5 | ⟨h5, h6⟩
    · exact Or.inl h5
    · exact Or.inr ⟨h5, fun _ => by rw [e3]; exact h6, fun h => absurd h (by omega)⟩
  · have e' : max ((s : Int) + 0).toNat 0 = s := by omega
    rw [e', cleaned_self]
    refine ⟨by omega, ⟨fun hs => by rw [h3]; exact hi.low hs, fun hs => by rw [h3]; exact hi.high hs, ?_⟩, h1⟩
    rw [h3, h4]
    exact hi.clean

/-- the beginning -/
theorem start_inv (c : Config) (h : Covered c) (T : Nat → Pick) (tw : Nat → Crv → Crv) (hc : c.prime = true ∨ Calm c T) (w : W) : Inv c T tw 0 (fresh w) := by
  refine ⟨fun _ => low_inv h (by omega) (fun _ => rfl) rfl, fun h => absurd h (by omega), ?_⟩
  rcases hc with hc | hc
  · exact Or.inl hc
  · exact Or.inr ⟨hc, fun _ => rfl, fun _ => rfl⟩

/-- **the search**: if it succeeds, the curve is complete and a twist -/
theorem search (P : Pari) (hP : P.Ok) (c : Config) (h : Covered c) (T : Nat → Pick) (tw : Nat → Crv → Crv) (hc : c.prime = true ∨ Calm c T) (fuel : Nat) (w : W)
    (hb : Behaves c T tw w) (r : Int) (st : Engine.St W) (hg : Engine.gen (setup P c) 0 9 fuel (fresh w) = some (r, st)) :
    Behaves c T tw st.w ∧ ((r = 1 ∧ Twin c T tw 9 st.w.base.cur) ∨ r = 0) := by
  unfold Engine.gen Engine.genRetry at hg
  rw [if_neg (by decide), if_neg (by decide)] at hg
  have hstart := start_inv c h T tw hc w
  have := Engine.loop_inv (setup P c) 0 9 0 (fun s w => s ≤ 9 ∧ Inv c T tw s w ∧ Behaves c T tw w) (fun w => Behaves c T tw w)
    (by
      rintro s w d w' - hs ⟨-, hi, hb⟩ hsucc
      obtain ⟨rfl, h1, h2⟩ := keep_ok P hP c h T tw s w d w' hs hi hb hsucc
      exact ⟨by simp only [Int.toNat_one]; omega, h1, h2⟩)
    (by
      rintro s w d w' - hs ⟨-, hi, hb⟩ hf h0
      exact back P hP c h T tw s w d w' hs hi hb hf h0)
    (by
      rintro s w d w' - hs ⟨-, hi, hb⟩ hf
      exact (keep_fail P hP c h T tw s w d w' hs hi hb hf).1)
    fuel _ (Nat.zero_le _) ⟨Nat.zero_le _, hstart, hb⟩ r st hg
  rcases this with ⟨rfl, h1, h2, h3, h4⟩ | ⟨rfl, h1⟩
  · have : st.state = 9 := by omega
    rw [this] at h3
    exact ⟨h4, Or.inl ⟨rfl, h3.high (by omega)⟩⟩
  · exact ⟨h1, Or.inr rfl⟩

end Ecgen.Twisted
