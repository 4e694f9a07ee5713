import Verif.Whole.Stages
import Verif.Engine.Reach

/-!
# The search keeps what it has established
-/

namespace Ecgen.Whole

open Output Output.Spec Cli

/-- the configurations that are covered: the default method and `--ansi`; a Koblitz curve over a prime field only if its bit size is not one of the
table of binary orders (C25) -/
structure Covered (c : Config) : Prop where
  algo : (c.seedAlgo = .none ∧ c.method = 0) ∨ (c.seedAlgo = .ansi ∧ c.method = METHOD_SEED)
  value : c.koblitzValue = 0 ∨ c.koblitzValue = 1
  one : ¬ (c.prime = true ∧ c.cofactor = true) ∧ ¬ (c.prime = true ∧ c.smooth = true) ∧ ¬ (c.smooth = true ∧ c.cofactor = true)
  koblitz : c.koblitz = true → c.seedAlgo = .none → c.field = FIELD_PRIME → c.prime = false → c.cofactor = false → c.smooth = false →
    Koblitz.getOrder c.bits c.koblitzValue.toNat = none

/-- what is known of the curve at the beginning of a stage -/
structure Inv (c : Config) (T : Nat → Pick) (s : Nat) (x : Cur) : Prop where
  quiet : c.metadata = false → x.info = []
  noseed : c.seedAlgo = .none → x.seed = none
  seed : 1 ≤ s → (c.seedAlgo ≠ .none → x.seed.isSome) ∧ ∀ b, x.seed = some b → b.WF ∧ b.bitlen ≠ 0 ∧ ∃ j, b = (T j).seed
  field : 2 ≤ s → ∃ f, x.field = some f ∧ FieldAsked c f.1 ∧ ComesField T f
  a : 3 ≤ s → c.seedAlgo = .none → ∃ f e, x.field = some f ∧ x.a = some e ∧ ComesA c T f e
  ab : 4 ≤ s → ∃ f a b, x.field = some f ∧ x.a = some a ∧ x.b = some b ∧ ComesA c T f a ∧ ComesB c T f b
  derived : 4 ≤ s → c.seedAlgo = .ansi → ∃ i j f a b, x.seed = some (T j).seed ∧ x.field = some f ∧ x.a = some a ∧ x.b = some b ∧
    (T i).ansi f (T j).seed = .coeffs a b
  crv : 5 ≤ s → ∃ f a b, x.field = some f ∧ x.a = some a ∧ x.b = some b ∧ x.crv = some ⟨f, a, b⟩ ∧ (Crv.mk f a b).eqn.Δ ≠ 0
  order : 6 ≤ s → ∃ E, x.crv = some E ∧ x.order = some (Nat.card E.Pt) ∧ OrderAsked c (Nat.card E.Pt)
  gens : 7 ≤ s → ∃ E l, x.crv = some E ∧ x.gens = some ⟨E, l⟩ ∧ GensKnown E.Pt c (l.map Group.Sub.gen) ∧ (s = 7 → ∀ g ∈ l, g.points = [])
  points : 8 ≤ s → ∃ E l, x.gens = some ⟨E, l⟩ ∧ ((∀ g ∈ l, g.gen.point ≠ 0) → PointsKnown c l)
  info : 9 ≤ s → (∀ i ∈ x.info, i.1 ∈ Parson.metaNames) ∧ (x.info.map (·.1)).Nodup

/-- the first two stages require little -/
theorem inv_low {c : Config} {T : Nat → Pick} {s : Nat} {x : Cur} (hs : s ≤ 1) (h1 : c.metadata = false → x.info = []) (h2 : c.seedAlgo = .none → x.seed = none)
    (h3 : s = 1 → (c.seedAlgo ≠ .none → x.seed.isSome) ∧ ∀ b, x.seed = some b → b.WF ∧ b.bitlen ≠ 0 ∧ ∃ j, b = (T j).seed) : Inv c T s x where
  quiet := h1
  noseed := h2
  seed h := h3 (by omega)
  field h := absurd h (by omega)
  a h := absurd h (by omega)
  ab h := absurd h (by omega)
  derived h := absurd h (by omega)
  crv h := absurd h (by omega)
  order h := absurd h (by omega)
  gens h := absurd h (by omega)
  points h := absurd h (by omega)
  info h := absurd h (by omega)

/-- the generator of a stage -/
noncomputable def act (P : Pari) (c : Config) (p : Pick) (s : Nat) (x : Cur) : Option (Cur × Int) :=
  ((stageOf (exhaustiveSetup c).gens s).bind id).bind (call P c.bits p ((stageOf (exhaustiveSetup c).genArgs s).bind id) x)

/-! ## The tables -/

theorem table_seed (c : Config) (h : Covered c) :
    (c.seedAlgo = .none ∧ (exhaustiveSetup c).gens.seed = some .skip) ∨
    (c.seedAlgo = .ansi ∧ ∃ g, (exhaustiveSetup c).gens.seed = some g ∧ (g = .ansiSeedArgument ∨ g = .ansiSeedRandom ∨ g = .ansiSeedInput)) := by
  rcases h.algo with ⟨h1, h2⟩ | ⟨h1, h2⟩
  · exact Or.inl ⟨h1, by simp [exhaustiveSetup, ginit, ginitMethod, h1, h2, METHOD_FAMILY]; split <;> rfl⟩
  · refine Or.inr ⟨h1, (seedChoice c .ansiSeedArgument .ansiSeedRandom .ansiSeedInput).1, by simp [exhaustiveSetup, ginit, ginitMethod, h1], ?_⟩
    unfold seedChoice
    split
    · exact Or.inl rfl
    · split
      · exact Or.inr (Or.inl rfl)
      · exact Or.inr (Or.inr rfl)

theorem table_field (c : Config) (h : Covered c) :
    (exhaustiveSetup c).gens.field = some (if has c.random RANDOM_FIELD then .fieldRandom else .fieldInput) := by
  rcases h.algo with ⟨h1, h2⟩ | ⟨h1, h2⟩
  · simp only [exhaustiveSetup, ginit, ginitMethod, h1, h2, METHOD_FAMILY]; cases c.koblitz <;> rfl
  · simp [exhaustiveSetup, ginit, ginitMethod, h1]

theorem table_a (c : Config) (h : Covered c) :
    (c.seedAlgo = .none ∧ c.koblitz = true ∧ ((c.koblitzValue = 0 ∧ (exhaustiveSetup c).gens.a = some .aZero) ∨
      (c.koblitzValue = 1 ∧ (exhaustiveSetup c).gens.a = some .aOne))) ∨
    (c.seedAlgo = .none ∧ c.koblitz = false ∧ ((exhaustiveSetup c).gens.a = some .aRandom ∨ (exhaustiveSetup c).gens.a = some .aInput)) ∨
    (c.seedAlgo = .ansi ∧ (exhaustiveSetup c).gens.a = some .skip) := by
  rcases h.algo with ⟨h1, h2⟩ | ⟨h1, h2⟩
  · cases hk : c.koblitz
    · refine Or.inr (Or.inl ⟨h1, rfl, ?_⟩)
      simp only [exhaustiveSetup, ginit, ginitMethod, h1, h2, METHOD_FAMILY, hk]
      cases has c.random RANDOM_A
      · exact Or.inr rfl
      · exact Or.inl rfl
    · refine Or.inl ⟨h1, rfl, ?_⟩
      simp only [exhaustiveSetup, ginit, ginitMethod, h1, h2, METHOD_FAMILY, hk]
      rcases h.value with h3 | h3
      · exact Or.inl ⟨h3, by rw [h3]; rfl⟩
      · exact Or.inr ⟨h3, by rw [h3]; rfl⟩
  · exact Or.inr (Or.inr ⟨h1, by simp [exhaustiveSetup, ginit, ginitMethod, h1]⟩)

theorem table_b (c : Config) (h : Covered c) :
    (c.seedAlgo = .none ∧ c.koblitz = true ∧ (exhaustiveSetup c).gens.b = some .bOne) ∨
    (c.seedAlgo = .none ∧ c.koblitz = false ∧ ((exhaustiveSetup c).gens.b = some .bRandom ∨ (exhaustiveSetup c).gens.b = some .bInput)) ∨
    (c.seedAlgo = .ansi ∧ (exhaustiveSetup c).gens.b = some .ansiEquation) := by
  rcases h.algo with ⟨h1, h2⟩ | ⟨h1, h2⟩
  · cases hk : c.koblitz
    · refine Or.inr (Or.inl ⟨h1, rfl, ?_⟩)
      simp only [exhaustiveSetup, ginit, ginitMethod, h1, h2, METHOD_FAMILY, hk]
      cases has c.random RANDOM_B
      · exact Or.inr rfl
      · exact Or.inl rfl
    · refine Or.inl ⟨h1, rfl, ?_⟩
      simp only [exhaustiveSetup, ginit, ginitMethod, h1, h2, METHOD_FAMILY, hk]
      rfl
  · exact Or.inr (Or.inr ⟨h1, by simp [exhaustiveSetup, ginit, ginitMethod, h1]⟩)

theorem table_curve (c : Config) (h : Covered c) : (exhaustiveSetup c).gens.curve = some .curveAny := by
  rcases h.algo with ⟨h1, h2⟩ | ⟨h1, h2⟩ <;> simp [exhaustiveSetup, ginit, h2, METHOD_TWIST, METHOD_SEED]

theorem table_order (c : Config) (h : Covered c) :
    (c.prime = true ∧ (exhaustiveSetup c).gens.order = some .orderPrime) ∨
    (c.prime = false ∧ c.cofactor = true ∧ (exhaustiveSetup c).gens.order = some .orderCofactor) ∨
    (c.prime = false ∧ c.cofactor = false ∧ c.smooth = true ∧ (exhaustiveSetup c).gens.order = some .orderSmooth) ∨
    (c.prime = false ∧ c.cofactor = false ∧ c.smooth = false ∧
      ((c.koblitz = true ∧ c.seedAlgo = .none ∧ (exhaustiveSetup c).gens.order = some .orderKoblitz) ∨
        (exhaustiveSetup c).gens.order = some .orderAny)) := by
  rcases h.algo with ⟨h1, h2⟩ | ⟨h1, h2⟩
  · simp only [exhaustiveSetup, ginit, ginitMethod, h1, h2, METHOD_FAMILY, orderChoiceKoblitz]
    cases c.prime <;> cases c.cofactor <;> cases c.smooth <;> cases c.koblitz <;> simp
  · simp only [exhaustiveSetup, ginit, ginitMethod, h1, orderChoice]
    cases c.prime <;> cases c.cofactor <;> cases c.smooth <;> simp

theorem table_gens (c : Config) (h : Covered c) :
    (c.unique = true ∧ (exhaustiveSetup c).gens.gens = some .gensOne) ∨
    (c.unique = false ∧ c.cofactor = true ∧ (exhaustiveSetup c).gens.gens = some .gensCofactor) ∨
    (c.unique = false ∧ c.cofactor = false ∧ (exhaustiveSetup c).gens.gens = some .gensAny) := by
  rcases h.algo with ⟨h1, h2⟩ | ⟨h1, h2⟩
  · simp only [exhaustiveSetup, ginit, ginitMethod, h1, h2, METHOD_FAMILY, gensChoice]
    cases c.unique <;> cases c.cofactor <;> simp
  · simp only [exhaustiveSetup, ginit, ginitMethod, h1, gensChoice]
    cases c.unique <;> cases c.cofactor <;> simp

/-! ## The stages -/

theorem no {b : Bool} (h : b = false) (h' : b = true) : False := by rw [h] at h'; cases h'

theorem step_seed (P : Pari) (c : Config) (h : Covered c) (T : Nat → Pick) (i : Nat) (hp : (T i).Ok c) (x : Cur) (hi : Inv c T 0 x) (x' : Cur) (d : Int)
    (ha : act P c (T i) 0 x = some (x', d)) : d = 1 ∧ Inv c T 1 x' := by
  rcases table_seed c h with ⟨h1, h2⟩ | ⟨h1, g, h2, h3⟩
  · simp only [act, stageOf, h2, Option.bind_some, id, call, Option.some.injEq, Prod.mk.injEq] at ha
    obtain ⟨rfl, rfl⟩ := ha
    exact ⟨rfl, inv_low (by decide) hi.quiet hi.noseed fun _ => ⟨fun h => absurd h1 h, fun b hb => by rw [hi.noseed h1] at hb; cases hb⟩⟩
  · have : act P c (T i) 0 x = some ({ x with seed := some (T i).seed }, 1) := by
      rcases h3 with rfl | rfl | rfl <;> simp only [act, stageOf, h2, Option.bind_some, id, call]
    rw [this] at ha
    cases ha
    exact ⟨rfl, inv_low (by decide) hi.quiet (fun h => by rw [h1] at h; cases h) fun _ => ⟨fun _ => rfl, fun b hb => by cases hb; exact ⟨hp.seed.1, hp.seed.2, i, rfl⟩⟩⟩

theorem step_field (P : Pari) (c : Config) (h : Covered c) (T : Nat → Pick) (i : Nat) (hp : (T i).Ok c) (x : Cur) (hi : Inv c T 1 x) (x' : Cur) (d : Int)
    (ha : act P c (T i) 1 x = some (x', d)) : d = 1 ∧ Inv c T 2 x' := by
  have key : ∀ f : Fld, FieldAsked c f.1 → ComesField T f → Inv c T 2 { x with field := some f } := fun f hf hf' =>
    { quiet := hi.quiet
      noseed := hi.noseed
      seed := fun _ => hi.seed (by omega)
      field := fun _ => ⟨f, rfl, hf, hf'⟩
      a := fun h => absurd h (by omega)
      ab := fun h => absurd h (by omega)
      derived := fun h => absurd h (by omega)
      crv := fun h => absurd h (by omega)
      order := fun h => absurd h (by omega)
      gens := fun h => absurd h (by omega)
      points := fun h => absurd h (by omega)
      info := fun h => absurd h (by omega) }
  have ht := table_field c h
  cases hr : has c.random RANDOM_FIELD with
  | true =>
    rw [hr] at ht
    simp only [act, stageOf, ht, Option.bind_some, id, if_true, call, Option.some.injEq, Prod.mk.injEq] at ha
    obtain ⟨rfl, rfl⟩ := ha
    exact ⟨rfl, key _ hp.randomField ⟨i, Or.inl rfl⟩⟩
  | false =>
    rw [hr] at ht
    simp only [act, stageOf, ht, Option.bind_some, id, Bool.false_eq_true, if_false, call, Option.some.injEq, Prod.mk.injEq] at ha
    obtain ⟨rfl, rfl⟩ := ha
    refine ⟨rfl, key _ ?_ ⟨i, Or.inr rfl⟩⟩
    have hf := hp.typedField
    have h0 : ¬ c.random &&& 2 ≠ 0 := by
      unfold has RANDOM_FIELD at hr
      exact of_decide_eq_false hr
    revert hf
    cases (T i).typedField.1 with
    | prime q => exact fun hf => ⟨hf.1, fun h => absurd h h0, hf.2.2⟩
    | binary m e1 e2 e3 => exact id

theorem step_a (P : Pari) (c : Config) (h : Covered c) (T : Nat → Pick) (i : Nat) (x : Cur) (hi : Inv c T 2 x) (x' : Cur) (d : Int)
    (ha : act P c (T i) 2 x = some (x', d)) : d = 1 ∧ Inv c T 3 x' := by
  obtain ⟨f, hf, hq⟩ := hi.field (by omega)
  have key : ∀ e : Elt, ComesA c T f e → Inv c T 3 { x with a := some e } := fun e he =>
    { quiet := hi.quiet
      noseed := hi.noseed
      seed := fun _ => hi.seed (by omega)
      field := fun _ => ⟨f, hf, hq⟩
      a := fun _ _ => ⟨f, e, hf, rfl, he⟩
      ab := fun h => absurd h (by omega)
      derived := fun h => absurd h (by omega)
      crv := fun h => absurd h (by omega)
      order := fun h => absurd h (by omega)
      gens := fun h => absurd h (by omega)
      points := fun h => absurd h (by omega)
      info := fun h => absurd h (by omega) }
  rcases table_a c h with ⟨h1, h2, ⟨h3, h4⟩ | ⟨h3, h4⟩⟩ | ⟨h1, h2, h4⟩ | ⟨h1, h4⟩
  · simp only [act, stageOf, h4, Option.bind_some, id, call, Option.some.injEq, Prod.mk.injEq] at ha
    obtain ⟨rfl, rfl⟩ := ha
    exact ⟨rfl, key _ (by rw [ComesA, if_pos ⟨h2, h1⟩, h3]; rfl)⟩
  · simp only [act, stageOf, h4, Option.bind_some, id, call, Option.some.injEq, Prod.mk.injEq] at ha
    obtain ⟨rfl, rfl⟩ := ha
    exact ⟨rfl, key _ (by rw [ComesA, if_pos ⟨h2, h1⟩, h3]; rfl)⟩
  · have : act P c (T i) 2 x = some ({ x with a := some ((T i).elt f) }, 1) := by
      rcases h4 with h4 | h4 <;> simp only [act, stageOf, h4, Option.bind_some, id, call, hf, Option.map_some]
    rw [this] at ha
    cases ha
    exact ⟨rfl, key _ (by rw [ComesA, if_neg (fun h => no h2 h.1), if_pos h1]; exact ⟨i, rfl⟩)⟩
  · simp only [act, stageOf, h4, Option.bind_some, id, call, Option.some.injEq, Prod.mk.injEq] at ha
    obtain ⟨rfl, rfl⟩ := ha
    exact ⟨rfl,
      { quiet := hi.quiet
        noseed := hi.noseed
        seed := fun _ => hi.seed (by omega)
        field := fun _ => ⟨f, hf, hq⟩
        a := fun _ h => by rw [h1] at h; cases h
        ab := fun h => absurd h (by omega)
        derived := fun h => absurd h (by omega)
        crv := fun h => absurd h (by omega)
        order := fun h => absurd h (by omega)
        gens := fun h => absurd h (by omega)
        points := fun h => absurd h (by omega)
        info := fun h => absurd h (by omega) }⟩

theorem step_b (P : Pari) (c : Config) (h : Covered c) (T : Nat → Pick) (i : Nat) (x : Cur) (hi : Inv c T 3 x) (x' : Cur) (d : Int)
    (ha : act P c (T i) 3 x = some (x', d)) : (d = 1 ∧ Inv c T 4 x') ∨ (c.seedAlgo = .ansi ∧ d = -3 ∧ x' = x) := by
  obtain ⟨f, hf, hq⟩ := hi.field (by omega)
  have key : ∀ y : Cur, y.info = x.info → y.seed = x.seed → y.field = some f → (∃ a b, y.a = some a ∧ y.b = some b ∧
      ComesA c T f a ∧ ComesB c T f b) → (c.seedAlgo = .ansi → ∃ i j f a b, y.seed = some (T j).seed ∧ y.field = some f ∧ y.a = some a ∧ y.b = some b ∧
        (T i).ansi f (T j).seed = .coeffs a b) → Inv c T 4 y := by
    rintro y e1 e2 e3 ⟨a, b, e4, e5, h1, h2⟩ hder
    exact
    { quiet := e1 ▸ hi.quiet
      noseed := e2 ▸ hi.noseed
      seed := fun _ => e2 ▸ hi.seed (by omega)
      field := fun _ => ⟨f, e3, hq⟩
      a := fun _ _ => ⟨f, a, e3, e4, h1⟩
      ab := fun _ => ⟨f, a, b, e3, e4, e5, h1, h2⟩
      derived := fun _ => hder
      crv := fun h => absurd h (by omega)
      order := fun h => absurd h (by omega)
      gens := fun h => absurd h (by omega)
      points := fun h => absurd h (by omega)
      info := fun h => absurd h (by omega) }
  rcases table_b c h with ⟨h1, h2, h4⟩ | ⟨h1, h2, h4⟩ | ⟨h1, h4⟩
  · obtain ⟨f', e, h5, h6, h7⟩ := hi.a (by omega) h1
    rw [hf] at h5
    cases h5
    simp only [act, stageOf, h4, Option.bind_some, id, call, Option.some.injEq, Prod.mk.injEq] at ha
    obtain ⟨rfl, rfl⟩ := ha
    exact Or.inl ⟨rfl, key _ rfl rfl hf ⟨e, _, h6, rfl, h7, by rw [ComesB, if_pos ⟨h2, h1⟩]⟩ fun h => by rw [h1] at h; cases h⟩
  · obtain ⟨f', e, h5, h6, h7⟩ := hi.a (by omega) h1
    rw [hf] at h5
    cases h5
    have : act P c (T i) 3 x = some ({ x with b := some ((T i).elt f) }, 1) := by
      rcases h4 with h4 | h4 <;> simp only [act, stageOf, h4, Option.bind_some, id, call, hf, Option.map_some]
    rw [this] at ha
    cases ha
    exact Or.inl ⟨rfl, key _ rfl rfl hf ⟨e, _, h6, rfl, h7, by rw [ComesB, if_neg (fun h => no h2 h.1), if_pos h1]; exact ⟨i, rfl⟩⟩ fun h => by rw [h1] at h; cases h⟩
  · have hne : c.seedAlgo ≠ .none := by rw [h1]; decide
    obtain ⟨hs1, hs2⟩ := hi.seed (by omega)
    obtain ⟨sd, hsd⟩ := Option.isSome_iff_exists.1 (hs1 hne)
    obtain ⟨-, -, j, rfl⟩ := hs2 sd hsd
    simp only [act, stageOf, h4, Option.bind_some, id, call, hf, hsd] at ha
    cases hd : (T i).ansi f (T j).seed with
    | crash => rw [hd] at ha; cases ha
    | again => rw [hd] at ha; cases ha; exact Or.inr ⟨h1, rfl, rfl⟩
    | coeffs a b =>
      rw [hd] at ha
      cases ha
      have hk : ¬ (c.koblitz = true ∧ c.seedAlgo = .none) := fun h => hne h.2
      exact Or.inl ⟨rfl, key _ rfl rfl hf ⟨a, b, rfl, rfl, by rw [ComesA, if_neg hk, if_neg hne]; exact ⟨i, j, b, hd⟩,
        by rw [ComesB, if_neg hk, if_neg hne]; exact ⟨i, j, a, hd⟩⟩ fun _ => ⟨i, j, f, a, b, hsd, hf, rfl, rfl, hd⟩⟩

/-- the curve stage, before the check -/
theorem step_curve (P : Pari) (c : Config) (h : Covered c) (T : Nat → Pick) (p : Pick) (x : Cur) (hi : Inv c T 4 x) (x' : Cur) (d : Int)
    (ha : act P c p 4 x = some (x', d)) : d = 1 ∧ x'.info = x.info ∧ x'.seed = x.seed ∧
      ∃ E, x'.crv = some E ∧ (E.eqn.Δ ≠ 0 → Inv c T 5 x') := by
  obtain ⟨f, a, b, h1, h2, h3, -, -⟩ := hi.ab (by omega)
  have e : act P c p 4 x = some ({ x with crv := some ⟨f, a, b⟩ }, 1) := by
    simp only [act, stageOf, table_curve c h, Option.bind_some, id, call, h1, h2, h3]
  rw [e] at ha
  cases ha
  refine ⟨rfl, rfl, rfl, ⟨f, a, b⟩, rfl, fun hd => ?_⟩
  exact
    { quiet := hi.quiet
      noseed := hi.noseed
      seed := fun _ => hi.seed (by omega)
      field := fun _ => hi.field (by omega)
      a := fun _ => hi.a (by omega)
      ab := fun _ => hi.ab (by omega)
      derived := fun _ => hi.derived (by omega)
      crv := fun _ => ⟨f, a, b, h1, h2, h3, rfl, hd⟩
      order := fun h => absurd h (by omega)
      gens := fun h => absurd h (by omega)
      points := fun h => absurd h (by omega)
      info := fun h => absurd h (by omega) }

/-- the curve at hand is one that may come up -/
theorem comes {c : Config} {T : Nat → Pick} {s : Nat} {x : Cur} (hi : Inv c T s x) (hs : 4 ≤ s) {f : Fld} {a b : Elt} (h1 : x.field = some f)
    (h2 : x.a = some a) (h3 : x.b = some b) : ComesField T f ∧ ComesA c T f a ∧ ComesB c T f b := by
  obtain ⟨f', a', b', e1, e2, e3, h4, h5⟩ := hi.ab hs
  obtain ⟨f'', e4, -, h6⟩ := hi.field (by omega)
  rw [h1] at e1 e4; cases e1; cases e4
  rw [h2] at e2; cases e2
  rw [h3] at e3; cases e3
  exact ⟨h6, h4, h5⟩

theorem card_pos (E : Crv) : 0 < Nat.card E.Pt := Nat.card_pos

theorem step_order (P : Pari) (hP : P.Ok) (c : Config) (h : Covered c) (T : Nat → Pick) (p : Pick) (x : Cur) (hi : Inv c T 5 x) (x' : Cur) (d : Int)
    (hsea : ∀ E, x.crv = some E → Order.SeaSpec (p.sea E) (Nat.card E.Pt))
    (ha : act P c p 5 x = some (x', d)) : (d = 1 ∧ Inv c T 6 x') ∨ (d = -4 ∧ x' = x) := by
  obtain ⟨f, a, b, h1, h2, h3, h4, h5⟩ := hi.crv (by omega)
  have hn := card_pos ⟨f, a, b⟩
  obtain ⟨c1, c2, c3⟩ := comes hi (by omega) h1 h2 h3
  have hcard := hP.card _ h5
  have key : OrderAsked c (Nat.card (Crv.mk f a b).Pt) → Inv c T 6 { x with order := some (Nat.card (Crv.mk f a b).Pt) } := fun ho =>
    { quiet := hi.quiet
      noseed := hi.noseed
      seed := fun _ => hi.seed (by omega)
      field := fun _ => hi.field (by omega)
      a := fun _ => hi.a (by omega)
      ab := fun _ => hi.ab (by omega)
      derived := fun _ => hi.derived (by omega)
      crv := fun _ => hi.crv (by omega)
      order := fun _ => ⟨_, h4, rfl, ho⟩
      gens := fun h => absurd h (by omega)
      points := fun h => absurd h (by omega)
      info := fun h => absurd h (by omega) }
  have filt : ∀ o : Option Nat, (∀ m, o = some m → m = Nat.card (Crv.mk f a b).Pt) → (o.isSome → OrderAsked c (Nat.card (Crv.mk f a b).Pt)) →
      filtered x o = (x', d) → (d = 1 ∧ Inv c T 6 x') ∨ (d = -4 ∧ x' = x) := by
    intro o e1 e2 e3
    cases o with
    | none => cases e3; exact Or.inr ⟨rfl, rfl⟩
    | some m => cases e1 m rfl; cases e3; exact Or.inl ⟨rfl, key (e2 rfl)⟩
  obtain ⟨o1, o2, o3⟩ := h.one
  obtain ⟨a1, a2, -, -⟩ := orderArg c
  have harg : (exhaustiveSetup c).genArgs.order = (ainit c).order := rfl
  rcases table_order c h with ⟨t1, t4⟩ | ⟨t1, t2, t4⟩ | ⟨t1, t2, t3, t4⟩ | ⟨t1, t2, t3, ⟨t5, t6, t4⟩ | t4⟩
  · simp only [act, stageOf, t4, Option.bind_some, id, call, h4, orderStage, Option.some.injEq] at ha
    obtain ⟨g1, g2⟩ := Order.prime_filter P.isprime hP.isprime _ _ (hsea ⟨f, a, b⟩ h4)
    refine filt _ g1 (fun hs => ⟨fun _ => g2.1 hs, fun hc => absurd ⟨t1, hc⟩ o1, fun hc => absurd ⟨t1, hc⟩ o2⟩) ha
  · have hs : c.smooth = false := by
      cases hs : c.smooth
      · rfl
      · exact absurd ⟨hs, t2⟩ o3
    simp only [act, stageOf, t4, Option.bind_some, id, call, h4, orderStage, harg, a2 hs t2, Option.map_some, Option.some.injEq, argNat, hcard] at ha
    obtain ⟨g1, g2⟩ := Order.cofactor_filter P.isprime hP.isprime (toSize c.cofactorValue) _ hn
    refine filt _ g1 (fun hs' => ⟨fun h => (no t1 h).elim, fun _ => g2.1 hs', fun h => (no hs h).elim⟩) ha
  · simp only [act, stageOf, t4, Option.bind_some, id, call, h4, orderStage, harg, a1 t3, Option.map_some, Option.some.injEq, argNat, hcard] at ha
    obtain ⟨g1, g2⟩ := Order.smooth_filter P.fac hP.fac (toSize c.smoothValue) _ hn
    refine filt _ g1 (fun hs' => ⟨fun h => (no t1 h).elim, fun h => (no t2 h).elim, fun _ => g2.1 hs'⟩) ha
  · obtain ⟨f'', e5, hf, -⟩ := hi.field (by omega)
    rw [h1] at e5; cases e5
    rw [ComesA, if_pos ⟨t5, t6⟩] at c2
    rw [ComesB, if_pos ⟨t5, t6⟩] at c3
    subst c2 c3
    have hk : Koblitz.genOrder c.bits c.koblitzValue.toNat (Nat.card (Crv.mk f (.int c.koblitzValue.toNat) (.int 1)).Pt) =
        Nat.card (Crv.mk f (.int c.koblitzValue.toNat) (.int 1)).Pt := by
      match f, hf with
      | ⟨.prime q, hq⟩, hf =>
        unfold Koblitz.genOrder
        rw [h.koblitz t5 t6 hf.1 t1 t2 t3]
        rfl
      | ⟨.binary m u1 u2 u3, hq⟩, hf =>
        obtain ⟨-, rfl, hm⟩ := hf
        exact koblitz_order c.bits u1 u2 u3 hq (by omega) _ (by rcases h.value with h | h <;> rw [h] <;> decide)
    have e : act P c p 5 x = some ({ x with order := some (Nat.card (Crv.mk f (.int c.koblitzValue.toNat) (.int 1)).Pt) }, 1) := by
      simp only [act, stageOf, t4, Option.bind_some, id, call, h4, orderStage, h2, hcard, hk]
    rw [e] at ha
    cases ha
    exact Or.inl ⟨rfl, key ⟨fun h => (no t1 h).elim, fun h => (no t2 h).elim, fun h => (no t3 h).elim⟩⟩
  · have e : act P c p 5 x = some ({ x with order := some (Nat.card (Crv.mk f a b).Pt) }, 1) := by
      simp only [act, stageOf, t4, Option.bind_some, id, call, h4, orderStage, hcard]
    rw [e] at ha
    cases ha
    exact Or.inl ⟨rfl, key ⟨fun h => (no t1 h).elim, fun h => (no t2 h).elim, fun h => (no t3 h).elim⟩⟩

theorem bare_gen {A : Type} (l : List (Group.Pt A)) : (bare l).map Group.Sub.gen = l := by
  unfold bare
  rw [List.map_map]
  exact List.map_id l

theorem step_gens (P : Pari) (hP : P.Ok) (c : Config) (h : Covered c) (T : Nat → Pick) (p : Pick) (x : Cur) (hi : Inv c T 6 x) (x' : Cur) (d : Int)
    (hgens : ∀ E, x.crv = some E → Group.GensSpec E.Pt (p.gens E))
    (ha : act P c p 6 x = some (x', d)) : (d = 1 ∧ Inv c T 7 x') ∨ (d = -5 ∧ x' = x) := by
  obtain ⟨f, a, b, h1, h2, h3, h4, h5⟩ := hi.crv (by omega)
  obtain ⟨E, h6, h7, h8⟩ := hi.order (by omega)
  rw [h4] at h6
  cases h6
  have hg := hgens ⟨f, a, b⟩ h4
  have hord := hP.ord ⟨f, a, b⟩
  have filt : ∀ o : Option (List (Group.Pt (Crv.mk f a b).Pt)), (∀ l, o = some l → GensKnown (Crv.mk f a b).Pt c l) →
      found x ⟨f, a, b⟩ o = (x', d) → (d = 1 ∧ Inv c T 7 x') ∨ (d = -5 ∧ x' = x) := by
    intro o e1 e2
    cases o with
    | none => cases e2; exact Or.inr ⟨rfl, rfl⟩
    | some l =>
      cases e2
      refine Or.inl ⟨rfl, ?_⟩
      exact
      { quiet := hi.quiet
        noseed := hi.noseed
        seed := fun _ => hi.seed (by omega)
        field := fun _ => hi.field (by omega)
        a := fun _ => hi.a (by omega)
        ab := fun _ => hi.ab (by omega)
        derived := fun _ => hi.derived (by omega)
        crv := fun _ => hi.crv (by omega)
        order := fun _ => hi.order (by omega)
        gens := fun _ => ⟨_, bare l, h4, rfl, by rw [bare_gen]; exact e1 l rfl, fun _ g hg => by
          unfold bare at hg
          rw [List.mem_map] at hg
          obtain ⟨_, _, rfl⟩ := hg
          rfl⟩
        points := fun h => absurd h (by omega)
        info := fun h => absurd h (by omega) }
  have harg : (exhaustiveSetup c).genArgs.gens = (ainit c).gens := rfl
  rcases table_gens c h with ⟨t1, t4⟩ | ⟨t1, t2, t4⟩ | ⟨t1, t2, t4⟩
  · simp only [act, stageOf, t4, Option.bind_some, id, call, h4, h7, gensStage, Option.some.injEq] at ha
    exact filt _ (fun l hl => known_one c t1 _ hord _ hg l hl) ha
  · simp only [act, stageOf, t4, Option.bind_some, id, call, h4, h7, gensStage, harg, (orderArg c).2.2.1 t2, Option.map_some, Option.some.injEq, argNat] at ha
    obtain ⟨q, hq, hn⟩ := h8.2.1 t2
    exact filt _ (fun l hl => known_cofactor c t1 t2 _ hord q hq hn _ hg l hl) ha
  · simp only [act, stageOf, t4, Option.bind_some, id, call, h4, h7, gensStage, Option.some.injEq] at ha
    refine filt _ (fun l hl => ?_) ha
    cases hl
    exact known_any c t1 t2 _ hord _ hg

/-- whatever the stage of the points does, the generators stay -/
theorem points_gen (P : Pari) (p : Pick) (E : Crv) (gens : List (Group.Pt E.Pt)) (arg : Option Arg) (g : Gen) (l : List (Group.Sub E.Pt))
    (h : pointsStage P p E gens arg g = some l) : l.map Group.Sub.gen = gens := by
  have hmap : ∀ (f : Group.Pt E.Pt → Option (Group.Sub E.Pt)), (∀ g s, f g = some s → s.gen = g) → ∀ (gens : List (Group.Pt E.Pt)) (l : List (Group.Sub E.Pt)), gens.mapM f = some l →
      l.map Group.Sub.gen = gens := by
    intro f hf gens
    induction gens with
    | nil => intro l h; cases h; rfl
    | cons g gens ih =>
      intro l h
      rw [List.mapM_cons] at h
      cases hg : f g with
      | none => rw [hg] at h; cases h
      | some s =>
        rw [hg] at h
        cases hl : gens.mapM f with
        | none => simp [hl] at h
        | some l' =>
          simp only [hl, Option.bind_eq_bind, Option.bind_some, Option.pure_def, Option.some.injEq] at h
          subst h
          rw [List.map_cons, hf g s hg, ih l' hl]
  unfold pointsStage at h
  split at h
  · unfold Group.pointRandom at h
    split at h
    · cases h; exact mapIdx_gen _ (fun _ _ => rfl) _
    · cases h
  · rw [Option.bind_eq_some_iff] at h
    obtain ⟨k, -, h⟩ := h
    unfold Group.pointsRandom at h
    rw [Option.map_eq_some_iff] at h
    obtain ⟨_, _, rfl⟩ := h
    exact mapIdx_gen _ (fun _ _ => rfl) _
  · cases h
    unfold Group.pointsPrime
    rw [List.map_map]
    exact List.map_id gens
  · refine hmap _ (fun g s hs => ?_) _ _ h
    unfold Group.pointsAll1 at hs
    simp only [Option.bind_eq_some_iff, Option.map_eq_some_iff] at hs
    obtain ⟨_, _, _, _, rfl⟩ := hs
    rfl
  · refine hmap _ (fun g s hs => ?_) _ _ h
    unfold Group.pointsNonprime1 at hs
    simp only [Option.map_eq_some_iff] at hs
    obtain ⟨_, _, rfl⟩ := hs
    rfl
  · cases h

theorem call_points (P : Pari) (bits : Nat) (p : Pick) (c : Config) (arg : Option Arg) (x : Cur) (hn : c.pointsType ≠ .none) :
    call P bits p arg x (pointsChoice c) = call.withPoints P p arg x (pointsChoice c) := by
  unfold pointsChoice
  cases ht : c.pointsType with
  | none => exact absurd ht hn
  | random =>
    by_cases h : c.pointsAmount ≠ 0
    · simp only [if_pos h, call]
    · simp only [if_neg h, call]
  | _ => rfl

theorem step_points (P : Pari) (hP : P.Ok) (c : Config) (T : Nat → Pick) (p : Pick) (hp : p.Ok c) (x : Cur) (hi : Inv c T 7 x) (x' : Cur) (d : Int)
    (ha : act P c p 7 x = some (x', d)) : d = 1 ∧ Inv c T 8 x' := by
  obtain ⟨E, l, h1, h2, h3, h4⟩ := hi.gens (by omega)
  have h4 := h4 rfl
  have htab : (exhaustiveSetup c).gens.points = some (pointsChoice c) := rfl
  have harg : (exhaustiveSetup c).genArgs.points = (ainit c).points := rfl
  have key : ∀ l' : List (Group.Sub E.Pt), l'.map Group.Sub.gen = l.map Group.Sub.gen → ((∀ g ∈ l', g.gen.point ≠ 0) → PointsKnown c l') →
      ∀ y, y = { x with gens := some ⟨E, l'⟩ } → Inv c T 8 y := by
    rintro l' e1 e2 y rfl
    exact
      { quiet := hi.quiet
        noseed := hi.noseed
        seed := fun _ => hi.seed (by omega)
        field := fun _ => hi.field (by omega)
        a := fun _ => hi.a (by omega)
        ab := fun _ => hi.ab (by omega)
        derived := fun _ => hi.derived (by omega)
        crv := fun _ => hi.crv (by omega)
        order := fun _ => hi.order (by omega)
        gens := fun _ => ⟨E, l', h1, rfl, by rw [e1]; exact h3, fun h => by omega⟩
        points := fun _ => ⟨E, l', rfl, e2⟩
        info := fun h => absurd h (by omega) }
  simp only [act, stageOf, htab, harg, Option.bind_some, id] at ha
  by_cases hn : c.pointsType = .none
  · have : pointsChoice c = .skip := by simp only [pointsChoice, hn]
    rw [this] at ha
    simp only [call, Option.some.injEq, Prod.mk.injEq] at ha
    obtain ⟨rfl, rfl⟩ := ha
    refine ⟨rfl, key l rfl (fun _ => ⟨fun s hs => ⟨[], by rw [h4 s hs]; rfl, fun q hq => (nomatch hq), fun Q hQ => ?_⟩, (fun h => by rw [hn] at h; cases h), (fun h => by rw [hn] at h; cases h)⟩)
      _ (by rw [← h2])⟩
    simp only [pointOrders, hn, Option.some.injEq] at hQ
    subst hQ
    exact ⟨List.Pairwise.nil, fun d => ⟨fun h => (nomatch h), fun h => h.elim⟩⟩
  · rw [call_points _ _ _ _ _ _ hn] at ha
    simp only [call.withPoints, h2, h1, if_true, Option.map_eq_some_iff, Prod.mk.injEq] at ha
    obtain ⟨l', e1, rfl, rfl⟩ := ha
    have e2 := points_gen _ _ _ _ _ _ _ e1
    refine ⟨rfl, key l' e2 (fun hne => ?_) _ (by rw [h1])⟩
    refine (points_known P hP c p hp.which hp.mul E _ h3.order (fun g hg => ?_) l' e1).2
    rw [← e2, List.mem_map] at hg
    obtain ⟨s, hs, rfl⟩ := hg
    exact hne s hs

theorem step_metadata (P : Pari) (c : Config) (T : Nat → Pick) (p : Pick) (hp : p.Ok c) (x : Cur) (hi : Inv c T 8 x) (x' : Cur) (d : Int)
    (ha : act P c p 8 x = some (x', d)) : d = 1 ∧ Inv c T 9 x' := by
  have htab : (exhaustiveSetup c).gens.metadata = some (if c.metadata then .metadata else .skip) := rfl
  have key : ∀ i : List (String × Text), (c.metadata = false → i = []) → (∀ y ∈ i, y.1 ∈ Parson.metaNames) ∧ (i.map (·.1)).Nodup →
      Inv c T 9 { x with info := i } := fun i e1 e2 =>
      { quiet := e1
        noseed := hi.noseed
        seed := fun _ => hi.seed (by omega)
        field := fun _ => hi.field (by omega)
        a := fun _ => hi.a (by omega)
        ab := fun _ => hi.ab (by omega)
        derived := fun _ => hi.derived (by omega)
        crv := fun _ => hi.crv (by omega)
        order := fun _ => hi.order (by omega)
        gens := fun _ => by
          obtain ⟨E, l, h1, h2, h3, -⟩ := hi.gens (by omega)
          exact ⟨E, l, h1, h2, h3, fun h => by omega⟩
        points := fun _ => hi.points (by omega)
        info := fun _ => e2 }
  cases hm : c.metadata with
  | true =>
    simp only [act, stageOf, htab, hm, if_true, Option.bind_some, id, call, Option.some.injEq, Prod.mk.injEq] at ha
    obtain ⟨rfl, rfl⟩ := ha
    exact ⟨rfl, key _ (fun h => by rw [hm] at h; cases h) hp.info⟩
  | false =>
    simp only [act, stageOf, htab, hm, Bool.false_eq_true, if_false, Option.bind_some, id, call, Option.some.injEq, Prod.mk.injEq] at ha
    obtain ⟨rfl, rfl⟩ := ha
    have e := hi.quiet hm
    have := key [] (fun _ => rfl) ⟨fun y hy => (nomatch hy), List.nodup_nil⟩
    rw [← e] at this
    exact ⟨rfl, this⟩

/-! ## The engine -/

open Engine (GenRes) in
theorem gen_cases (P : Pari) (c : Config) (s : Nat) (w w1 : W) (r : GenRes) (h : (setup P c).gen s w = (w1, r)) :
    (∃ x, w.pick.cut = some x ∧ w1 = { w.next with cur := x } ∧ r = .timeout) ∨
    (∃ d, w.pick.fail s = some d ∧ w1 = w.next ∧ r = .ret d) ∨
    (∃ x d, act P c w.pick s w.cur = some (x, d) ∧ w1 = { w.next with cur := x } ∧ r = .ret d) ∨
    (w1 = { w.next with ub := true } ∧ r = .ret Engine.INT_MIN) := by
  change gen P c.bits (exhaustiveSetup c) s w = _ at h
  unfold gen at h
  cases h1 : w.pick.cut with
  | some x => rw [h1] at h; cases h; exact Or.inl ⟨x, rfl, rfl, rfl⟩
  | none =>
    rw [h1] at h
    cases h2 : w.pick.fail s with
    | some d => simp only [h2] at h; cases h; exact Or.inr (Or.inl ⟨d, rfl, rfl, rfl⟩)
    | none =>
      simp only [h2] at h
      change done w (act P c w.pick s w.cur) = _ at h
      cases h3 : act P c w.pick s w.cur with
      | none => rw [h3] at h; cases h; exact Or.inr (Or.inr (Or.inr ⟨rfl, rfl⟩))
      | some xd =>
        obtain ⟨x, d⟩ := xd
        rw [h3] at h; cases h; exact Or.inr (Or.inr (Or.inl ⟨x, d, rfl, rfl, rfl⟩))

theorem table_checks (P : Pari) (c : Config) (h : (c.seedAlgo = .none ∧ c.method = 0) ∨ (c.seedAlgo = .ansi ∧ c.method = METHOD_SEED)) (s : Nat) :
    (setup P c).checks s = if s = 4 then [fun w => check w .curveNonzero] else
      if s = 7 ∧ c.hexCheck.isSome then [fun w => check w .hexParam] else [] := by
  have hc : (exhaustiveSetup c).checks =
      { Table.const [] with curve := [.curveNonzero], points := if c.hexCheck.isSome then [.hexParam] else [] } := by
    rcases h with ⟨h1, h2⟩ | ⟨h1, h2⟩ <;> simp [exhaustiveSetup, cinit, h1, h2, METHOD_SEED]
  change (((stageOf (exhaustiveSetup c).checks s).getD []).map fun k w => check w k) = _
  rw [hc]
  unfold stageOf
  split <;> simp [Table.const]
  · cases c.hexCheck <;> simp
  · split <;> simp_all

theorem cleaned_keeps (P : Pari) (c : Config) (lo : Nat) : ∀ (hi : Nat) (w : W),
    (Engine.Spec.cleaned (setup P c) lo hi w).cur.info = w.cur.info ∧ (Engine.Spec.cleaned (setup P c) lo hi w).cur.seed = w.cur.seed ∧
    (Engine.Spec.cleaned (setup P c) lo hi w).tape = w.tape := by
  intro hi
  induction hi with
  | zero => intro w; exact ⟨rfl, rfl, rfl⟩
  | succ i ih =>
    intro w
    unfold Engine.Spec.cleaned
    split
    · obtain ⟨h1, h2, h3⟩ := ih (((setup P c).unroll (i + 1)).getD id w)
      rw [h1, h2, h3]
      simp only [setup, Option.getD_some]
      unfold unroll
      split
      · omega
      · exact ⟨rfl, rfl, trivial⟩
      · exact ⟨rfl, rfl, trivial⟩
      · exact ⟨rfl, rfl, trivial⟩
      · exact ⟨rfl, rfl, trivial⟩
    · exact ⟨rfl, rfl, rfl⟩

theorem cleaned_self (P : Pari) (c : Config) (s : Nat) (w : W) : Engine.Spec.cleaned (setup P c) s s w = w := by
  cases s with
  | zero => rfl
  | succ s => unfold Engine.Spec.cleaned; rw [if_neg (by omega)]

/-- the calls to come behave -/
def Behaves (c : Config) (T : Nat → Pick) (w : W) : Prop := w.tape = T ∧ TapeOk c T

/-- PARI is right about the curve at hand -/
theorem tape_right {c : Config} {T : Nat → Pick} (hT : TapeOk c T) (i : Nat) {s : Nat} {x : Cur} (hi : Inv c T s x) (hs : 5 ≤ s) {E : Crv} (hE : x.crv = some E) :
    Order.SeaSpec ((T i).sea E) (Nat.card E.Pt) ∧ Group.GensSpec E.Pt ((T i).gens E) := by
  obtain ⟨f, a, b, h1, h2, h3, h4, h5⟩ := hi.crv hs
  rw [h4] at hE
  cases hE
  obtain ⟨c1, c2, c3⟩ := comes hi (by omega) h1 h2 h3
  exact ⟨hT.sea i _ c1 c2 c3 h5, hT.gens i _ c1 c2 c3 h5⟩

/-- a generator that returns a positive number has done its stage; the curve stage still awaits its check -/
theorem act_ok (P : Pari) (hP : P.Ok) (c : Config) (h : Covered c) (T : Nat → Pick) (hT : TapeOk c T) (i : Nat) (s : Nat) (hs : s < 9) (x : Cur) (hi : Inv c T s x)
    (x' : Cur) (d : Int) (ha : act P c (T i) s x = some (x', d)) :
    (d = 1 ∧ (s ≠ 4 → Inv c T (s + 1) x') ∧ (s = 4 → x'.info = x.info ∧ x'.seed = x.seed ∧ ∃ E, x'.crv = some E ∧ (E.eqn.Δ ≠ 0 → Inv c T 5 x'))) ∨
    (((s : Int) + d = 1 ∨ (c.seedAlgo = .ansi ∧ (s : Int) + d = 0)) ∧ d ≤ 0 ∧ x' = x) := by
  match s, hs with
  | 0, _ => obtain ⟨h1, h2⟩ := step_seed P c h T i (hT.picks i) x hi x' d ha; exact Or.inl ⟨h1, fun _ => h2, fun h => by omega⟩
  | 1, _ => obtain ⟨h1, h2⟩ := step_field P c h T i (hT.picks i) x hi x' d ha; exact Or.inl ⟨h1, fun _ => h2, fun h => by omega⟩
  | 2, _ => obtain ⟨h1, h2⟩ := step_a P c h T i x hi x' d ha; exact Or.inl ⟨h1, fun _ => h2, fun h => by omega⟩
  | 3, _ =>
    rcases step_b P c h T i x hi x' d ha with ⟨h1, h2⟩ | ⟨h1, rfl, h2⟩
    · exact Or.inl ⟨h1, fun _ => h2, fun h => by omega⟩
    · exact Or.inr ⟨Or.inr ⟨h1, by decide⟩, by decide, h2⟩
  | 4, _ => obtain ⟨h1, h2⟩ := step_curve P c h T (T i) x hi x' d ha; exact Or.inl ⟨h1, fun h => absurd rfl h, fun _ => h2⟩
  | 5, _ =>
    rcases step_order P hP c h T (T i) x hi x' d (fun E hE => (tape_right hT i hi (by omega) hE).1) ha with ⟨h1, h2⟩ | ⟨rfl, h2⟩
    · exact Or.inl ⟨h1, fun _ => h2, fun h => by omega⟩
    · exact Or.inr ⟨Or.inl (by decide), by decide, h2⟩
  | 6, _ =>
    rcases step_gens P hP c h T (T i) x hi x' d (fun E hE => (tape_right hT i hi (by omega) hE).2) ha with ⟨h1, h2⟩ | ⟨rfl, h2⟩
    · exact Or.inl ⟨h1, fun _ => h2, fun h => by omega⟩
    · exact Or.inr ⟨Or.inl (by decide), by decide, h2⟩
  | 7, _ => obtain ⟨h1, h2⟩ := step_points P hP c T (T i) (hT.picks i) x hi x' d ha; exact Or.inl ⟨h1, fun _ => h2, fun h => by omega⟩
  | 8, _ => obtain ⟨h1, h2⟩ := step_metadata P c T (T i) (hT.picks i) x hi x' d ha; exact Or.inl ⟨h1, fun _ => h2, fun h => by omega⟩

/-- failures go back to the beginning, to the field, or repeat one of the first stages -/
theorem failures_spec (s : Nat) (d : Int) (h : d ∈ failures s) : d ≤ 0 ∧ (0 ≤ (s : Int) + d → (s : Int) + d ≤ 1 ∨ d = 0) := by
  unfold failures at h
  split at h <;> simp [Engine.INT_MIN] at h <;> (try rcases h with rfl | rfl | rfl) <;> omega

open Engine Engine.Spec in
theorem keep_ok (P : Pari) (hP : P.Ok) (c : Config) (h : Covered c) (T : Nat → Pick) (s : Nat) (w : W) (d : Int) (w' : W) (hs : s < 9)
    (hi : Inv c T s w.cur) (hb : Behaves c T w) (hsucc : Succeeds (setup P c) s w d w') :
    d = 1 ∧ Inv c T (s + 1) w'.cur ∧ Behaves c T w' := by
  obtain ⟨w1, h1, h2, h3⟩ := hsucc
  obtain ⟨rfl, hT⟩ := hb
  have hb : Behaves c w.tape w := ⟨rfl, hT⟩
  have hp : w.pick.Ok c := hT.picks w.pos
  rcases gen_cases P c s w w1 _ h1 with ⟨x, _, _, hr⟩ | ⟨d', hf, _, hr⟩ | ⟨x, d', ha, rfl, hr⟩ | ⟨_, hr⟩
  · cases hr
  · cases hr
    have := (failures_spec s d (hp.fail s d hf)).1
    omega
  · cases hr
    rcases act_ok P hP c h w.tape hT w.pos s hs _ hi x d ha with ⟨rfl, h4, h5⟩ | ⟨_, h4, _⟩
    · rw [table_checks P c h.algo] at h3
      refine ⟨rfl, ?_⟩
      by_cases hs4 : s = 4
      · subst hs4
        rw [if_pos rfl] at h3
        obtain ⟨-, -, E, h6, h7⟩ := h5 rfl
        cases h3 with
        | cons h8 h9 =>
          cases h9
          simp only [check, h6] at h8 ⊢
          refine ⟨h7 fun hd => ?_, hb⟩
          rw [if_pos hd] at h8
          omega
      · rw [if_neg hs4] at h3
        have h4 := h4 hs4
        by_cases hs7 : s = 7 ∧ c.hexCheck.isSome
        · rw [if_pos hs7] at h3
          cases h3 with
          | cons h8 h9 =>
            cases h9
            exact ⟨h4, hb⟩
        · rw [if_neg hs7] at h3
          cases h3
          exact ⟨h4, hb⟩
    · omega
  · cases hr
    simp only [INT_MIN] at h2
    omega

theorem inv_down {c : Config} {T : Nat → Pick} {s : Nat} {x : Cur} (h : Inv c T s x) (k : Nat) (hk : k ≤ 1) (hs : k ≤ s) : Inv c T k x :=
  inv_low hk h.quiet h.noseed fun h1 => h.seed (by omega)

open Engine Engine.Spec in
theorem keep_fail (P : Pari) (hP : P.Ok) (c : Config) (h : Covered c) (T : Nat → Pick) (s : Nat) (w : W) (d : Int) (w' : W) (hs : s < 9)
    (hi : Inv c T s w.cur) (hb : Behaves c T w) (hf : Fails (setup P c) 0 s w d w') :
    Behaves c T w' ∧ (0 ≤ (s : Int) + d → (∃ k : Nat, k ≤ 1 ∧ (s : Int) + d = k ∧ Inv c T k w'.cur) ∨ (d = 0 ∧ w'.cur = w.cur)) := by
  obtain ⟨rfl, hT⟩ := hb
  have hb : Behaves c w.tape w := ⟨rfl, hT⟩
  have hp : w.pick.Ok c := hT.picks w.pos
  rcases hf with ⟨h1, rfl⟩ | ⟨h1, h2⟩ | ⟨w1, g, h1, h2, h3⟩
  · rcases gen_cases P c s w w' _ h1 with ⟨x, hc, rfl, hr⟩ | ⟨d', hf, _, hr⟩ | ⟨x, d', ha, _, hr⟩ | ⟨_, hr⟩
    · exact ⟨hb, fun _ => Or.inl ⟨0, by omega, by omega, inv_low (by omega) (hp.cut x hc).1 (hp.cut x hc).2 fun h => by omega⟩⟩
    all_goals cases hr
  · rcases gen_cases P c s w w' _ h1 with ⟨x, _, _, hr⟩ | ⟨d', hf, rfl, hr⟩ | ⟨x, d', ha, rfl, hr⟩ | ⟨rfl, hr⟩
    · cases hr
    · cases hr
      refine ⟨hb, fun h0 => ?_⟩
      obtain ⟨h1, h2⟩ := failures_spec s d (hp.fail s d hf)
      rcases h2 h0 with h2 | h2
      · exact Or.inl ⟨((s : Int) + d).toNat, by omega, by omega, inv_down hi _ (by omega) (by omega)⟩
      · exact Or.inr ⟨h2, rfl⟩
    · cases hr
      refine ⟨hb, fun h0 => ?_⟩
      rcases act_ok P hP c h w.tape hT w.pos s hs _ hi x d ha with ⟨rfl, -, -⟩ | ⟨h4, -, rfl⟩
      · omega
      · exact Or.inl ⟨((s : Int) + d).toNat, by omega, by omega, inv_down hi _ (by omega) (by omega)⟩
    · cases hr
      refine ⟨hb, fun h0 => ?_⟩
      simp only [INT_MIN] at h0
      omega
  · rcases gen_cases P c s w w1 _ h1 with ⟨x, _, _, hr⟩ | ⟨d', hf, _, hr⟩ | ⟨x, d', ha, rfl, hr⟩ | ⟨_, hr⟩
    · cases hr
    · cases hr
      have := (failures_spec s g (hp.fail s g hf)).1
      omega
    · cases hr
      rcases act_ok P hP c h w.tape hT w.pos s hs _ hi x g ha with ⟨rfl, h4, h5⟩ | ⟨_, h4, _⟩
      · rw [table_checks P c h.algo] at h3
        by_cases hs4 : s = 4
        · subst hs4
          rw [if_pos rfl] at h3
          obtain ⟨h8, h9, E, h6, h7⟩ := h5 rfl
          cases h3 with
          | here h10 =>
            simp only [check, h6] at h10 ⊢
            refine ⟨hb, fun _ => ?_⟩
            split
            · refine Or.inl ⟨1, by omega, by decide, inv_low (by omega) (h8 ▸ hi.quiet) (h9 ▸ hi.noseed) fun _ => h9 ▸ hi.seed (by omega)⟩
            · rename_i hd
              rw [if_neg hd] at h10
              omega
          | later _ h11 => cases h11
        · rw [if_neg hs4] at h3
          have h4 := h4 hs4
          by_cases hs7 : s = 7 ∧ c.hexCheck.isSome
          · obtain ⟨rfl, hx⟩ := hs7
            rw [if_pos ⟨rfl, hx⟩] at h3
            cases h3 with
            | here h10 =>
              simp only [check] at h10 ⊢
              refine ⟨hb, fun _ => ?_⟩
              cases hv : ({ w.next with cur := x } : W).pick.verdict with
              | none => rw [hv] at h10; simp at h10
              | some v =>
                obtain rfl := (hT.picks (w.pos + 1)).verdict v hv
                exact Or.inl ⟨1, by omega, by decide, inv_down h4 1 (by omega) (by omega)⟩
            | later _ h11 => cases h11
          · rw [if_neg hs7] at h3
            cases h3
      · omega
    · cases hr
      simp only [INT_MIN] at h2
      omega

/-- **the search**: if it succeeds, the curve is complete -/
theorem search (P : Pari) (hP : P.Ok) (c : Config) (h : Covered c) (T : Nat → Pick) (fuel : Nat) (w : W) (hb : Behaves c T w) (r : Int) (st : Engine.St W)
    (hg : Engine.gen (setup P c) 0 9 fuel { w with cur := {} } = some (r, st)) :
    Behaves c T st.w ∧ ((r = 1 ∧ Inv c T 9 st.w.cur) ∨ r = 0) := by
  unfold Engine.gen Engine.genRetry at hg
  rw [if_neg (by decide), if_neg (by decide)] at hg
  have := Engine.loop_inv (setup P c) 0 9 0 (fun s w => s ≤ 9 ∧ Inv c T s w.cur ∧ Behaves c T w) (fun w => Behaves c T w)
    (by
      rintro s w d w' - hs ⟨-, hi, hb⟩ hsucc
      obtain ⟨rfl, h1, h2⟩ := keep_ok P hP c h T s w d w' hs hi hb hsucc
      exact ⟨by simp only [Int.toNat_one]; omega, h1, h2⟩)
    (by
      rintro s w d w' - hs ⟨-, hi, hb⟩ hf h0
      obtain ⟨h1, h2⟩ := keep_fail P hP c h T s w d w' hs hi hb hf
      rcases h2 h0 with ⟨k, hk, e, h3⟩ | ⟨rfl, h3⟩
      · have e' : max ((s : Int) + d).toNat 0 = k := by omega
        rw [e']
        obtain ⟨e1, e2, e3⟩ := cleaned_keeps P c k s w'
        exact ⟨by omega, inv_low hk (e1 ▸ h3.quiet) (e2 ▸ h3.noseed) (fun hk => e2 ▸ h3.seed (by omega)), by rw [e3]; exact h1.1, h1.2⟩
      · have e' : max ((s : Int) + 0).toNat 0 = s := by omega
        rw [e', cleaned_self]
        exact ⟨by omega, h3 ▸ hi, h1⟩)
    (by
      rintro s w d w' - hs ⟨-, hi, hb⟩ hf
      exact (keep_fail P hP c h T s w d w' hs hi hb hf).1)
    fuel _ (Nat.zero_le _) ⟨Nat.zero_le _, inv_low (Nat.zero_le _) (fun _ => rfl) (fun _ => rfl) (fun h => by cases h), hb⟩ r st hg
  rcases this with ⟨rfl, h1, h2, h3, h4⟩ | ⟨rfl, h1⟩
  · have : st.state = 9 := by omega
    rw [this] at h3
    exact ⟨h4, Or.inl ⟨rfl, h3⟩⟩
  · exact ⟨h1, Or.inr rfl⟩

end Ecgen.Whole
