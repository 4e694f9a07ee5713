import Verif.Ordered.Model
import Verif.Special.Lemmas
import Verif.Cm.ConstructProps
import Verif.Whole.Props

/-!
# The search of `--order` keeps what it has established
-/

namespace Ecgen.Ordered

open Whole Output Output.Spec Cli Cm.Construct
open Seeded (Fp)
open Special (obj)

/-- what the options say about the points -/
def cv (c : Config) (prime : Bool) : Config := if prime then { c with pointsType := .prime } else c

/-- what the options say about the generators: `--cofactor` is not heeded -/
def view (c : Config) : Config := { c with cofactor := false }

/-- what is known of the generators, whether or not the curve has `N` points -/
structure Made (A : Type) [AddCommGroup A] (c : Config) (N : Nat) (l : List (Group.Pt A)) : Prop where
  order : ∀ g ∈ l, g.order = addOrderOf g.point
  nonzero : ∀ g ∈ l, g.point ≠ 0
  all : AddSubgroup.closure {P | P ∈ l.map Group.Pt.point} = ⊤
  known : Nat.card A = N → GensKnown A (view c) l
  few : l.length ≤ 2
  cofactor : ∀ g ∈ l, g.cofactor ≤ N

/-- every curve constructed has the order asked for, over a field of the right size -/
def Right (P : Pari) (prime : Bool) (N : Nat) (T : Nat → Pick) : Prop :=
  ∀ i r, built P (T i) prime N = some r → (∃ _ : Fact r.p.Prime, Count.card r.a r.b = N) ∧ ((r.p : Int) + 1 - N) ^ 2 ≤ 4 * r.p

/-- what is known once there is a curve -/
structure Known (P : Pari) (c : Config) (prime : Bool) (N : Nat) (T : Nat → Pick) (s : Nat) (x : Cur) (r : Result) (hp : r.p.Prime) : Prop where
  built : ∃ j, built P (T j) prime N = some r
  field : x.field = some (Fp r.p hp)
  a : x.a = some (.intmod r.a.val r.p)
  b : x.b = some (.intmod r.b.val r.p)
  crv : x.crv = some (obj r.p hp r.a.val r.b.val)
  disc : (obj r.p hp r.a.val r.b.val).eqn.Δ ≠ 0
  order : 6 ≤ s → x.order = some N
  gens : 7 ≤ s → ∃ l, x.gens = some ⟨obj r.p hp r.a.val r.b.val, l⟩ ∧ Made (obj r.p hp r.a.val r.b.val).Pt c N (l.map Group.Sub.gen) ∧
    (s = 7 → ∀ g ∈ l, g.points = []) ∧ (8 ≤ s → PointsKnown (cv c prime) l)

/-- what is known of the curve at the beginning of a stage -/
structure Inv (P : Pari) (c : Config) (prime : Bool) (N : Nat) (T : Nat → Pick) (s : Nat) (x : Cur) : Prop where
  quiet : c.metadata = false → x.info = []
  noseed : x.seed = none
  known : 5 ≤ s → ∃ r hp, Known P c prime N T s x r hp
  info : 9 ≤ s → (∀ i ∈ x.info, i.1 ∈ Parson.metaNames) ∧ (x.info.map (·.1)).Nodup

variable {P : Pari} {c : Config} {prime : Bool} {N : Nat} {T : Nat → Pick}

theorem inv_low {s : Nat} {x : Cur} (hs : s ≤ 4) (h1 : c.metadata = false → x.info = []) (h2 : x.seed = none) : Inv P c prime N T s x where
  quiet := h1
  noseed := h2
  known h := absurd h (by omega)
  info h := absurd h (by omega)

theorem Inv.low {s : Nat} {x : Cur} (h : Inv P c prime N T s x) (k : Nat) (hk : k ≤ 4) : Inv P c prime N T k x := inv_low hk h.quiet h.noseed

/-- the generator of a stage -/
noncomputable def act (P : Pari) (c : Config) (p : Pick) (s : Nat) (x : Cur) : Option (Cur × Int) :=
  ((stageOf (tables P c).gens s).bind id).bind (call P c p ((stageOf (tables P c).genArgs s).bind id) x)

/-- the checks of a stage -/
def checksOf (P : Pari) (c : Config) (s : Nat) : List Check := (stageOf (tables P c).checks s).getD []

/-! ## The order -/

theorem isprimeI_spec (hP : P.Ok) : PrimeSpec P.isprimeI := by
  intro n
  unfold Pari.isprimeI
  rw [Bool.and_eq_true, decide_eq_true_iff, hP.base.isprime]
  constructor
  · rintro ⟨h1, h2⟩
    exact ⟨n.toNat, by omega, h2⟩
  · rintro ⟨m, rfl, hm⟩
    exact ⟨by exact_mod_cast hm.pos, by simpa using hm⟩

/-- the generators read the order that was accepted, and the tables are those for its kind -/
theorem accepted_texts (hP : P.Ok) (h : accepted P c = some (N, prime)) :
    P.strtoi (orderText P (c.cmOrder.getD [])) = N ∧ primeText P (c.cmOrder.getD []) = prime := by
  generalize hs : c.cmOrder.getD [] = s at *
  unfold accepted at h
  rw [hs, Option.join_eq_some_iff, order_accepted] at h
  obtain ⟨h1, -, -, h2⟩ := h
  have hr := order_product P.strtoi s
  rw [← h1] at hr
  unfold orderText primeText
  by_cases h0 : s.count ',' = 0
  · have hs' : ',' ∉ s := List.count_eq_zero.1 h0
    have : P.strtoi s = N := by
      unfold requestedOrder at hr
      simp only [h0, if_true] at hr
      exact Option.some.inj hr
    rw [if_pos h0, this]
    exact ⟨rfl, by rw [h2]; simp [h0, hs']⟩
  · have hs' : ',' ∈ s := by
      by_contra h'
      exact h0 (List.count_eq_zero.2 h')
    rw [if_neg h0, hr]
    exact ⟨hP.strtoi N, by rw [h2]; simp [h0, hs']⟩

/-! ## The tables -/

theorem tables_cm (h : c.method = METHOD_CM) : tables P c = cmSetup (orderText P) (primeText P) c := by
  unfold tables run
  rw [if_pos (Or.inl h)]

theorem table (hP : P.Ok) (h : c.method = METHOD_CM) (ha : accepted P c = some (N, prime)) :
    (tables P c).gens.seed = some .skip ∧ (tables P c).gens.field = some .skip ∧ (tables P c).gens.a = some .skip ∧ (tables P c).gens.b = some .skip ∧
    (tables P c).gens.curve = some (if prime then .cmCurvePrime else .cmCurveAny) ∧ (tables P c).gens.order = some .cmOrder ∧
    (tables P c).gens.gens = some (if c.unique then .gensOne else .gensAny) ∧ (tables P c).gens.points = some (pointsChoice (cv c prime)) ∧
    (tables P c).gens.metadata = some (if c.metadata then .metadata else .skip) ∧
    (tables P c).genArgs.curve = some (.text (orderText P (c.cmOrder.getD []))) ∧
    (tables P c).genArgs.order = some (.text (orderText P (c.cmOrder.getD []))) ∧
    (prime = false → (tables P c).genArgs.points = (ainit c).points) := by
  have ea : (ainit c).points = if c.pointsType = .random then some (.size c.pointsAmount) else none := by
    unfold ainit
    simp only
    split <;> split <;> split <;> rfl
  have hpr := (accepted_texts hP ha).2
  have e1 : ¬ METHOD_CM = METHOD_ANOMALOUS := by decide
  rw [tables_cm h, ea]
  simp only [cmSetup, cmGinit, cmAinit, h, if_true, hpr, if_neg e1]
  cases prime with
  | true =>
    refine ⟨rfl, rfl, rfl, rfl, rfl, rfl, rfl, rfl, rfl, ?_, ?_, fun h => by cases h⟩
    all_goals split <;> rfl
  | false =>
    refine ⟨rfl, rfl, rfl, rfl, rfl, rfl, rfl, rfl, rfl, ?_, ?_, fun _ => ?_⟩
    all_goals split <;> rfl

theorem table_checks (h : c.method = METHOD_CM) (s : Nat) : checksOf P c s =
    if s = 4 then [.curveNonzero] else if s = 7 ∧ c.hexCheck.isSome then [.hexParam] else [] := by
  unfold checksOf
  rw [tables_cm h]
  simp only [cmSetup]
  match s with
  | 0 | 1 | 2 | 3 | 4 | 5 | 6 | 7 | 8 => simp [stageOf, Table.const, cmCinit]
  | n + 9 => simp [stageOf]

/-! ## The stages -/

/-- every check that does not ask for hex digits accepts -/
def Accepts (P : Pari) (c : Config) (s : Nat) (x : Cur) : Prop := ∀ k ∈ checksOf P c s, k ≠ .hexParam → ∃ v, verdict x k = some v ∧ 0 < v

/-- what a call of a generator may come to: the next stage, if the checks accept; a failure that falls back to an earlier one -/
def Goes (P : Pari) (c : Config) (prime : Bool) (N : Nat) (T : Nat → Pick) (s : Nat) (x' : Cur) (d : Int) : Prop :=
  (d = 1 ∧ Inv P c prime N T 1 x' ∧ (Accepts P c s x' → Inv P c prime N T (s + 1) x')) ∨
  (d ≤ 0 ∧ (0 ≤ (s : Int) + d → (s : Int) + d = 1 ∧ Inv P c prime N T 1 x'))

theorem goes_min (s : Nat) (hs : s < 9) (x' : Cur) : Goes P c prime N T s x' Engine.INT_MIN :=
  Or.inr ⟨by decide, fun h => absurd h (by simp only [Engine.INT_MIN]; omega)⟩

theorem step_skip (hP : P.Ok) (h : c.method = METHOD_CM) (hacc : accepted P c = some (N, prime)) (i s : Nat) (hs : s < 4) (x : Cur)
    (hi : Inv P c prime N T s x) (x' : Cur) (d : Int) (ha : act P c (T i) s x = some (x', d)) : Goes P c prime N T s x' d := by
  obtain ⟨t0, t1, t2, t3, -⟩ := table hP h hacc
  have : act P c (T i) s x = some (x, 1) := by
    match s, hs with
    | 0, _ => simp only [act, stageOf, t0, Option.bind_some, id, call, Whole.call]
    | 1, _ => simp only [act, stageOf, t1, Option.bind_some, id, call, Whole.call]
    | 2, _ => simp only [act, stageOf, t2, Option.bind_some, id, call, Whole.call]
    | 3, _ => simp only [act, stageOf, t3, Option.bind_some, id, call, Whole.call]
  rw [this] at ha
  cases ha
  exact Or.inl ⟨rfl, hi.low 1 (by omega), fun _ => hi.low (s + 1) (by omega)⟩

/-- the curve stage: what the construction comes to -/
theorem act_curve (hP : P.Ok) (h : c.method = METHOD_CM) (hacc : accepted P c = some (N, prime)) (p : Pick) (x : Cur) :
    (∃ r, built P p prime N = some r ∧ act P c p 4 x = setResult x r) ∨ (built P p prime N = none ∧ act P c p 4 x = some (x, Engine.INT_MIN)) ∨
      (prime = false ∧ cmGenAny (calls P p) P.isprimeI P.issquarefree P.traces N p.rounds = some none ∧ act P c p 4 x = some (x, -3)) := by
  obtain ⟨-, -, -, -, t4, -, -, -, -, a4, -⟩ := table hP h hacc
  have ht := (accepted_texts hP hacc).1
  cases prime with
  | true =>
    simp only [act, stageOf, t4, a4, if_true, Option.bind_some, id, call, textOf, ht, curvePrime, built]
    cases hb : cmGenPrime (calls P p) P.isprimeI P.cornacchia2 (P.logN N) N p.rounds p.tries with
    | none => exact Or.inr (Or.inl ⟨rfl, rfl⟩)
    | some r => exact Or.inl ⟨r, rfl, rfl⟩
  | false =>
    simp only [act, stageOf, t4, a4, Bool.false_eq_true, if_false, Option.bind_some, id, call, textOf, ht, curveAny, built]
    cases hb : cmGenAny (calls P p) P.isprimeI P.issquarefree P.traces N p.rounds with
    | none => exact Or.inr (Or.inl ⟨rfl, rfl⟩)
    | some o =>
      cases o with
      | none => exact Or.inr (Or.inr ⟨trivial, rfl, rfl⟩)
      | some r => exact Or.inl ⟨r, rfl, rfl⟩

theorem step_curve (hP : P.Ok) (h : c.method = METHOD_CM) (hacc : accepted P c = some (N, prime)) (i : Nat) (x : Cur) (hi : Inv P c prime N T 4 x)
    (x' : Cur) (d : Int) (ha : act P c (T i) 4 x = some (x', d)) : Goes P c prime N T 4 x' d := by
  rcases act_curve hP h hacc (T i) x with ⟨r, hb, e⟩ | ⟨-, e⟩ | ⟨-, -, e⟩
  · rw [e] at ha
    unfold setResult at ha
    split at ha
    · rename_i hp
      cases ha
      refine Or.inl ⟨rfl, inv_low (by omega) hi.quiet hi.noseed, fun hc => ?_⟩
      obtain ⟨v, hv, h0⟩ := hc .curveNonzero (by rw [table_checks h]; simp) (by decide)
      simp only [verdict, Option.map_some, Option.some.injEq] at hv
      have hd : (obj r.p hp r.a.val r.b.val).eqn.Δ ≠ 0 := by
        intro hd
        rw [if_pos hd] at hv
        omega
      exact ⟨hi.quiet, hi.noseed, fun _ => ⟨r, hp, ⟨i, hb⟩, rfl, rfl, rfl, rfl, hd, fun h => absurd h (by omega), fun h => absurd h (by omega)⟩,
        fun h => absurd h (by omega)⟩
    · cases ha
  · rw [e] at ha
    cases ha
    exact goes_min 4 (by omega) _
  · rw [e] at ha
    cases ha
    exact Or.inr ⟨by decide, fun _ => ⟨by decide, hi.low 1 (by omega)⟩⟩

theorem step_order (hP : P.Ok) (h : c.method = METHOD_CM) (hacc : accepted P c = some (N, prime)) (i : Nat) (x : Cur) (hi : Inv P c prime N T 5 x)
    (x' : Cur) (d : Int) (ha : act P c (T i) 5 x = some (x', d)) : Goes P c prime N T 5 x' d := by
  obtain ⟨-, -, -, -, -, t5, -, -, -, -, a5, -⟩ := table hP h hacc
  obtain ⟨r, hp, hk⟩ := hi.known (by omega)
  simp only [act, stageOf, t5, a5, Option.bind_some, id, call, textOf, Option.map_some, (accepted_texts hP hacc).1, cmGenOrder, Option.some.injEq,
    Prod.mk.injEq] at ha
  obtain ⟨rfl, rfl⟩ := ha
  refine Or.inl ⟨rfl, inv_low (by omega) hi.quiet hi.noseed, fun _ => ?_⟩
  exact ⟨hi.quiet, hi.noseed, fun _ => ⟨r, hp, hk.built, hk.field, hk.a, hk.b, hk.crv, hk.disc, fun _ => rfl, fun h => absurd h (by omega)⟩,
    fun h => absurd h (by omega)⟩

/-- the number of points of a curve that was constructed -/
theorem card_known (hr : Right P prime N T) {s : Nat} {x : Cur} {r : Result} {hp : r.p.Prime} (hk : Known P c prime N T s x r hp) :
    Nat.card (obj r.p hp r.a.val r.b.val).Pt = N := by
  obtain ⟨j, hj⟩ := hk.built
  obtain ⟨⟨_, hc⟩, _⟩ := hr j r hj
  have : Fact r.p.Prime := ⟨hp⟩
  rw [(Special.card_obj r.p hp _ _ hk.disc).2]
  simpa using hc

theorem step_gens (hP : P.Ok) (h : c.method = METHOD_CM) (hacc : accepted P c = some (N, prime)) (hT : TapeOk P c prime N T) (i : Nat)
    (x : Cur) (hi : Inv P c prime N T 6 x) (x' : Cur) (d : Int) (ha : act P c (T i) 6 x = some (x', d)) : Goes P c prime N T 6 x' d := by
  obtain ⟨-, -, -, -, -, -, t6, -⟩ := table hP h hacc
  obtain ⟨r, hp, hk⟩ := hi.known (by omega)
  have e6 := hk.order (by omega)
  obtain ⟨j, hj⟩ := hk.built
  have hg := hT.gens i j r hp hj hk.disc
  have hord := hP.base.ord (obj r.p hp r.a.val r.b.val)
  have filt : ∀ o : Option (List (Group.Pt (obj r.p hp r.a.val r.b.val).Pt)),
      (∀ l, o = some l → Made (obj r.p hp r.a.val r.b.val).Pt c N l) →
      ∀ y, found x (obj r.p hp r.a.val r.b.val) o = y → Goes P c prime N T 6 y.1 y.2 := by
    intro o o1 y hy
    subst hy
    cases o with
    | none => exact Or.inr ⟨by change (-5 : Int) ≤ 0; decide, fun _ => ⟨by change (6 : Int) + -5 = 1; decide, hi.low 1 (by omega)⟩⟩
    | some l =>
      refine Or.inl ⟨rfl, inv_low (by omega) hi.quiet hi.noseed, fun _ => ?_⟩
      refine ⟨hi.quiet, hi.noseed, fun _ => ⟨r, hp, ⟨j, hj⟩, hk.field, hk.a, hk.b, hk.crv, hk.disc, fun _ => e6, fun _ => ⟨bare l, rfl, ?_, ?_, ?_⟩⟩,
        fun h => absurd h (by omega)⟩
      · rw [bare_gen]; exact o1 l rfl
      · intro _ g hg
        unfold bare at hg
        rw [List.mem_map] at hg
        obtain ⟨_, _, rfl⟩ := hg
        rfl
      · exact fun h => absurd h (by omega)
  have base : ∀ l, l = Group.gensAny (P.ord (obj r.p hp r.a.val r.b.val)) N ((T i).gens (obj r.p hp r.a.val r.b.val)) →
      (Nat.card (obj r.p hp r.a.val r.b.val).Pt = N → GensKnown (obj r.p hp r.a.val r.b.val).Pt (view c) l) → Made (obj r.p hp r.a.val r.b.val).Pt c N l := by
    rintro l rfl hkn
    refine ⟨fun g hm => ?_, gens_nonzero _ _ _ hg, Group.gens_generate _ hg _ _, hkn, ?_, fun g hm => ?_⟩
    · obtain ⟨Q, -, rfl⟩ := List.mem_map.1 hm
      exact hord Q
    · unfold Group.gensAny
      rw [List.length_map]
      exact Whole.gens_few _ hg
    · obtain ⟨Q, -, rfl⟩ := List.mem_map.1 hm
      exact Nat.div_le_self _ _
  cases hu : c.unique with
  | true =>
    rw [hu, if_pos rfl] at t6
    simp only [act, stageOf, t6, Option.bind_some, id, call, Whole.call, hk.crv, e6, gensStage, Option.some.injEq] at ha
    refine filt _ (fun l hl => base l ?_ fun hN => known_one (view c) hu _ hord _ hg l (by rw [hN]; exact hl)) _ ha
    unfold Group.gensOne at hl
    split at hl
    · cases hl
    · exact (Option.some.inj hl).symm
  | false =>
    rw [hu, if_neg (by decide)] at t6
    simp only [act, stageOf, t6, Option.bind_some, id, call, Whole.call, hk.crv, e6, gensStage, Option.some.injEq] at ha
    refine filt _ (fun l hl => base l (Option.some.inj hl).symm fun hN => ?_) _ ha
    cases hl
    have := known_any (view c) hu rfl _ hord _ hg
    rw [hN] at this
    exact this

theorem points_any (P : Whole.Pari) (p : Whole.Pick) (E : Crv) (gens : List (Group.Pt E.Pt)) (a1 a2 : Option Arg) :
    pointsStage P p E gens a1 .pointsPrime = pointsStage P p E gens a2 .pointsPrime := rfl

theorem step_points (hP : P.Ok) (h : c.method = METHOD_CM) (hacc : accepted P c = some (N, prime)) (hT : TapeOk P c prime N T) (i : Nat)
    (x : Cur) (hi : Inv P c prime N T 7 x) (x' : Cur) (d : Int) (ha : act P c (T i) 7 x = some (x', d)) : Goes P c prime N T 7 x' d := by
  obtain ⟨-, -, -, -, -, -, -, t7, -, -, -, a7⟩ := table hP h hacc
  obtain ⟨r, hp, hk⟩ := hi.known (by omega)
  obtain ⟨l, e6, hg, e7, -⟩ := hk.gens (by omega)
  have e5 := hk.crv
  have key : ∀ l', l'.map Group.Sub.gen = l.map Group.Sub.gen → PointsKnown (cv c prime) l' →
      ∀ y, y = { x with gens := some ⟨obj r.p hp r.a.val r.b.val, l'⟩ } → Goes P c prime N T 7 y 1 := by
    rintro l' hl' hps y rfl
    refine Or.inl ⟨rfl, inv_low (by omega) hi.quiet hi.noseed, fun _ => ?_⟩
    exact ⟨hi.quiet, hi.noseed, fun _ => ⟨r, hp, hk.built, hk.field, hk.a, hk.b, hk.crv, hk.disc, fun _ => hk.order (by omega),
      fun _ => ⟨l', rfl, by rw [hl']; exact hg, fun h => by omega, fun _ => hps⟩⟩, fun h => absurd h (by omega)⟩
  have hcall : ∀ a, call P c (T i) a x (pointsChoice (cv c prime)) = Whole.call P.toPari c.bits (T i).toPick a x (pointsChoice (cv c prime)) := by
    intro a
    unfold pointsChoice
    cases (cv c prime).pointsType with
    | random => simp only; split <;> rfl
    | _ => rfl
  simp only [act, stageOf, t7, Option.bind_some, id] at ha
  rw [hcall] at ha
  by_cases hn : (cv c prime).pointsType = .none
  · have : pointsChoice (cv c prime) = .skip := by simp only [pointsChoice, hn]
    rw [this] at ha
    simp only [Whole.call, Option.some.injEq, Prod.mk.injEq] at ha
    obtain ⟨rfl, rfl⟩ := ha
    refine key l rfl ⟨fun s hs => ⟨[], ?_, fun q hq => (nomatch hq), fun Q hQ => ?_⟩, (fun h => by rw [hn] at h; cases h), (fun h => by rw [hn] at h; cases h)⟩ _ (by rw [← e6])
    · rw [e7 rfl s hs]; rfl
    · simp only [pointOrders, hn, Option.some.injEq] at hQ
      subst hQ
      exact ⟨List.Pairwise.nil, fun d => ⟨fun h => (nomatch h), fun h => h.elim⟩⟩
  · rw [call_points _ _ _ _ _ _ hn] at ha
    simp only [call.withPoints, e6, e5, if_true, Option.map_eq_some_iff, Prod.mk.injEq] at ha
    obtain ⟨l', p1, rfl, rfl⟩ := ha
    have p1' : pointsStage P.toPari (T i).toPick (obj r.p hp r.a.val r.b.val) (l.map Group.Sub.gen) (ainit (cv c prime)).points
        (pointsChoice (cv c prime)) = some l' := by
      cases prime with
      | true => exact p1
      | false => rw [a7 rfl] at p1; exact p1
    have p2 := points_gen _ _ _ _ _ _ _ p1'
    refine key l' p2 ?_ _ (by simp only [e5])
    refine (points_known P.toPari hP.base (cv c prime) (T i).toPick (hT.picks i).which (hT.picks i).mul _ _ (fun g hg' => hg.order g hg') hg.nonzero
      _ p1').2

theorem step_metadata (hP : P.Ok) (h : c.method = METHOD_CM) (hacc : accepted P c = some (N, prime)) (hT : TapeOk P c prime N T) (i : Nat)
    (x : Cur) (hi : Inv P c prime N T 8 x) (x' : Cur) (d : Int) (ha : act P c (T i) 8 x = some (x', d)) : Goes P c prime N T 8 x' d := by
  obtain ⟨-, -, -, -, -, -, -, -, t8, -⟩ := table hP h hacc
  obtain ⟨r, hp, hk⟩ := hi.known (by omega)
  obtain ⟨l, e6, hg, -, hps⟩ := hk.gens (by omega)
  have key : ∀ i : List (String × Text), (c.metadata = false → i = []) → (∀ y ∈ i, y.1 ∈ Parson.metaNames) ∧ (i.map (·.1)).Nodup →
      ∀ y, y = { x with info := i } → Goes P c prime N T 8 y 1 := by
    rintro i f1 f2 y rfl
    refine Or.inl ⟨rfl, inv_low (by omega) f1 hi.noseed, fun _ => ?_⟩
    exact ⟨f1, hi.noseed, fun _ => ⟨r, hp, hk.built, hk.field, hk.a, hk.b, hk.crv, hk.disc, fun _ => hk.order (by omega),
      fun _ => ⟨l, e6, hg, fun h => by omega, fun _ => hps (by omega)⟩⟩, fun _ => f2⟩
  cases hm : c.metadata with
  | true =>
    simp only [act, stageOf, t8, hm, if_true, Option.bind_some, id, call, Whole.call, Option.some.injEq, Prod.mk.injEq] at ha
    obtain ⟨rfl, rfl⟩ := ha
    exact key _ (fun h => by rw [hm] at h; cases h) (hT.picks i).info _ rfl
  | false =>
    have : act P c (T i) 8 x = some (x, 1) := by
      simp only [act, stageOf, t8, hm, Bool.false_eq_true, if_false, Option.bind_some, id, call, Whole.call]
    rw [this] at ha
    cases ha
    exact key [] (fun _ => rfl) ⟨fun y hy => (nomatch hy), List.nodup_nil⟩ _ (by rw [← hi.quiet hm])

/-- a call of the generator of a stage -/
theorem goes (hP : P.Ok) (h : c.method = METHOD_CM) (hacc : accepted P c = some (N, prime)) (hT : TapeOk P c prime N T) (i s : Nat)
    (hs : s < 9) (x : Cur) (hi : Inv P c prime N T s x) (x' : Cur) (d : Int) (ha : act P c (T i) s x = some (x', d)) : Goes P c prime N T s x' d := by
  by_cases h4 : s < 4
  · exact step_skip hP h hacc i s h4 x hi x' d ha
  have : s = 4 ∨ s = 5 ∨ s = 6 ∨ s = 7 ∨ s = 8 := by omega
  rcases this with rfl | rfl | rfl | rfl | rfl
  · exact step_curve hP h hacc i x hi x' d ha
  · exact step_order hP h hacc i x hi x' d ha
  · exact step_gens hP h hacc hT i x hi x' d ha
  · exact step_points hP h hacc hT i x hi x' d ha
  · exact step_metadata hP h hacc hT i x hi x' d ha

end Ecgen.Ordered
