import Verif.Cli.Setup
import Verif.Cli.Props

/-!
# What a run does with the options (C53, C63)
-/

namespace Ecgen.Cli

open Spec

/-! ## Specification -/

/-- the argument a generator reads (the uses of `HAS_ARG`: order.c:50, 70; gens.c:50; point.c:27; cm_any.c:251, 272; cm_prime.c:142;
anomalous.c:92, 108). `points_gen_trial` is given its argument by the invalid curve method itself (invalid.c:179-180). -/
def needs : Gen → Option ArgKind
  | .orderCofactor => some .long
  | .orderSmooth => some .long
  | .gensCofactor => some .long
  | .pointsRandom => some .size
  | .cmCurvePrime => some .text
  | .cmCurveAny => some .text
  | .cmOrder => some .text
  | .anomalousField => some .counter
  | .anomalousEquation => some .counter
  | _ => none

/-- the argument a check reads (hex.c:44) -/
def checkNeeds : Check → Option ArgKind
  | .hexParam => some .text
  | _ => none

/-- a stage that can be run: there is a generator, and it has the argument it reads -/
def StageOk (g : Option Gen) (a : Option Arg) : Prop :=
  ∃ x, g = some x ∧ ∀ k, needs x = some k → ∃ y, a = some y ∧ y.kind = k

/-- checks that can be run -/
def ChecksOk (l : List Check) (a : Option Arg) : Prop := ∀ x ∈ l, ∀ k, checkNeeds x = some k → ∃ y, a = some y ∧ y.kind = k

/-- a complete setup, for the stages from `seed` to `metadata` -/
structure Complete (s : Setup) : Prop where
  seed : StageOk s.gens.seed s.genArgs.seed
  field : StageOk s.gens.field s.genArgs.field
  a : StageOk s.gens.a s.genArgs.a
  b : StageOk s.gens.b s.genArgs.b
  curve : StageOk s.gens.curve s.genArgs.curve
  order : StageOk s.gens.order s.genArgs.order
  gens : StageOk s.gens.gens s.genArgs.gens
  points : StageOk s.gens.points s.genArgs.points
  metadata : StageOk s.gens.metadata s.genArgs.metadata
  check_curve : ChecksOk s.checks.curve s.checkArgs.curve
  check_order : ChecksOk s.checks.order s.checkArgs.order
  check_gens : ChecksOk s.checks.gens s.checkArgs.gens
  check_points : ChecksOk s.checks.points s.checkArgs.points

/-- the part of the argument of a stage that is looked at -/
def seen (g : Option Gen) (a : Option Arg) : Option Gen × Option Arg :=
  (g, match g with
      | some x => if (needs x).isSome then a else none
      | none => none)

/-- what the search depends on: the generators with the arguments they read, and the checks with theirs -/
structure Effect where
  stages : Table (Option Gen × Option Arg)
  checks : Table (List Check × Option Arg)
  deriving DecidableEq, Repr

def Setup.effect (s : Setup) : Effect :=
  { stages :=
      ⟨seen s.gens.seed s.genArgs.seed, seen s.gens.field s.genArgs.field, seen s.gens.a s.genArgs.a, seen s.gens.b s.genArgs.b,
        seen s.gens.curve s.genArgs.curve, seen s.gens.order s.genArgs.order, seen s.gens.gens s.genArgs.gens,
        seen s.gens.points s.genArgs.points, seen s.gens.metadata s.genArgs.metadata⟩
    checks :=
      ⟨(s.checks.seed, s.checkArgs.seed), (s.checks.field, s.checkArgs.field), (s.checks.a, s.checkArgs.a), (s.checks.b, s.checkArgs.b),
        (s.checks.curve, s.checkArgs.curve), (s.checks.order, s.checkArgs.order), (s.checks.gens, s.checkArgs.gens),
        (s.checks.points, s.checkArgs.points), (s.checks.metadata, s.checkArgs.metadata)⟩ }

/-- the generators that read `cfg->seed` (ansi.c:50, brainpool.c:77) -/
def readsSeed : Option Gen → Bool
  | some .ansiSeedArgument => true
  | some .brainpoolSeedArgument => true
  | some .brainpoolRfcSeedArgument => true
  | _ => false

/-- all that a run depends on: the setups, the seed where it is read, the number of curves (not used by the invalid curve method), and the
range of primes -/
inductive Behaviour where
  | search (e : Effect) (seed : Option Str) (count : Int)
  | invalid (original invalid : Effect) (range : Option Str)
  deriving DecidableEq, Repr

def behaviour (order : Str → Str) (prime : Str → Bool) (c : Config) : Behaviour :=
  match run order prime c with
  | .search s => .search s.effect (if readsSeed s.gens.seed then c.seed else none) c.count
  | .invalid s t r => .invalid s.effect t.effect r

/-- the configuration without an option -/
def erase (c : Config) : Name → Config
  | .field => { c with field := 0 }
  | .method => { c with method := 0 }
  | .count => { c with count := 1 }
  | .random => { c with random := 0 }
  | .prime => { c with prime := false }
  | .cmOrder => { c with cmOrder := none }
  | .koblitz => { c with koblitz := false }
  | .koblitzValue => { c with koblitzValue := 0 }
  | .smooth => { c with smooth := false, smoothValue := 0 }
  | .cofactor => { c with cofactor := false, cofactorValue := 0 }
  | .invalidPrimes => { c with invalidPrimes := none }
  | .seedAlgo => { c with seedAlgo := .none }
  | .seed => { c with seed := none }
  | .family => c
  | .unique => { c with unique := false }
  | .hexCheck => { c with hexCheck := none }
  | .points => { c with pointsType := .prime, pointsAmount := 0 }
  | .metadata => { c with metadata := false }

/-! ## C63: an accepted command line sets up a complete search -/

theorem accepted_algo (n : Int) (os : List Opt) (c : Config) (h : commandLine n os = some c) :
    c.seedAlgo = .none ∨ c.seedAlgo = .ansi ∨ c.seedAlgo = .brainpool ∨ c.seedAlgo = .brainpoolRfc ∨ c.seedAlgo = .nums := by
  have hc := consistent n os c h
  by_cases hn : c.seedAlgo = .none
  · exact Or.inl hn
  · obtain ⟨o, _, ho⟩ := hc.algo.2 hn
    cases o <;> simp [Spec.algo] at ho <;> simp [← ho]

theorem accepted_constraints (n : Int) (os : List Opt) (c : Config) (h : commandLine n os = some c) :
    ¬ (c.prime = true ∧ c.cofactor = true) ∧ ¬ (c.prime = true ∧ c.smooth = true) ∧ ¬ (c.smooth = true ∧ c.cofactor = true) := by
  have hc := consistent n os c h
  rw [hc.prime, hc.smooth, hc.cofactor]
  refine ⟨?_, ?_, ?_⟩ <;> rintro ⟨⟨o, ho, h1⟩, o', ho', h2⟩ <;> have := hc.constraint_unique o ho o' ho' _ _ h1 h2 <;> cases this

theorem accepted_method (n : Int) (os : List Opt) (c : Config) (h : commandLine n os = some c) :
    c.method = 0 ∨ ∃ k, c.method = code k := by
  have hc := consistent n os c h
  by_cases hk : ∃ o ∈ os, ∃ k, kind o = some k
  · obtain ⟨o, ho, k, hk⟩ := hk
    exact Or.inr ⟨k, hc.method o ho k hk⟩
  · refine Or.inl (hc.method_default fun o ho => ?_)
    cases hko : kind o with
    | none => rfl
    | some k => exact absurd ⟨o, ho, k, hko⟩ hk

theorem stageOk_free (x : Gen) (a : Option Arg) (h : needs x = none) : StageOk (some x) a :=
  ⟨x, rfl, fun k hk => by rw [h] at hk; cases hk⟩

theorem stageOk_arg (x : Gen) (y : Arg) (h : needs x = some y.kind) : StageOk (some x) (some y) :=
  ⟨x, rfl, fun k hk => ⟨y, rfl, by rw [h] at hk; exact Option.some.inj hk⟩⟩

theorem points_ok (c : Config) (t : Option Arg) (h : c.pointsType = .random → t = some (.size c.pointsAmount)) :
    StageOk (some (pointsChoice c)) t := by
  unfold pointsChoice
  split
  · rename_i hp
    rw [h hp]
    split
    · exact stageOk_arg _ _ rfl
    · exact stageOk_free _ _ rfl
  all_goals exact stageOk_free _ _ rfl

theorem checks_points_ok (c : Config) : ChecksOk (if c.hexCheck.isSome then [.hexParam] else []) (c.hexCheck.map .text) := by
  cases hh : c.hexCheck with
  | none => intro x hx; simp at hx
  | some s =>
    intro x hx k hk
    simp only [Option.isSome_some, if_true, List.mem_singleton] at hx
    subst hx
    cases hk
    exact ⟨.text s, rfl, rfl⟩

theorem checks_free (l : List Check) (a : Option Arg) (h : ∀ x ∈ l, checkNeeds x = none) : ChecksOk l a :=
  fun x hx k hk => by rw [h x hx] at hk; cases hk

theorem orderArg (c : Config) :
    (c.smooth = true → (ainit c).order = some (.long c.smoothValue)) ∧
    (c.smooth = false → c.cofactor = true → (ainit c).order = some (.long c.cofactorValue)) ∧
    (c.cofactor = true → (ainit c).gens = some (.long c.cofactorValue)) ∧
    (c.pointsType = .random → (ainit c).points = some (.size c.pointsAmount)) := by
  unfold ainit
  cases c.smooth <;> cases c.cofactor <;> by_cases h : c.pointsType = .random <;> simp [h]

theorem order_ok (c : Config) : StageOk (some (orderChoice c).1) (ainit c).order := by
  obtain ⟨h1, h2, _, _⟩ := orderArg c
  unfold orderChoice
  cases hp : c.prime with
  | true => exact stageOk_free _ _ rfl
  | false =>
    cases hc : c.cofactor with
    | true =>
      cases hs : c.smooth with
      | true => rw [h1 hs]; exact stageOk_arg _ _ rfl
      | false => rw [h2 hs hc]; exact stageOk_arg _ _ rfl
    | false =>
      cases hs : c.smooth with
      | true => rw [h1 hs]; exact stageOk_arg _ _ rfl
      | false => exact stageOk_free _ _ rfl

theorem order_ok_koblitz (c : Config) : StageOk (some (orderChoiceKoblitz c).1) (ainit c).order := by
  obtain ⟨h1, h2, _, _⟩ := orderArg c
  unfold orderChoiceKoblitz
  cases hp : c.prime with
  | true => exact stageOk_free _ _ rfl
  | false =>
    cases hc : c.cofactor with
    | true =>
      cases hs : c.smooth with
      | true => rw [h1 hs]; exact stageOk_arg _ _ rfl
      | false => rw [h2 hs hc]; exact stageOk_arg _ _ rfl
    | false =>
      cases hs : c.smooth with
      | true => rw [h1 hs]; exact stageOk_arg _ _ rfl
      | false => cases c.koblitz <;> exact stageOk_free _ _ rfl

theorem gens_ok (c : Config) : StageOk (some (gensChoice c).1) (ainit c).gens := by
  obtain ⟨_, _, h3, _⟩ := orderArg c
  unfold gensChoice
  cases hu : c.unique with
  | true => exact stageOk_free _ _ rfl
  | false =>
    cases hc : c.cofactor with
    | true => rw [h3 hc]; exact stageOk_arg _ _ rfl
    | false => exact stageOk_free _ _ rfl

/-- the six stages chosen by the method -/
theorem ginitMethod_ok (c : Config)
    (ha : c.seedAlgo = .none ∨ c.seedAlgo = .ansi ∨ c.seedAlgo = .brainpool ∨ c.seedAlgo = .brainpoolRfc ∨ c.seedAlgo = .nums)
    (hk : c.koblitzValue = 0 ∨ c.koblitzValue = 1) :
    StageOk (ginitMethod c).1.seed (ainit c).seed ∧ StageOk (ginitMethod c).1.field (ainit c).field ∧
    StageOk (ginitMethod c).1.a (ainit c).a ∧ StageOk (ginitMethod c).1.b (ainit c).b ∧
    StageOk (ginitMethod c).1.order (ainit c).order ∧ StageOk (ginitMethod c).1.gens (ainit c).gens := by
  have seedc (x y z : Gen) (a : Option Arg) (hx : needs x = none) (hy : needs y = none) (hz : needs z = none) :
      StageOk (some (seedChoice c x y z).1) a := by
    unfold seedChoice
    split
    · exact stageOk_free _ _ hx
    · split
      · exact stageOk_free _ _ hy
      · exact stageOk_free _ _ hz
  have two (p : Prop) [Decidable p] (x y : Gen) (a : Option Arg) (hx : needs x = none) (hy : needs y = none) :
      StageOk (some (if p then x else y)) a := by
    split
    · exact stageOk_free _ _ hx
    · exact stageOk_free _ _ hy
  unfold ginitMethod
  rcases ha with e | e | e | e | e
  · rw [if_neg (by simp [e])]
    by_cases hm : c.method = METHOD_FAMILY
    · rw [if_pos hm]
      exact ⟨two _ _ _ _ rfl rfl, stageOk_free _ _ rfl, stageOk_free _ _ rfl, two _ _ _ _ rfl rfl, stageOk_free _ _ rfl,
        stageOk_free _ _ rfl⟩
    · rw [if_neg hm]
      refine ⟨?_, ?_, ?_, ?_, order_ok_koblitz c, gens_ok c⟩
      · cases c.koblitz <;> exact stageOk_free _ _ rfl
      · cases c.koblitz <;> exact two _ _ _ _ rfl rfl
      · cases c.koblitz with
        | true =>
          rcases hk with hk | hk
          · simp only [hk, if_true]; exact stageOk_free _ _ rfl
          · simp only [hk, if_true]; exact stageOk_free _ _ rfl
        | false => exact two _ _ _ _ rfl rfl
      · cases c.koblitz with
        | true => exact stageOk_free _ _ rfl
        | false => exact two _ _ _ _ rfl rfl
  · simp only [e, ne_eq, reduceCtorEq, not_false_eq_true, if_true]
    exact ⟨seedc _ _ _ _ rfl rfl rfl, two _ _ _ _ rfl rfl, stageOk_free _ _ rfl, stageOk_free _ _ rfl, order_ok c, gens_ok c⟩
  · simp only [e, ne_eq, reduceCtorEq, not_false_eq_true, if_true]
    exact ⟨seedc _ _ _ _ rfl rfl rfl, stageOk_free _ _ rfl, stageOk_free _ _ rfl, stageOk_free _ _ rfl, stageOk_free _ _ rfl,
      stageOk_free _ _ rfl⟩
  · simp only [e, ne_eq, reduceCtorEq, not_false_eq_true, if_true]
    exact ⟨seedc _ _ _ _ rfl rfl rfl, stageOk_free _ _ rfl, stageOk_free _ _ rfl, stageOk_free _ _ rfl, stageOk_free _ _ rfl,
      stageOk_free _ _ rfl⟩
  · simp only [e, ne_eq, reduceCtorEq, not_false_eq_true, if_true]
    exact ⟨stageOk_free _ _ rfl, stageOk_free _ _ rfl, stageOk_free _ _ rfl, stageOk_free _ _ rfl, stageOk_free _ _ rfl,
      stageOk_free _ _ rfl⟩

theorem exhaustive_complete (c : Config)
    (ha : c.seedAlgo = .none ∨ c.seedAlgo = .ansi ∨ c.seedAlgo = .brainpool ∨ c.seedAlgo = .brainpoolRfc ∨ c.seedAlgo = .nums)
    (hk : c.koblitzValue = 0 ∨ c.koblitzValue = 1) : Complete (exhaustiveSetup c) := by
  obtain ⟨h1, h2, h3, h4, h5, h6⟩ := ginitMethod_ok c ha hk
  have hfree : ∀ a, ChecksOk [.gensAnomalous, .brainpoolGens] a := fun a => checks_free _ _ (by decide)
  have hfree1 : ∀ a, ChecksOk [.brainpoolOrder] a := fun a => checks_free _ _ (by decide)
  have hfree0 : ∀ a, ChecksOk [] a := fun a => checks_free _ _ (by decide)
  refine ⟨h1, h2, h3, h4, ?_, h5, h6, points_ok c _ (orderArg c).2.2.2, ?_, ?_, ?_, ?_, ?_⟩
  · change StageOk (some (if c.method = METHOD_TWIST then .curveAnyTwist else .curveAny)) _
    split <;> exact stageOk_free _ _ rfl
  · change StageOk (some (if c.metadata then .metadata else .skip)) _
    split <;> exact stageOk_free _ _ rfl
  · have : (exhaustiveSetup c).checks.curve = [.curveNonzero] := by
      simp only [exhaustiveSetup, cinit]
      split
      · split <;> rfl
      · rfl
    rw [this]
    exact checks_free _ _ (by decide)
  · simp only [exhaustiveSetup, cinit]
    split
    · split <;> first | exact hfree1 _ | exact hfree0 _
    · exact hfree0 _
  · simp only [exhaustiveSetup, cinit]
    split
    · split <;> first | exact hfree _ | exact hfree0 _
    · exact hfree0 _
  · have : (exhaustiveSetup c).checks.points = if c.hexCheck.isSome then [.hexParam] else [] := by
      simp only [exhaustiveSetup, cinit]
      split
      · split <;> rfl
      · rfl
    rw [this]
    exact checks_points_ok c

theorem cm_complete (order : Str → Str) (prime : Str → Bool) (c : Config)
    (hm : c.method = METHOD_CM ∨ c.method = METHOD_ANOMALOUS ∨ c.method = METHOD_SUPERSINGULAR) : Complete (cmSetup order prime c) := by
  have two (p : Prop) [Decidable p] (x y : Gen) (a : Option Arg) (hx : needs x = none) (hy : needs y = none) :
      StageOk (some (if p then x else y)) a := by
    split
    · exact stageOk_free _ _ hx
    · exact stageOk_free _ _ hy
  have hp (o : Str) : c.pointsType = .random → (cmAinit c o).points = some (.size c.pointsAmount) := by
    intro h
    unfold cmAinit
    simp only [h, if_true]
  have hcurve (o : Str) (h : c.method = METHOD_CM) : (cmAinit c o).curve = some (.text o) ∧ (cmAinit c o).order = some (.text o) := by
    have : ¬ METHOD_CM = METHOD_ANOMALOUS := by decide
    unfold cmAinit
    simp only [h, if_true, if_neg this]
    by_cases hr : c.pointsType = .random <;> simp [hr]
  have hfield (o : Str) (h : c.method = METHOD_ANOMALOUS) : (cmAinit c o).field = some .counter ∧ (cmAinit c o).b = some .counter := by
    unfold cmAinit
    simp only [h, if_true]
    by_cases hr : c.pointsType = .random <;> simp [hr]
  have n1 : ¬ METHOD_ANOMALOUS = METHOD_CM := by decide
  have n2 : ¬ METHOD_SUPERSINGULAR = METHOD_CM := by decide
  have n3 : ¬ METHOD_SUPERSINGULAR = METHOD_ANOMALOUS := by decide
  have hck : ∀ a, ChecksOk [.curveNonzero] a := fun a => checks_free _ _ (by decide)
  have hfree0 : ∀ a, ChecksOk [] a := fun a => checks_free _ _ (by decide)
  rcases hm with h | h | h
  · obtain ⟨e1, e2⟩ := hcurve (order (c.cmOrder.getD [])) h
    unfold cmSetup cmGinit
    simp only [h, if_true]
    cases hpr : prime (c.cmOrder.getD []) with
    | true =>
      refine ⟨stageOk_free _ _ rfl, stageOk_free _ _ rfl, stageOk_free _ _ rfl, stageOk_free _ _ rfl, ?_, ?_, two _ _ _ _ rfl rfl,
        stageOk_free _ _ rfl, two _ _ _ _ rfl rfl, hck _, hfree0 _, hfree0 _, checks_points_ok c⟩
      · simp only [e1]; exact stageOk_arg _ _ rfl
      · simp only [e2]; exact stageOk_arg _ _ rfl
    | false =>
      refine ⟨stageOk_free _ _ rfl, stageOk_free _ _ rfl, stageOk_free _ _ rfl, stageOk_free _ _ rfl, ?_, ?_, two _ _ _ _ rfl rfl,
        points_ok c _ (hp _), two _ _ _ _ rfl rfl, hck _, hfree0 _, hfree0 _, checks_points_ok c⟩
      · simp only [e1]; exact stageOk_arg _ _ rfl
      · simp only [e2]; exact stageOk_arg _ _ rfl
  · obtain ⟨e1, e2⟩ := hfield (order (c.cmOrder.getD [])) h
    unfold cmSetup cmGinit
    simp only [h, if_true, if_neg n1]
    refine ⟨stageOk_free _ _ rfl, ?_, stageOk_free _ _ rfl, ?_, stageOk_free _ _ rfl, stageOk_free _ _ rfl, two _ _ _ _ rfl rfl,
      points_ok c _ (hp _), two _ _ _ _ rfl rfl, hck _, hfree0 _, hfree0 _, checks_points_ok c⟩
    · simp only [e1]; exact stageOk_arg _ _ rfl
    · simp only [e2]; exact stageOk_arg _ _ rfl
  · unfold cmSetup cmGinit
    simp only [h, if_true, if_neg n2, if_neg n3]
    exact ⟨stageOk_free _ _ rfl, two _ _ _ _ rfl rfl, stageOk_free _ _ rfl, stageOk_free _ _ rfl, stageOk_free _ _ rfl,
      stageOk_free _ _ rfl, two _ _ _ _ rfl rfl, points_ok c _ (hp _), two _ _ _ _ rfl rfl, hck _, hfree0 _, hfree0 _,
      checks_points_ok c⟩

/-- **C63**: an accepted command line sets up a search in which every stage that is entered has a generator with the argument it reads, and
every check has its argument. The original curve of the invalid curve method is generated up to its generators (invalid.c:320), the others
from `b` on. -/
theorem setup_complete (n : Int) (os : List Opt) (c : Config) (h : commandLine n os = some c) (order : Str → Str) (prime : Str → Bool) :
    match run order prime c with
    | .search s => Complete s
    | .invalid s t _ =>
      (StageOk s.gens.field s.genArgs.field ∧ StageOk s.gens.a s.genArgs.a ∧ StageOk s.gens.b s.genArgs.b ∧
        StageOk s.gens.curve s.genArgs.curve ∧ StageOk s.gens.order s.genArgs.order ∧ StageOk s.gens.gens s.genArgs.gens) ∧ Complete t := by
  have hc := consistent n os c h
  unfold run
  by_cases h1 : c.method = METHOD_CM ∨ c.method = METHOD_ANOMALOUS ∨ c.method = METHOD_SUPERSINGULAR
  · rw [if_pos h1]; exact cm_complete order prime c h1
  · rw [if_neg h1]
    by_cases h2 : c.method = METHOD_INVALID
    · rw [if_pos h2]
      have two (p : Prop) [Decidable p] (x y : Gen) (a : Option Arg) (hx : needs x = none) (hy : needs y = none) :
          StageOk (some (if p then x else y)) a := by
        split
        · exact stageOk_free _ _ hx
        · exact stageOk_free _ _ hy
      have hck : ∀ a, ChecksOk [.curveNonzero] a := fun a => checks_free _ _ (by decide)
      have hfree0 : ∀ a, ChecksOk [] a := fun a => checks_free _ _ (by decide)
      exact ⟨⟨two _ _ _ _ rfl rfl, two _ _ _ _ rfl rfl, two _ _ _ _ rfl rfl, stageOk_free _ _ rfl, stageOk_free _ _ rfl,
        stageOk_free _ _ rfl⟩,
        ⟨stageOk_free _ _ rfl, stageOk_free _ _ rfl, stageOk_free _ _ rfl, stageOk_free _ _ rfl, stageOk_free _ _ rfl,
          stageOk_free _ _ rfl, two _ _ _ _ rfl rfl, stageOk_free _ _ rfl, stageOk_free _ _ rfl, hck _, hfree0 _, hfree0 _, hfree0 _⟩⟩
    · rw [if_neg h2]
      exact exhaustive_complete c (accepted_algo n os c h) hc.koblitz

end Ecgen.Cli
