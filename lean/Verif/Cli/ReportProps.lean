import Verif.Cli.Report

/-!
# Every option given is used or reported (C53), order constraints are in force (C64)
-/

namespace Ecgen.Cli

open Spec

/-- **C53**, first half: an option reported as unused has no effect on the run -/
theorem report_true (order : Str → Str) (prime : Str → Bool) (n : Int) (os : List Opt) (c : Config) (h : commandLine n os = some c)
    (x : Name) (hx : x ∈ report c (run order prime c)) : behaviour order prime (erase c x) = behaviour order prime c := by
  have hu := report_unused _ _ _ hx
  have hone := accepted_constraints n os c h
  by_cases hm : c.method = METHOD_CM ∨ c.method = METHOD_ANOMALOUS ∨ c.method = METHOD_SUPERSINGULAR
  · rw [(behaviour_cm order prime c hm).1] at hu
    exact report_true_cm order prime c hm x hu
  · by_cases hi : c.method = METHOD_INVALID
    · rw [(behaviour_invalid order prime c hi).1] at hu
      exact report_true_invalid order prime c hi x hu
    · rw [(behaviour_exhaustive order prime c hm hi).1] at hu
      exact report_true_exhaustive order prime c hm hi hone x hu

/-! ## The options that were given -/

/-- what it means that an option's flag is set -/
structure SetInv (c : Config) : Prop where
  prime : .prime ∈ c.set → c.prime = true
  smooth : .smooth ∈ c.set → c.smooth = true
  cofactor : .cofactor ∈ c.set → c.cofactor = true
  unique : .unique ∈ c.set → c.unique = true
  koblitz : .koblitz ∈ c.set → c.koblitz = true
  metadata : .metadata ∈ c.set → c.metadata = true
  hexCheck : .hexCheck ∈ c.set → c.hexCheck.isSome = true

theorem set_step (n : Int) (c c' : Config) (o : Opt) (hc : SetInv c) (h : parse1 n c o = some c') : SetInv c' := by
  obtain ⟨h1, h2, h3, h4, h5, h6, h7⟩ := hc
  parse_cases h <;> (try simp only [Config.mark]) <;> constructor <;> simp_all

theorem commandLine_parse (n : Int) (os : List Opt) (c : Config) (h : commandLine n os = some c) :
    ∃ d, parseAll n {} os = some d ∧ c = defaults d := by
  unfold commandLine at h
  rw [Option.bind_eq_some_iff] at h
  obtain ⟨d, hd, h⟩ := h
  split at h
  · cases h
  · split at h
    · exact ⟨d, hd, (Option.some.inj h).symm⟩
    · cases h

theorem accepted_set (n : Int) (os : List Opt) (c : Config) (h : commandLine n os = some c) : SetInv c := by
  obtain ⟨d, hd, rfl⟩ := commandLine_parse n os c h
  have := parseAll_inv n SetInv (fun c c' o => set_step n c c' o) os {} d
    ⟨by simp, by simp, by simp, by simp, by simp, by simp, by simp⟩ hd
  exact ⟨this.1, this.2, this.3, this.4, this.5, this.6, this.7⟩

/-- the options looked at by `report_complete_partial` -/
def watched : List Name := [.prime, .smooth, .cofactor, .unique, .koblitz, .metadata, .hexCheck]

/-- what of a behaviour the proofs look at -/
def view : Behaviour → Option (Option Gen × Option Gen × Option Gen × Option Gen × Option Arg)
  | .search e _ _ => some (e.stages.order.1, e.stages.gens.1, e.stages.metadata.1, e.stages.b.1, e.checks.points.2)
  | .invalid _ e _ => some (e.stages.order.1, e.stages.gens.1, e.stages.metadata.1, e.stages.b.1, e.checks.points.2)

theorem mem_report (c : Config) (r : Run) (x : Name) (hx : x ∈ reportable) (hs : x ∈ c.set) (hu : x ∉ r.used) : x ∈ report c r := by
  simp only [report, List.mem_filter, decide_eq_true_eq]
  exact ⟨hx, hs, hu⟩

theorem koblitz_ignored (c : Config) (h : c.seedAlgo ≠ .none) : .koblitz ∉ (ginitMethod c).2 := by
  have h1 : .koblitz ∉ (orderChoice c).2 := by unfold orderChoice; (repeat' split) <;> simp
  have h2 : .koblitz ∉ (gensChoice c).2 := by unfold gensChoice; (repeat' split) <;> simp
  have h3 (x y z : Gen) : .koblitz ∉ (seedChoice c x y z).2 := by unfold seedChoice; (repeat' split) <;> simp
  unfold ginitMethod
  rw [if_pos h]
  split <;> simp [h1, h2, h3]

theorem normal_table (c : Config) (ha : c.seedAlgo = .none ∨ c.seedAlgo = .ansi) (hf : ¬ (c.method = METHOD_FAMILY ∧ c.seedAlgo = .none)) :
    (ginitMethod c).1.order = some (if c.seedAlgo = .none then (orderChoiceKoblitz c).1 else (orderChoice c).1) ∧
    (ginitMethod c).1.gens = some (gensChoice c).1 ∧
    (c.seedAlgo = .none → (ginitMethod c).1.b = some (if c.koblitz then .bOne else if has c.random RANDOM_B then .bRandom else .bInput)) := by
  rcases ha with ha | ha
  · have hm : ¬ c.method = METHOD_FAMILY := fun h => hf ⟨h, ha⟩
    simp only [ginitMethod, ha, ne_eq, not_true_eq_false, if_false, hm, if_true, true_and]
    intro _
    split <;> rfl
  · simp [ginitMethod, ha]

theorem exhaustive_effect (c : Config) (x : Name) (hw : x ∈ [Name.prime, .smooth, .cofactor, .unique, .koblitz])
    (ha : c.seedAlgo = .none ∨ c.seedAlgo = .ansi)
    (hone : ¬ (c.prime = true ∧ c.cofactor = true) ∧ ¬ (c.prime = true ∧ c.smooth = true) ∧ ¬ (c.smooth = true ∧ c.cofactor = true))
    (hr : x ∈ (ginitMethod c).2)
    (h1 : x = .prime → c.prime = true) (h2 : x = .smooth → c.smooth = true) (h3 : x = .cofactor → c.cofactor = true)
    (h4 : x = .unique → c.unique = true) (h5 : x = .koblitz → c.koblitz = true) {s s' : Option Str} {k k' : Int} :
    view (.search (exhaustiveSetup (erase c x)).effect s k) ≠ view (.search (exhaustiveSetup c).effect s' k') := by
  intro heq
  replace heq := congrArg (fun v => v.map fun t => (t.1, t.2.1, t.2.2.2.1)) heq
  simp only [view, Setup.effect, exhaustiveSetup, ginit, seen, Option.map_some, Option.some.injEq, Prod.mk.injEq] at heq
  obtain ⟨e1, e2, e3⟩ := heq
  simp only [List.mem_cons, List.not_mem_nil, or_false] at hw
  by_cases hk : x = .koblitz ∧ c.seedAlgo ≠ .none
  · obtain ⟨rfl, hk⟩ := hk
    exact koblitz_ignored c hk hr
  by_cases hf : c.method = METHOD_FAMILY ∧ c.seedAlgo = .none
  · simp [ginitMethod, hf.1, hf.2] at hr
    rcases hr with rfl | rfl | rfl <;> simp at hw
  have hx : (erase c x).seedAlgo = c.seedAlgo ∧ (erase c x).method = c.method := by
    rcases hw with rfl | rfl | rfl | rfl | rfl <;> exact ⟨rfl, rfl⟩
  obtain ⟨o1, o2, o3⟩ := normal_table c ha hf
  obtain ⟨q1, q2, q3⟩ := normal_table (erase c x) (by rw [hx.1]; exact ha) (by rw [hx.1, hx.2]; exact hf)
  rw [o1, q1, Option.some.injEq] at e1
  rw [o2, q2, Option.some.injEq] at e2
  rw [hx.1] at e1 q3
  rcases hw with rfl | rfl | rfl | rfl | rfl
  · have h1 := h1 rfl
    clear o1 o2 o3 q1 q2 q3 e2 e3 hr
    revert e1
    split <;> simp only [orderChoice, orderChoiceKoblitz, h1, erase] <;> simp_all; by_cases hb : c.koblitz = true <;> simp [hb]
  · have h2 := h2 rfl
    clear o1 o2 o3 q1 q2 q3 e2 e3 hr
    revert e1
    split <;> simp only [orderChoice, orderChoiceKoblitz, h2, erase] <;> simp_all; by_cases hb : c.koblitz = true <;> simp [hb]
  · have h3 := h3 rfl
    clear o1 o2 o3 q1 q2 q3 e2 e3 hr
    revert e1
    split <;> simp only [orderChoice, orderChoiceKoblitz, h3, erase] <;> simp_all; by_cases hb : c.koblitz = true <;> simp [hb]
  · have h4 := h4 rfl
    clear o1 o2 o3 q1 q2 q3 e1 e3 hr
    revert e2
    simp only [gensChoice, h4, erase]
    simp_all; by_cases hb : c.cofactor = true <;> simp [hb]
  · have h5 := h5 rfl
    have hn : c.seedAlgo = .none := by
      by_contra hne
      exact hk ⟨rfl, hne⟩
    rw [o3 hn, q3 hn] at e3
    revert e3
    simp only [h5, erase]
    simp_all; by_cases hb : has c.random RANDOM_B = true <;> simp [hb]

/-- **C53**, second half, for these options: an option that was given is reported or has an effect on the run, except that
the Brainpool and NUMS methods silently ignore the requests about the order and the number of generators -/
theorem report_complete_partial (order : Str → Str) (prime : Str → Bool) (n : Int) (os : List Opt) (c : Config)
    (h : commandLine n os = some c) (x : Name) (hw : x ∈ watched) (hs : x ∈ c.set)
    (hex : ¬ ((c.seedAlgo = .brainpool ∨ c.seedAlgo = .brainpoolRfc ∨ c.seedAlgo = .nums) ∧ x ∈ [.prime, .smooth, .cofactor, .unique])) :
    x ∈ report c (run order prime c) ∨ behaviour order prime (erase c x) ≠ behaviour order prime c := by
  have hinv := accepted_set n os c h
  have hone := accepted_constraints n os c h
  have halgo := accepted_algo n os c h
  by_cases hr : x ∈ (run order prime c).used
  swap
  · left
    refine mem_report _ _ _ ?_ hs hr
    revert hw
    cases x <;> decide
  right
  intro heq
  replace heq := congrArg view heq
  by_cases hm : c.method = METHOD_CM ∨ c.method = METHOD_ANOMALOUS ∨ c.method = METHOD_SUPERSINGULAR
  · have hmx : (erase c x).method = METHOD_CM ∨ (erase c x).method = METHOD_ANOMALOUS ∨ (erase c x).method = METHOD_SUPERSINGULAR := by
      revert hw
      cases x <;> first | exact fun _ => hm | (intro hw; simp [watched] at hw)
    rw [(behaviour_cm order prime c hm).2, (behaviour_cm order prime _ hmx).2] at heq
    rw [(behaviour_cm order prime c hm).1] at hr
    have hu : x = .unique ∨ x = .metadata ∨ x = .hexCheck := by
      simp only [watched, List.mem_cons, List.not_mem_nil, or_false] at hw
      have n1 : ¬ METHOD_ANOMALOUS = METHOD_CM := by decide
      have n2 : ¬ METHOD_SUPERSINGULAR = METHOD_CM := by decide
      have n3 : ¬ METHOD_SUPERSINGULAR = METHOD_ANOMALOUS := by decide
      rcases hm with hm | hm | hm <;> simp only [Run.used, cmSetup, cmGinit, hm, if_true, if_neg n1, if_neg n2, if_neg n3] at hr <;>
        (try split at hr) <;> rcases hw with rfl | rfl | rfl | rfl | rfl | rfl | rfl <;> simp_all
    obtain ⟨h1, h2, h3, h4, h5, h6, h7⟩ := hinv
    rcases hu with rfl | rfl | rfl
    · have h4 := h4 hs
      replace heq := congrArg (fun v => v.map fun t => t.2.1) heq
      simp only [view, erase, Setup.effect, cmSetup, cmGinit, seen, h4] at heq
      revert heq
      rcases hm with hm | hm | hm <;> simp only [hm] <;> cases prime (c.cmOrder.getD []) <;> simp [METHOD_CM, METHOD_ANOMALOUS, METHOD_SUPERSINGULAR]
    · have h6 := h6 hs
      replace heq := congrArg (fun v => v.map fun t => t.2.2.1) heq
      simp only [view, erase, Setup.effect, cmSetup, cmGinit, seen, h6] at heq
      revert heq
      rcases hm with hm | hm | hm <;> simp only [hm] <;> cases prime (c.cmOrder.getD []) <;> simp [METHOD_CM, METHOD_ANOMALOUS, METHOD_SUPERSINGULAR]
    · have h7 := h7 hs
      replace heq := congrArg (fun v => v.map fun t => t.2.2.2.2) heq
      simp only [view, erase, Setup.effect, cmSetup, checkArgs] at heq
      cases hh : c.hexCheck <;> simp [hh] at heq h7
  · by_cases hi : c.method = METHOD_INVALID
    · have hmx : (erase c x).method = METHOD_INVALID := by
        revert hw
        cases x <;> first | exact fun _ => hi | (intro hw; simp [watched] at hw)
      rw [(behaviour_invalid order prime c hi).2, (behaviour_invalid order prime _ hmx).2] at heq
      rw [(behaviour_invalid order prime c hi).1] at hr
      have hu : x = .unique := by
        simp only [watched, List.mem_cons, List.not_mem_nil, or_false] at hw
        simp only [Run.used, originalSetup, invalidSetup] at hr
        rcases hw with rfl | rfl | rfl | rfl | rfl | rfl | rfl <;> simp_all
      subst hu
      have h4 := hinv.unique hs
      replace heq := congrArg (fun v => v.map fun t => t.2.1) heq
      simp [view, erase, Setup.effect, invalidSetup, seen, h4] at heq
    · have hmx : ¬ ((erase c x).method = METHOD_CM ∨ (erase c x).method = METHOD_ANOMALOUS ∨ (erase c x).method = METHOD_SUPERSINGULAR) ∧
          (erase c x).method ≠ METHOD_INVALID := by
        revert hw
        cases x <;> first | exact fun _ => ⟨hm, hi⟩ | (intro hw; simp [watched] at hw)
      rw [(behaviour_exhaustive order prime c hm hi).2, (behaviour_exhaustive order prime _ hmx.1 hmx.2).2] at heq
      rw [(behaviour_exhaustive order prime c hm hi).1, exhaustive_used] at hr
      obtain ⟨h1, h2, h3, h4, h5, h6, h7⟩ := hinv
      by_cases hx : x = .metadata
      · subst hx
        have h6 := h6 hs
        replace heq := congrArg (fun v => v.map fun t => t.2.2.1) heq
        simp [view, erase, Setup.effect, exhaustiveSetup, ginit, seen, h6] at heq
      by_cases hx : x = .hexCheck
      · subst hx
        have h7 := h7 hs
        replace heq := congrArg (fun v => v.map fun t => t.2.2.2.2) heq
        simp only [view, erase, Setup.effect, exhaustiveSetup, checkArgs] at heq
        cases hh : c.hexCheck <;> simp [hh] at heq h7
      have hr : x ∈ (ginitMethod c).2 := by
        simp only [cinit, List.mem_cons, List.mem_append, List.not_mem_nil, or_false] at hr
        simp only [watched, List.mem_cons, List.not_mem_nil, or_false] at hw
        rcases hw with rfl | rfl | rfl | rfl | rfl | rfl | rfl <;> simp_all
      have hseed : ¬ (c.seedAlgo = .brainpool ∨ c.seedAlgo = .brainpoolRfc ∨ c.seedAlgo = .nums) := by
        intro hsa
        have : x = .koblitz := by
          simp only [watched, List.mem_cons, List.not_mem_nil, or_false] at hw
          rcases hw with rfl | rfl | rfl | rfl | rfl | rfl | rfl <;> simp_all
        subst this
        exact koblitz_ignored c (by rcases hsa with e | e | e <;> rw [e] <;> decide) hr
      have hna : c.seedAlgo = .none ∨ c.seedAlgo = .ansi := by
        rcases halgo with e | e | e | e | e
        · exact Or.inl e
        · exact Or.inr e
        all_goals exact absurd (by simp [e]) hseed
      refine exhaustive_effect c x ?_ hna hone hr ?_ ?_ ?_ ?_ ?_ heq
      · rename_i hx0
        simp only [watched, List.mem_cons, List.not_mem_nil, or_false] at hw ⊢
        rcases hw with e | e | e | e | e | e | e
        · exact Or.inl e
        · exact Or.inr (Or.inl e)
        · exact Or.inr (Or.inr (Or.inl e))
        · exact Or.inr (Or.inr (Or.inr (Or.inl e)))
        · exact Or.inr (Or.inr (Or.inr (Or.inr e)))
        · exact absurd e hx0
        · exact absurd e hx
      · rintro rfl; exact h1 hs
      · rintro rfl; exact h2 hs
      · rintro rfl; exact h3 hs
      · rintro rfl; exact h4 hs
      · rintro rfl; exact h5 hs

/-- the configuration of a Brainpool search with a cofactor -/
def brainpoolCofactor : List Opt := [.fp, .brainpool (some (List.replicate 40 'b')), .cofactor "4".toList, .arg "256".toList]

/-- the configuration of a NUMS search with `--unique` -/
def numsUnique : List Opt := [.fp, .nums, .unique, .arg "256".toList]

/-- **C53** is false: `--brainpool=SEED --cofactor=4` and `--nums --unique` are accepted, nothing is reported, and the run is the one
without the option -/
theorem report_complete_false :
    (∃ c, commandLine 4 brainpoolCofactor = some c ∧ .cofactor ∈ c.set ∧ report c (run id (fun _ => false) c) = [] ∧
      behaviour id (fun _ => false) (erase c .cofactor) = behaviour id (fun _ => false) c) ∧
    (∃ c, commandLine 4 numsUnique = some c ∧ .unique ∈ c.set ∧ report c (run id (fun _ => false) c) = [] ∧
      behaviour id (fun _ => false) (erase c .unique) = behaviour id (fun _ => false) c) := by
  refine ⟨⟨(commandLine 4 brainpoolCofactor).get (by decide +kernel), by simp, ?_, ?_, ?_⟩,
    ⟨(commandLine 4 numsUnique).get (by decide +kernel), by simp, ?_, ?_, ?_⟩⟩ <;> decide +kernel

/-- `report_true` is met: `--anomalous --random --prime` reports `--prime`, `--invalid --random --hex-check=ff` reports the pattern -/
theorem report_true_met :
    (∃ c, commandLine 4 [.fp, .anomalous, .random none, .prime, .arg "128".toList] = some c ∧
      report c (run id (fun _ => false) c) = [.prime]) ∧
    (∃ c, commandLine 4 [.fp, .invalid none, .random none, .hexCheck "ff".toList, .arg "128".toList] = some c ∧
      report c (run id (fun _ => false) c) = [.hexCheck]) := by
  refine ⟨⟨(commandLine 4 [.fp, .anomalous, .random none, .prime, .arg "128".toList]).get (by decide +kernel), by simp, ?_⟩,
    ⟨(commandLine 4 [.fp, .invalid none, .random none, .hexCheck "ff".toList, .arg "128".toList]).get (by decide +kernel), by simp, ?_⟩⟩ <;>
    decide +kernel

/-- `report_complete_partial` is met by options with an effect: `--prime --unique` in a normal search is not reported -/
theorem report_complete_met :
    ∃ c, commandLine 4 [.fp, .random none, .prime, .unique, .arg "128".toList] = some c ∧ .prime ∈ c.set ∧ .unique ∈ c.set ∧
      report c (run id (fun _ => false) c) = [] := by
  refine ⟨(commandLine 4 [.fp, .random none, .prime, .unique, .arg "128".toList]).get (by decide +kernel), by simp, ?_, ?_, ?_⟩ <;>
    decide +kernel

/-! ## C64: the order constraint asked for is in force -/

/-- the last value given for an option -/
theorem foldl_last {α : Type} (f : Opt → Option α) (v : α) : ∀ (pre : List Opt) (o : Opt) (post : List Opt) (w : α), f o = some w →
    (∀ q ∈ post, f q = none) → (pre ++ o :: post).foldl (fun v o => (f o).getD v) v = w := by
  intro pre o post w hw hp
  rw [List.foldl_append, List.foldl_cons, hw]
  clear hw
  simp only [Option.getD_some]
  induction post with
  | nil => rfl
  | cons q qs ih =>
    rw [List.foldl_cons, hp q List.mem_cons_self]
    exact ih fun r hr => hp r (List.mem_cons_of_mem _ hr)

/-- the value of a `--cofactor` option -/
def cofactorArg : Opt → Option Int
  | .cofactor s => some (strtol s).1
  | _ => none

/-- the value of a `--smooth` option -/
def smoothArg : Opt → Option Int
  | .smooth s => some (strtol s).1
  | _ => none

theorem cofactor_attr (n : Int) (c c' : Config) (o : Opt) (h : parse1 n c o = some c') :
    c'.cofactorValue = (cofactorArg o).getD c.cofactorValue := by
  parse_cases h <;> simp [Config.mark, cofactorArg]

theorem smooth_attr (n : Int) (c c' : Config) (o : Opt) (h : parse1 n c o = some c') :
    c'.smoothValue = (smoothArg o).getD c.smoothValue := by
  parse_cases h <;> simp [Config.mark, smoothArg]

/-- the search of the default, twist and ANSI methods -/
theorem plain_run (order : Str → Str) (prime : Str → Bool) (c : Config) (hm : c.method = 0 ∨ c.method = METHOD_TWIST ∨ c.method = METHOD_SEED) :
    run order prime c = .search (exhaustiveSetup c) := by
  unfold run
  rw [if_neg (by rcases hm with e | e | e <;> rw [e] <;> decide), if_neg (by rcases hm with e | e | e <;> rw [e] <;> decide)]

/-- **C64** With the default, twist and ANSI methods: `--prime` makes the order step refuse orders that are not prime, `--cofactor` and
`--smooth` make it use the last value given for the option, and `--cofactor` also fixes the generators unless `--unique` asks for one. -/
theorem constraint_in_force (order : Str → Str) (prime : Str → Bool) (n : Int) (os : List Opt) (c : Config)
    (h : commandLine n os = some c) (hm : c.method = 0 ∨ c.method = METHOD_TWIST ∨ c.method = METHOD_SEED)
    (ha : c.seedAlgo = .none ∨ c.seedAlgo = .ansi) :
    ∃ s, run order prime c = .search s ∧
      (.prime ∈ os → s.gens.order = some .orderPrime) ∧
      (∀ pre o post v, os = pre ++ o :: post → cofactorArg o = some v → (∀ q ∈ post, cofactorArg q = none) →
        s.gens.order = some .orderCofactor ∧ s.genArgs.order = some (.long v) ∧
        (.unique ∉ os → s.gens.gens = some .gensCofactor ∧ s.genArgs.gens = some (.long v))) ∧
      (∀ pre o post v, os = pre ++ o :: post → smoothArg o = some v → (∀ q ∈ post, smoothArg q = none) →
        s.gens.order = some .orderSmooth ∧ s.genArgs.order = some (.long v)) ∧
      (.unique ∈ os → s.gens.gens = some .gensOne) := by
  refine ⟨_, plain_run order prime c hm, ?_⟩
  have hc := consistent n os c h
  obtain ⟨one1, one2, one3⟩ := accepted_constraints n os c h
  obtain ⟨d, hd, hcd⟩ := commandLine_parse n os c h
  have hcv : c.cofactorValue = os.foldl (fun v o => (cofactorArg o).getD v) 0 := by
    have := parseAll_attr n (fun c => c.cofactorValue) (fun v o => (cofactorArg o).getD v) (fun c c' o => cofactor_attr n c c' o) os {} d hd
    rw [hcd]
    exact this
  have hsv : c.smoothValue = os.foldl (fun v o => (smoothArg o).getD v) 0 := by
    have := parseAll_attr n (fun c => c.smoothValue) (fun v o => (smoothArg o).getD v) (fun c c' o => smooth_attr n c c' o) os {} d hd
    rw [hcd]
    exact this
  have hu : c.unique = true ↔ .unique ∈ os := by
    have := parseAll_flag n (fun c => c.unique) (fun o => decide (o = .unique))
      (fun c c' o hp => by parse_cases hp <;> simp [Config.mark]) os {} d hd
    rw [hcd]
    simp only [defaults, this]
    simp
  have hf : ¬ (c.method = METHOD_FAMILY ∧ c.seedAlgo = .none) := by
    rintro ⟨e, _⟩
    rcases hm with e' | e' | e' <;> rw [e'] at e <;> exact absurd e (by decide)
  obtain ⟨t1, t2, _⟩ := normal_table c ha hf
  obtain ⟨a1, a2, a3, _⟩ := orderArg c
  change (_ → (ginitMethod c).1.order = _) ∧ (∀ pre o post v, _ → _ → _ → (ginitMethod c).1.order = _ ∧ (ainit c).order = _ ∧
    (_ → (ginitMethod c).1.gens = _ ∧ (ainit c).gens = _)) ∧ (∀ pre o post v, _ → _ → _ → (ginitMethod c).1.order = _ ∧ (ainit c).order = _) ∧
    (_ → (ginitMethod c).1.gens = _)
  rw [t1, t2]
  refine ⟨fun hp => ?_, fun pre o post v e ho hpost => ?_, fun pre o post v e ho hpost => ?_, fun hun => ?_⟩
  · have : c.prime = true := hc.prime.2 ⟨_, hp, rfl⟩
    simp [orderChoice, orderChoiceKoblitz, this]
  · have hoc : constraint o = some .cofactor := by cases o <;> simp [cofactorArg] at ho; rfl
    have h1 : c.cofactor = true := hc.cofactor.2 ⟨o, by rw [e]; simp, hoc⟩
    have h2 : c.prime = false := by
      cases hp : c.prime
      · rfl
      · exact absurd ⟨hp, h1⟩ one1
    have h3 : c.smooth = false := by
      cases hp : c.smooth
      · rfl
      · exact absurd ⟨hp, h1⟩ one3
    have hv : c.cofactorValue = v := by rw [hcv, e]; exact foldl_last cofactorArg 0 pre o post v ho hpost
    refine ⟨by simp [orderChoice, orderChoiceKoblitz, h1, h2], by rw [a2 h3 h1, hv], fun hnu => ?_⟩
    have h4 : c.unique = false := by
      cases hp : c.unique
      · rfl
      · exact absurd (hu.1 hp) hnu
    exact ⟨by simp [gensChoice, h1, h4], by rw [a3 h1, hv]⟩
  · have hoc : constraint o = some .smooth := by cases o <;> simp [smoothArg] at ho; rfl
    have h1 : c.smooth = true := hc.smooth.2 ⟨o, by rw [e]; simp, hoc⟩
    have h2 : c.prime = false := by
      cases hp : c.prime
      · rfl
      · exact absurd ⟨hp, h1⟩ one2
    have h3 : c.cofactor = false := by
      cases hp : c.cofactor
      · rfl
      · exact absurd ⟨h1, hp⟩ one3
    have hv : c.smoothValue = v := by rw [hsv, e]; exact foldl_last smoothArg 0 pre o post v ho hpost
    exact ⟨by simp [orderChoice, orderChoiceKoblitz, h1, h2, h3], by rw [a1 h1, hv]⟩
  · simp [gensChoice, hu.2 hun]

/-- the hypotheses are met, and the last of two values counts -/
theorem constraint_in_force_met :
    ∃ c, commandLine 4 [.fp, .cofactor "2".toList, .random none, .cofactor "8".toList, .arg "128".toList] = some c ∧ c.method = 0 ∧
      c.seedAlgo = .none ∧ (exhaustiveSetup c).genArgs.order = some (.long 8) := by
  refine ⟨(commandLine 4 [.fp, .cofactor "2".toList, .random none, .cofactor "8".toList, .arg "128".toList]).get (by decide +kernel),
    by simp, ?_, ?_, ?_⟩ <;> decide +kernel

end Ecgen.Cli
