import Verif.Stack.Search
import Verif.Stack.CertsRel
import Verif.Stack.CertsKeep
import Verif.Cli.SetupProps

/-!
# The searches that command lines ask for pass the check
-/

namespace Ecgen.Stack
open Ecgen.Cli

/-- the class in which the stages of a kind are checked -/
def base (k : Kind) (d rel : Bool) : Class := ⟨k, d, k == .twist, true, rel⟩

theorem certified_stage (k : Kind) (rel : Bool) (s : Nat) (hs : s < 9) : certify (base k true rel) s = true := by
  have h : s = 0 ∨ s = 1 ∨ s = 2 ∨ s = 3 ∨ s = 4 ∨ s = 5 ∨ s = 6 ∨ s = 7 ∨ s = 8 := by omega
  cases k <;> cases rel <;> rcases h with rfl | rfl | rfl | rfl | rfl | rfl | rfl | rfl | rfl
  · exact keep_plain_0
  · exact keep_plain_1
  · exact keep_plain_2
  · exact keep_plain_3
  · exact keep_plain_4
  · exact keep_plain_5
  · exact keep_plain_6
  · exact keep_plain_7
  · exact keep_plain_8
  · exact rel_plain_0
  · exact rel_plain_1
  · exact rel_plain_2
  · exact rel_plain_3
  · exact rel_plain_4
  · exact rel_plain_5
  · exact rel_plain_6
  · exact rel_plain_7
  · exact rel_plain_8
  · exact keep_joint_0
  · exact keep_joint_1
  · exact keep_joint_2
  · exact keep_joint_3
  · exact keep_joint_4
  · exact keep_joint_5
  · exact keep_joint_6
  · exact keep_joint_7
  · exact keep_joint_8
  · exact rel_joint_0
  · exact rel_joint_1
  · exact rel_joint_2
  · exact rel_joint_3
  · exact rel_joint_4
  · exact rel_joint_5
  · exact rel_joint_6
  · exact rel_joint_7
  · exact rel_joint_8
  · exact keep_seeded_0
  · exact keep_seeded_1
  · exact keep_seeded_2
  · exact keep_seeded_3
  · exact keep_seeded_4
  · exact keep_seeded_5
  · exact keep_seeded_6
  · exact keep_seeded_7
  · exact keep_seeded_8
  · exact rel_seeded_0
  · exact rel_seeded_1
  · exact rel_seeded_2
  · exact rel_seeded_3
  · exact rel_seeded_4
  · exact rel_seeded_5
  · exact rel_seeded_6
  · exact rel_seeded_7
  · exact rel_seeded_8
  · exact keep_whole_0
  · exact keep_whole_1
  · exact keep_whole_2
  · exact keep_whole_3
  · exact keep_whole_4
  · exact keep_whole_5
  · exact keep_whole_6
  · exact keep_whole_7
  · exact keep_whole_8
  · exact rel_whole_0
  · exact rel_whole_1
  · exact rel_whole_2
  · exact rel_whole_3
  · exact rel_whole_4
  · exact rel_whole_5
  · exact rel_whole_6
  · exact rel_whole_7
  · exact rel_whole_8
  · exact keep_twist_0
  · exact keep_twist_1
  · exact keep_twist_2
  · exact keep_twist_3
  · exact keep_twist_4
  · exact keep_twist_5
  · exact keep_twist_6
  · exact keep_twist_7
  · exact keep_twist_8
  · exact rel_twist_0
  · exact rel_twist_1
  · exact rel_twist_2
  · exact rel_twist_3
  · exact rel_twist_4
  · exact rel_twist_5
  · exact rel_twist_6
  · exact rel_twist_7
  · exact rel_twist_8

theorem certified_last (k : Kind) (d rel : Bool) : certify (base k d rel) 8 = true := by
  cases d
  · cases k <;> cases rel
    · exact keep_plain_8_skip
    · exact rel_plain_8_skip
    · exact keep_joint_8_skip
    · exact rel_joint_8_skip
    · exact keep_seeded_8_skip
    · exact rel_seeded_8_skip
    · exact keep_whole_8_skip
    · exact rel_whole_8_skip
    · exact keep_twist_8_skip
    · exact rel_twist_8_skip
  · exact certified_stage k rel 8 (by decide)

/-- a stage of a search passes the check -/
def Fit (C : Class) (s : Nat) (g : Option Gen) (l : List Check) : Prop :=
  ∃ x, g = some x ∧ ∃ d c a, (c = true → C.calm = true) ∧ (a = false → C.again = false) ∧ (d = C.data ∨ s < 8) ∧
    certify ⟨C.kind, d, c, a, C.rel⟩ s = true ∧ x ∈ allowed ⟨C.kind, d, c, a, C.rel⟩ s ∧ l ∈ allowedChecks ⟨C.kind, d, c, a, C.rel⟩ s

theorem fit_stage (C : Class) (ht : C.kind = .twist → C.calm = true) (s : Nat) (hs : s < 8) (x : Gen) (l : List Check)
    (hx : x ∈ allowed (base C.kind true C.rel) s) (hl : l ∈ allowedChecks (base C.kind true C.rel) s) : Fit C s (some x) l :=
  ⟨x, rfl, true, C.kind == .twist, true, fun h => ht (by simpa using h), fun h => by simp at h, Or.inr hs,
    certified_stage C.kind C.rel s (by omega), hx, hl⟩

theorem fit_last (C : Class) (ht : C.kind = .twist → C.calm = true) (c : Bool) (hc : c = C.data) :
    Fit C 8 (some (if c then .metadata else .skip)) [] := by
  subst hc
  refine ⟨_, rfl, C.data, C.kind == .twist, true, fun h => ht (by simpa using h), fun h => by simp at h, Or.inl rfl,
    certified_last C.kind C.data C.rel, ?_, ?_⟩
  · cases h : C.data <;> simp [allowed]
  · simp [allowedChecks]

theorem fit_nums (C : Class) (hk : C.kind = .plain) (hc : C.calm = true) : Fit C 3 (some .numsB) [] := by
  refine ⟨_, rfl, true, true, true, fun _ => hc, fun h => by simp at h, Or.inr (by decide), ?_, ?_, ?_⟩ <;> rw [hk]
  · cases C.rel
    · exact keep_nums
    · exact rel_nums
  · simp [allowed]
  · simp [allowedChecks]

theorem fit_family (C : Class) (hk : C.kind = .seeded) (hc : C.calm = true) : Fit C 3 (some .familyEquationIter) [] := by
  refine ⟨_, rfl, true, true, true, fun _ => hc, fun h => by simp at h, Or.inr (by decide), ?_, ?_, ?_⟩ <;> rw [hk]
  · cases C.rel
    · exact keep_family
    · exact rel_family
  · simp [allowed]
  · simp [allowedChecks]

theorem fit_brainpool (C : Class) (hk : C.kind = .joint) (hc : C.again = false) : Fit C 1 (some .brainpoolField) [] := by
  refine ⟨_, rfl, true, false, false, fun h => by simp at h, fun _ => hc, Or.inr (by decide), ?_, ?_, ?_⟩ <;> rw [hk]
  · cases C.rel
    · exact keep_brainpool
    · exact rel_brainpool
  · simp [allowed]
  · simp [allowedChecks]

/-- all stages -/
structure Fits (C : Class) (s : Cli.Setup) : Prop where
  seed : Fit C 0 s.gens.seed s.checks.seed
  field : Fit C 1 s.gens.field s.checks.field
  a : Fit C 2 s.gens.a s.checks.a
  b : Fit C 3 s.gens.b s.checks.b
  curve : Fit C 4 s.gens.curve s.checks.curve
  order : Fit C 5 s.gens.order s.checks.order
  gens : Fit C 6 s.gens.gens s.checks.gens
  points : Fit C 7 s.gens.points s.checks.points
  metadata : Fit C 8 s.gens.metadata s.checks.metadata

theorem Fit.ok {C : Class} {n : Nat} {g : Option Gen} {l : List Check} (h : Fit C n g l) :
    ∃ d c a, (c = true → C.calm = true) ∧ (a = false → C.again = false) ∧ (d = C.data ∨ n < 8) ∧
      stageOk (Class.plan ⟨C.kind, d, c, a, C.rel⟩) n (genOf g) (seqs (l.map Prog.check)) = true := by
  obtain ⟨x, rfl, d, c, a, h1, h2, h3, h4, h5, h6⟩ := h
  refine ⟨d, c, a, h1, h2, h3, ?_⟩
  exact List.all_eq_true.mp (List.all_eq_true.mp h4 x h5) l h6

theorem Fits.certified {C : Class} {s : Cli.Setup} (h : Fits C s) : Certified C (fns s) := by
  refine ⟨rfl, fun n hn => ?_⟩
  have hc : n = 0 ∨ n = 1 ∨ n = 2 ∨ n = 3 ∨ n = 4 ∨ n = 5 ∨ n = 6 ∨ n = 7 ∨ n = 8 := by omega
  rcases hc with rfl | rfl | rfl | rfl | rfl | rfl | rfl | rfl | rfl
  · exact h.seed.ok
  · exact h.field.ok
  · exact h.a.ok
  · exact h.b.ok
  · exact h.curve.ok
  · exact h.order.ok
  · exact h.gens.ok
  · exact h.points.ok
  · exact h.metadata.ok

/-! ## the class of a configuration -/

def kindOf (c : Config) : Kind :=
  if c.method = METHOD_CM then .whole
  else if c.method = METHOD_ANOMALOUS ∨ c.method = METHOD_SUPERSINGULAR then .joint
  else
    match c.seedAlgo with
    | .ansi => .seeded
    | .brainpool => .joint
    | .brainpoolRfc => .joint
    | .nums => .plain
    | _ => if c.method = METHOD_FAMILY then .seeded else if c.method = METHOD_TWIST then .twist else .plain

/-- the equation is searched with the static variable -/
def iterates (c : Config) : Bool :=
  c.seedAlgo == .nums || (c.method == METHOD_FAMILY && c.family != .kss16 && c.family != .kss40)

def isBrainpool (c : Config) : Bool := c.seedAlgo == .brainpool || c.seedAlgo == .brainpoolRfc

def classOf (c : Config) (rel : Bool) : Class :=
  ⟨kindOf c, c.metadata, kindOf c == .twist || iterates c, !isBrainpool c, rel⟩

theorem classOf_twist (c : Config) (rel : Bool) : (classOf c rel).kind = .twist → (classOf c rel).calm = true := by
  intro h
  have : kindOf c = .twist := h
  simp [classOf, this]

theorem base_kind (c : Config) (rel : Bool) : base (classOf c rel).kind true (classOf c rel).rel = base (kindOf c) true rel := rfl

theorem mem_order (k : Kind) (hk : k ≠ .whole) (c : Config) (rel : Bool) (hs : c.smooth = true → rel = false) :
    (orderChoice c).1 ∈ allowed (base k true rel) 5 := by
  unfold orderChoice
  split
  · simp [allowed, base, hk]
  split
  · simp [allowed, base, hk]
  split
  · rename_i h; simp [allowed, base, hk, hs h]
  · simp [allowed, base, hk]

theorem mem_orderKoblitz (k : Kind) (hk : k ≠ .whole) (c : Config) (rel : Bool) (hs : c.smooth = true → rel = false) :
    (orderChoiceKoblitz c).1 ∈ allowed (base k true rel) 5 := by
  unfold orderChoiceKoblitz
  split
  · simp [allowed, base, hk]
  split
  · simp [allowed, base, hk]
  split
  · rename_i h; simp [allowed, base, hk, hs h]
  split <;> simp [allowed, base, hk]

theorem mem_gens (k : Kind) (hk : k ≠ .twist) (c : Config) (rel : Bool) : (gensChoice c).1 ∈ allowed (base k true rel) 6 := by
  unfold gensChoice
  split
  · simp [allowed, base, hk]
  split <;> simp [allowed, base, hk]

theorem mem_points (k : Kind) (c : Config) (rel : Bool) : pointsChoice c ∈ allowed (base k true rel) 7 := by
  unfold pointsChoice
  split
  · split <;> simp [allowed]
  all_goals simp [allowed]

theorem mem_hex (k : Kind) (c : Config) (rel : Bool) (h : k = .twist → c.hexCheck = none) :
    (if c.hexCheck.isSome then [Check.hexParam] else []) ∈ allowedChecks (base k true rel) 7 := by
  by_cases hk : k = .twist
  · simp [allowedChecks, h hk]
  · split <;> simp [allowedChecks, base, hk]

theorem check_seed (k : Kind) (rel : Bool) (s : Nat) (h : s < 4) : ([] : List Check) ∈ allowedChecks (base k true rel) s := by
  have : s = 0 ∨ s = 1 ∨ s = 2 ∨ s = 3 := by omega
  rcases this with rfl | rfl | rfl | rfl <;> simp [allowedChecks]

/-- the conditions on a run under which it passes the check -/
structure Spared (c : Config) (rel : Bool) : Prop where
  smooth : c.smooth = true → rel = false
  twist : c.method = METHOD_TWIST → c.unique = false ∧ c.cofactor = false ∧ c.hexCheck = none

theorem cm_fits (order : Str → Str) (prime : Str → Bool) (c : Config) (rel : Bool)
    (hm : c.method = METHOD_CM ∨ c.method = METHOD_ANOMALOUS ∨ c.method = METHOD_SUPERSINGULAR) :
    Fits (classOf c rel) (cmSetup order prime c) := by
  have ht := classOf_twist c rel
  have hhex := mem_hex (kindOf c) c rel
  have hpts := mem_points (kindOf c) c rel
  rcases hm with hm | hm | hm
  · have hk : kindOf c = .whole := by simp [kindOf, hm]
    rw [hk] at hhex hpts
    unfold cmSetup
    simp only [cmGinit, hm, if_true, cmCinit]
    have hp : ∀ x ∈ allowed (base .whole true rel) 7, Fit (classOf c rel) 7 (some x) (if c.hexCheck.isSome then [Check.hexParam] else []) :=
      fun x hx => fit_stage _ ht 7 (by decide) x _ (by rw [base_kind, hk]; exact hx) (by rw [base_kind, hk]; exact hhex (by simp))
    cases prime (c.cmOrder.getD [])
    all_goals
      refine ⟨?_, ?_, ?_, ?_, ?_, ?_, ?_, ?_, fit_last _ ht _ rfl⟩
      · exact fit_stage _ ht 0 (by decide) _ _ (by rw [base_kind, hk]; simp [allowed, base]) (check_seed _ _ _ (by decide))
      · exact fit_stage _ ht 1 (by decide) _ _ (by rw [base_kind, hk]; simp [allowed, base]) (check_seed _ _ _ (by decide))
      · exact fit_stage _ ht 2 (by decide) _ _ (by rw [base_kind, hk]; simp [allowed, base]) (check_seed _ _ _ (by decide))
      · exact fit_stage _ ht 3 (by decide) _ _ (by rw [base_kind, hk]; simp [allowed, base]) (check_seed _ _ _ (by decide))
      · exact fit_stage _ ht 4 (by decide) _ _ (by rw [base_kind, hk]; simp [allowed, base]) (by simp [allowedChecks])
      · exact fit_stage _ ht 5 (by decide) _ _ (by rw [base_kind, hk]; simp [allowed, base]) (by simp [allowedChecks, Table.const])
      · refine fit_stage _ ht 6 (by decide) _ _ ?_ (by simp [allowedChecks, Table.const])
        rw [base_kind, hk]
        split <;> simp [allowed, base]
      · first | exact hp _ hpts | exact hp _ (by simp [allowed])
  all_goals
    have hk : kindOf c = .joint := by simp [kindOf, hm, METHOD_CM, METHOD_ANOMALOUS, METHOD_SUPERSINGULAR]
    rw [hk] at hhex hpts
    unfold cmSetup
    simp only [cmGinit, hm, METHOD_CM, METHOD_ANOMALOUS, METHOD_SUPERSINGULAR, if_true, if_false, cmCinit, Nat.reduceEqDiff]
    refine ⟨?_, ?_, ?_, ?_, ?_, ?_, ?_, ?_, fit_last _ ht _ rfl⟩
    · exact fit_stage _ ht 0 (by decide) _ _ (by rw [base_kind, hk]; simp [allowed, base]) (check_seed _ _ _ (by decide))
    · refine fit_stage _ ht 1 (by decide) _ _ ?_ (check_seed _ _ _ (by decide))
      rw [base_kind, hk]
      first | (simp [allowed, base]; done) | (split <;> simp [allowed, base])
    · exact fit_stage _ ht 2 (by decide) _ _ (by rw [base_kind, hk]; simp [allowed, base]) (check_seed _ _ _ (by decide))
    · exact fit_stage _ ht 3 (by decide) _ _ (by rw [base_kind, hk]; simp [allowed, base]) (check_seed _ _ _ (by decide))
    · exact fit_stage _ ht 4 (by decide) _ _ (by rw [base_kind, hk]; simp [allowed, base]) (by simp [allowedChecks])
    · exact fit_stage _ ht 5 (by decide) _ _ (by rw [base_kind, hk]; simp [allowed, base]) (by simp [allowedChecks, Table.const])
    · refine fit_stage _ ht 6 (by decide) _ _ ?_ (by simp [allowedChecks, Table.const])
      rw [base_kind, hk]
      split <;> simp [allowed, base]
    · exact fit_stage _ ht 7 (by decide) _ _ (by rw [base_kind, hk]; exact hpts) (by rw [base_kind, hk]; exact hhex (by simp))

/-- a stage whose generator does not depend on anything else -/
theorem fit_const (c : Config) (rel : Bool) (k : Kind) (hk : kindOf c = k) (s : Nat) (hs : s < 8) (x : Gen) (l : List Check)
    (hx : x ∈ allowed (base k true rel) s) (hl : l ∈ allowedChecks (base k true rel) s) : Fit (classOf c rel) s (some x) l :=
  fit_stage _ (classOf_twist c rel) s hs x l (by rw [base_kind, hk]; exact hx) (by rw [base_kind, hk]; exact hl)

/-- the points and the metadata -/
theorem fit_points (c : Config) (rel : Bool) (k : Kind) (hk : kindOf c = k) (h : k = .twist → c.hexCheck = none) :
    Fit (classOf c rel) 7 (some (pointsChoice c)) (if c.hexCheck.isSome then [Check.hexParam] else []) :=
  fit_const c rel k hk 7 (by decide) _ _ (mem_points k c rel) (mem_hex k c rel h)

theorem exhaustive_fits (n : Int) (os : List Opt) (c : Config) (hacc : commandLine n os = some c) (rel : Bool) (hsp : Spared c rel)
    (hm : ¬ (c.method = METHOD_CM ∨ c.method = METHOD_ANOMALOUS ∨ c.method = METHOD_SUPERSINGULAR)) :
    Fits (classOf c rel) (exhaustiveSetup c) := by
  have hc := consistent n os c hacc
  have ht := classOf_twist c rel
  rcases accepted_algo n os c hacc with ha | ha | ha | ha | ha
  · -- no seed
    have hseed : c.method ≠ METHOD_SEED := fun h => hc.algo.1.1 h ha
    by_cases hf : c.method = METHOD_FAMILY
    · have hk : kindOf c = .seeded := by simp [kindOf, hf, ha, METHOD_CM, METHOD_ANOMALOUS, METHOD_SUPERSINGULAR, METHOD_FAMILY]
      have htw : METHOD_FAMILY ≠ METHOD_TWIST := by decide
      unfold exhaustiveSetup
      simp only [ginit, ginitMethod, cinit, ha, hf, ne_eq, not_true_eq_false, if_true, if_false, hf ▸ hseed, htw]
      refine ⟨?_, fit_const c rel _ hk 1 (by decide) _ _ (by simp [allowed, base]) (check_seed _ _ _ (by decide)),
        fit_const c rel _ hk 2 (by decide) _ _ (by simp [allowed, base]) (check_seed _ _ _ (by decide)), ?_,
        fit_const c rel _ hk 4 (by decide) _ _ (by simp [allowed, base]) (by simp [allowedChecks]),
        fit_const c rel _ hk 5 (by decide) _ _ (by simp [allowed, base]) (by simp [allowedChecks, Table.const]),
        fit_const c rel _ hk 6 (by decide) _ _ (by simp [allowed, base]) (by simp [allowedChecks, Table.const]),
        fit_points c rel _ hk (by simp), fit_last _ ht _ rfl⟩
      · refine fit_const c rel _ hk 0 (by decide) _ _ ?_ (check_seed _ _ _ (by decide))
        split <;> simp [allowed, base]
      · by_cases hfam : c.family = .kss16 ∨ c.family = .kss40
        · rw [if_pos hfam]
          exact fit_const c rel _ hk 3 (by decide) _ _ (by simp [allowed, base]) (check_seed _ _ _ (by decide))
        · rw [if_neg hfam]
          refine fit_family (classOf c rel) hk ?_
          simp only [not_or] at hfam
          simp [classOf, iterates, hf, hfam.1, hfam.2]
    · by_cases htw : c.method = METHOD_TWIST
      · obtain ⟨hu, hco, hhex⟩ := hsp.twist htw
        have hk : kindOf c = .twist := by
          simp [kindOf, htw, ha, METHOD_CM, METHOD_ANOMALOUS, METHOD_SUPERSINGULAR, METHOD_FAMILY, METHOD_TWIST]
        unfold exhaustiveSetup
        simp only [ginit, ginitMethod, cinit, ha, ne_eq, not_true_eq_false, if_true, if_false, htw, gensChoice, hu, hco,
          htw ▸ hf, htw ▸ hseed, Bool.false_eq_true]
        have horder := mem_orderKoblitz .twist (by simp) c rel hsp.smooth
        by_cases hkob : c.koblitz = true
        · simp only [hkob, if_true]
          refine ⟨fit_const c rel _ hk 0 (by decide) _ _ (by simp [allowed, base]) (check_seed _ _ _ (by decide)), ?_, ?_,
            fit_const c rel _ hk 3 (by decide) _ _ (by simp [allowed, base]) (check_seed _ _ _ (by decide)),
            fit_const c rel _ hk 4 (by decide) _ _ (by simp [allowed, base]) (by simp [allowedChecks]),
            fit_const c rel _ hk 5 (by decide) _ _ horder (by simp [allowedChecks, Table.const]),
            fit_const c rel _ hk 6 (by decide) _ _ (by simp [allowed, base]) (by simp [allowedChecks, Table.const]),
            fit_points c rel _ hk (fun _ => hhex), fit_last _ ht _ rfl⟩
          · refine fit_const c rel _ hk 1 (by decide) _ _ ?_ (check_seed _ _ _ (by decide))
            split <;> simp [allowed, base]
          · rcases hc.koblitz with h0 | h1
            · rw [if_pos h0]
              exact fit_const c rel _ hk 2 (by decide) _ _ (by simp [allowed, base]) (check_seed _ _ _ (by decide))
            · rw [if_neg (show ¬ c.koblitzValue = 0 by rw [h1]; decide), if_pos h1]
              exact fit_const c rel _ hk 2 (by decide) _ _ (by simp [allowed, base]) (check_seed _ _ _ (by decide))
        · simp only [hkob]
          refine ⟨fit_const c rel _ hk 0 (by decide) _ _ (by simp [allowed, base]) (check_seed _ _ _ (by decide)), ?_, ?_, ?_,
            fit_const c rel _ hk 4 (by decide) _ _ (by simp [allowed, base]) (by simp [allowedChecks]),
            fit_const c rel _ hk 5 (by decide) _ _ horder (by simp [allowedChecks, Table.const]),
            fit_const c rel _ hk 6 (by decide) _ _ (by simp [allowed, base]) (by simp [allowedChecks, Table.const]),
            fit_points c rel _ hk (fun _ => hhex), fit_last _ ht _ rfl⟩
          · refine fit_const c rel _ hk 1 (by decide) _ _ ?_ (check_seed _ _ _ (by decide))
            split <;> simp [allowed, base]
          · refine fit_const c rel _ hk 2 (by decide) _ _ ?_ (check_seed _ _ _ (by decide))
            split <;> simp [allowed, base]
          · refine fit_const c rel _ hk 3 (by decide) _ _ ?_ (check_seed _ _ _ (by decide))
            split <;> simp [allowed, base]
      · have hk : kindOf c = .plain := by
          simp only [not_or] at hm
          simp [kindOf, hm.1, hm.2.1, hm.2.2, ha, hf, htw]
        unfold exhaustiveSetup
        simp only [ginit, ginitMethod, cinit, ha, hf, hseed, ne_eq, not_true_eq_false, if_false, htw]
        have horder := mem_orderKoblitz .plain (by simp) c rel hsp.smooth
        have hgens := mem_gens .plain (by simp) c rel
        by_cases hkob : c.koblitz = true
        · simp only [hkob, if_true]
          refine ⟨fit_const c rel _ hk 0 (by decide) _ _ (by simp [allowed, base]) (check_seed _ _ _ (by decide)), ?_, ?_,
            fit_const c rel _ hk 3 (by decide) _ _ (by simp [allowed, base]) (check_seed _ _ _ (by decide)),
            fit_const c rel _ hk 4 (by decide) _ _ (by simp [allowed, base]) (by simp [allowedChecks]),
            fit_const c rel _ hk 5 (by decide) _ _ horder (by simp [allowedChecks, Table.const]),
            fit_const c rel _ hk 6 (by decide) _ _ hgens (by simp [allowedChecks, Table.const]),
            fit_points c rel _ hk (by simp), fit_last _ ht _ rfl⟩
          · refine fit_const c rel _ hk 1 (by decide) _ _ ?_ (check_seed _ _ _ (by decide))
            split <;> simp [allowed, base]
          · rcases hc.koblitz with h0 | h1
            · rw [if_pos h0]
              exact fit_const c rel _ hk 2 (by decide) _ _ (by simp [allowed, base]) (check_seed _ _ _ (by decide))
            · rw [if_neg (show ¬ c.koblitzValue = 0 by rw [h1]; decide), if_pos h1]
              exact fit_const c rel _ hk 2 (by decide) _ _ (by simp [allowed, base]) (check_seed _ _ _ (by decide))
        · simp only [hkob]
          refine ⟨fit_const c rel _ hk 0 (by decide) _ _ (by simp [allowed, base]) (check_seed _ _ _ (by decide)), ?_, ?_, ?_,
            fit_const c rel _ hk 4 (by decide) _ _ (by simp [allowed, base]) (by simp [allowedChecks]),
            fit_const c rel _ hk 5 (by decide) _ _ horder (by simp [allowedChecks, Table.const]),
            fit_const c rel _ hk 6 (by decide) _ _ hgens (by simp [allowedChecks, Table.const]),
            fit_points c rel _ hk (by simp), fit_last _ ht _ rfl⟩
          · refine fit_const c rel _ hk 1 (by decide) _ _ ?_ (check_seed _ _ _ (by decide))
            split <;> simp [allowed, base]
          · refine fit_const c rel _ hk 2 (by decide) _ _ ?_ (check_seed _ _ _ (by decide))
            split <;> simp [allowed, base]
          · refine fit_const c rel _ hk 3 (by decide) _ _ ?_ (check_seed _ _ _ (by decide))
            split <;> simp [allowed, base]
  all_goals
    have hseed : c.method = METHOD_SEED := hc.algo.1.2 (by rw [ha]; simp)
    have htw : METHOD_SEED ≠ METHOD_TWIST := by decide
  · -- ANSI X9.62
    have hk : kindOf c = .seeded := by simp [kindOf, hseed, ha, METHOD_CM, METHOD_ANOMALOUS, METHOD_SUPERSINGULAR, METHOD_SEED]
    have hgens := mem_gens .seeded (by simp) c rel
    have horder := mem_order .seeded (by simp) c rel hsp.smooth
    unfold exhaustiveSetup
    simp only [ginit, ginitMethod, cinit, ha, hseed, htw, ne_eq, reduceCtorEq, not_false_eq_true, if_true, if_false]
    refine ⟨?_, ?_, fit_const c rel _ hk 2 (by decide) _ _ (by simp [allowed, base]) (check_seed _ _ _ (by decide)),
      fit_const c rel _ hk 3 (by decide) _ _ (by simp [allowed, base]) (check_seed _ _ _ (by decide)),
      fit_const c rel _ hk 4 (by decide) _ _ (by simp [allowed, base]) (by simp [allowedChecks]),
      fit_const c rel _ hk 5 (by decide) _ _ horder (by simp [allowedChecks, Table.const]),
      fit_const c rel _ hk 6 (by decide) _ _ hgens (by simp [allowedChecks, Table.const]),
      fit_points c rel _ hk (by simp), fit_last _ ht _ rfl⟩
    · refine fit_const c rel _ hk 0 (by decide) _ _ ?_ (check_seed _ _ _ (by decide))
      unfold seedChoice
      split
      · simp [allowed, base]
      split <;> simp [allowed, base]
    · refine fit_const c rel _ hk 1 (by decide) _ _ ?_ (check_seed _ _ _ (by decide))
      split <;> simp [allowed, base]
  · -- Brainpool
    have hk : kindOf c = .joint := by simp [kindOf, hseed, ha, METHOD_CM, METHOD_ANOMALOUS, METHOD_SUPERSINGULAR, METHOD_SEED]
    unfold exhaustiveSetup
    simp only [ginit, ginitMethod, cinit, ha, hseed, htw, ne_eq, reduceCtorEq, not_false_eq_true, if_true, if_false]
    refine ⟨?_, fit_brainpool _ hk (by simp [classOf, isBrainpool, ha]),
      fit_const c rel _ hk 2 (by decide) _ _ (by simp [allowed, base]) (check_seed _ _ _ (by decide)),
      fit_const c rel _ hk 3 (by decide) _ _ (by simp [allowed, base]) (check_seed _ _ _ (by decide)),
      fit_const c rel _ hk 4 (by decide) _ _ (by simp [allowed, base]) (by simp [allowedChecks]),
      fit_const c rel _ hk 5 (by decide) _ _ (by simp [allowed, base]) (by simp [allowedChecks, base]),
      fit_const c rel _ hk 6 (by decide) _ _ (by simp [allowed, base]) (by simp [allowedChecks, base]),
      fit_points c rel _ hk (by simp), fit_last _ ht _ rfl⟩
    refine fit_const c rel _ hk 0 (by decide) _ _ ?_ (check_seed _ _ _ (by decide))
    unfold seedChoice
    split
    · simp [allowed, base]
    split <;> simp [allowed, base]
  · -- Brainpool, as in the RFC
    have hk : kindOf c = .joint := by simp [kindOf, hseed, ha, METHOD_CM, METHOD_ANOMALOUS, METHOD_SUPERSINGULAR, METHOD_SEED]
    unfold exhaustiveSetup
    simp only [ginit, ginitMethod, cinit, ha, hseed, htw, ne_eq, reduceCtorEq, not_false_eq_true, if_true, if_false]
    refine ⟨?_, fit_brainpool _ hk (by simp [classOf, isBrainpool, ha]),
      fit_const c rel _ hk 2 (by decide) _ _ (by simp [allowed, base]) (check_seed _ _ _ (by decide)),
      fit_const c rel _ hk 3 (by decide) _ _ (by simp [allowed, base]) (check_seed _ _ _ (by decide)),
      fit_const c rel _ hk 4 (by decide) _ _ (by simp [allowed, base]) (by simp [allowedChecks]),
      fit_const c rel _ hk 5 (by decide) _ _ (by simp [allowed, base]) (by simp [allowedChecks, base]),
      fit_const c rel _ hk 6 (by decide) _ _ (by simp [allowed, base]) (by simp [allowedChecks, base]),
      fit_points c rel _ hk (by simp), fit_last _ ht _ rfl⟩
    refine fit_const c rel _ hk 0 (by decide) _ _ ?_ (check_seed _ _ _ (by decide))
    unfold seedChoice
    split
    · simp [allowed, base]
    split <;> simp [allowed, base]
  · -- NUMS
    have hk : kindOf c = .plain := by simp [kindOf, hseed, ha, METHOD_CM, METHOD_ANOMALOUS, METHOD_SUPERSINGULAR, METHOD_SEED]
    unfold exhaustiveSetup
    simp only [ginit, ginitMethod, cinit, ha, hseed, htw, ne_eq, reduceCtorEq, not_false_eq_true, if_true, if_false]
    exact ⟨fit_const c rel _ hk 0 (by decide) _ _ (by simp [allowed, base]) (check_seed _ _ _ (by decide)),
      fit_const c rel _ hk 1 (by decide) _ _ (by simp [allowed, base]) (check_seed _ _ _ (by decide)),
      fit_const c rel _ hk 2 (by decide) _ _ (by simp [allowed, base]) (check_seed _ _ _ (by decide)),
      fit_nums _ hk (by simp [classOf, iterates, ha]),
      fit_const c rel _ hk 4 (by decide) _ _ (by simp [allowed, base]) (by simp [allowedChecks]),
      fit_const c rel _ hk 5 (by decide) _ _ (by simp [allowed, base]) (by simp [allowedChecks, Table.const]),
      fit_const c rel _ hk 6 (by decide) _ _ (by simp [allowed, base]) (by simp [allowedChecks, base]),
      fit_points c rel _ hk (by simp), fit_last _ ht _ rfl⟩

/-- every search an accepted command line asks for passes the check -/
theorem run_certified (order : Str → Str) (prime : Str → Bool) (n : Int) (os : List Opt) (c : Config) (hacc : commandLine n os = some c)
    (rel : Bool) (hsp : Spared c rel) (s : Cli.Setup) (hrun : run order prime c = .search s) : Certified (classOf c rel) (fns s) := by
  unfold run at hrun
  split at hrun
  · rename_i hm
    cases hrun
    exact (cm_fits order prime c rel hm).certified
  · rename_i hm
    split at hrun
    · cases hrun
    · cases hrun
      exact (exhaustive_fits n os c hacc rel hsp hm).certified

end Ecgen.Stack
