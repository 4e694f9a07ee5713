import Verif.Cli.SetupProps

/-!
# Options without effect (C53)
-/

namespace Ecgen.Cli

open Spec

/-! ## Warnings are true -/

theorem report_unused (c : Config) (r : Run) (x : Name) (h : x ∈ report c r) : x ∉ r.used := by
  simp only [report, List.mem_filter, decide_eq_true_eq] at h
  exact h.2.2

theorem orderChoice_prime (c : Config) : Name.prime ∈ (orderChoice c).2 ∧ Name.prime ∈ (orderChoiceKoblitz c).2 := by
  unfold orderChoice orderChoiceKoblitz
  constructor <;> (repeat' split) <;> simp

theorem gensChoice_unique (c : Config) : Name.unique ∈ (gensChoice c).2 := by
  unfold gensChoice
  (repeat' split) <;> simp

theorem seedChoice_seed (c : Config) (x y z : Gen) : Name.seed ∈ (seedChoice c x y z).2 := by
  unfold seedChoice
  (repeat' split) <;> simp

theorem seedChoice_random (c : Config) (x y z : Gen) (h : c.seed = none) : Name.random ∈ (seedChoice c x y z).2 := by
  unfold seedChoice
  rw [h]
  (repeat' split) <;> simp_all

/-- the part of the setup that depends on the method -/
theorem exhaustive_used (c : Config) : (Run.search (exhaustiveSetup c)).used =
    .method :: ((ginitMethod c).2 ++ [.method, .metadata, .points] ++ ((cinit c).2) ++ [.count]) := rfl

theorem ginitMethod_used (c : Config) (x : Name) (h : x ∉ (Run.search (exhaustiveSetup c)).used) :
    x ∉ (ginitMethod c).2 ∧ x ≠ .method ∧ x ≠ .metadata ∧ x ≠ .points ∧ x ≠ .hexCheck ∧ x ≠ .count := by
  rw [exhaustive_used] at h
  simp only [cinit, List.mem_cons, List.mem_append, not_or] at h
  tauto

theorem behaviour_cm (order : Str → Str) (prime : Str → Bool) (c : Config)
    (hm : c.method = METHOD_CM ∨ c.method = METHOD_ANOMALOUS ∨ c.method = METHOD_SUPERSINGULAR) :
    run order prime c = .search (cmSetup order prime c) ∧
    behaviour order prime c = .search (cmSetup order prime c).effect none c.count := by
  have hr : run order prime c = .search (cmSetup order prime c) := by unfold run; rw [if_pos hm]
  refine ⟨hr, ?_⟩
  unfold behaviour
  rw [hr]
  have : (cmSetup order prime c).gens.seed = some .skip := by
    simp only [cmSetup, cmGinit]
    (repeat' split) <;> rfl
  simp only [this, readsSeed, Bool.false_eq_true, if_false]

theorem behaviour_invalid (order : Str → Str) (prime : Str → Bool) (c : Config) (hm : c.method = METHOD_INVALID) :
    run order prime c = .invalid (originalSetup c) (invalidSetup c) c.invalidPrimes ∧
    behaviour order prime c = .invalid (originalSetup c).effect (invalidSetup c).effect c.invalidPrimes := by
  have hr : run order prime c = .invalid (originalSetup c) (invalidSetup c) c.invalidPrimes := by
    unfold run
    rw [if_neg (by rw [hm]; decide), if_pos hm]
  refine ⟨hr, ?_⟩
  unfold behaviour
  rw [hr]

theorem behaviour_exhaustive (order : Str → Str) (prime : Str → Bool) (c : Config)
    (hm : ¬ (c.method = METHOD_CM ∨ c.method = METHOD_ANOMALOUS ∨ c.method = METHOD_SUPERSINGULAR)) (hi : c.method ≠ METHOD_INVALID) :
    run order prime c = .search (exhaustiveSetup c) ∧
    behaviour order prime c =
      .search (exhaustiveSetup c).effect (if readsSeed (ginitMethod c).1.seed then c.seed else none) c.count := by
  have hr : run order prime c = .search (exhaustiveSetup c) := by
    unfold run
    rw [if_neg hm, if_neg hi]
  refine ⟨hr, ?_⟩
  unfold behaviour
  rw [hr]
  rfl

/-- the method options do not name a configuration field that could be erased silently -/
theorem report_true_cm (order : Str → Str) (prime : Str → Bool) (c : Config)
    (hm : c.method = METHOD_CM ∨ c.method = METHOD_ANOMALOUS ∨ c.method = METHOD_SUPERSINGULAR) (x : Name)
    (hx : x ∉ (Run.search (cmSetup order prime c)).used) : behaviour order prime (erase c x) = behaviour order prime c := by
  have hne : x ≠ .field ∧ x ≠ .method ∧ x ≠ .unique ∧ x ≠ .metadata ∧ x ≠ .points ∧ x ≠ .hexCheck ∧ x ≠ .count ∧
      (x = .cmOrder → c.method ≠ METHOD_CM) ∧ (x = .random → c.method = METHOD_CM) := by
    have n1 : ¬ METHOD_ANOMALOUS = METHOD_CM := by decide
    have n2 : ¬ METHOD_SUPERSINGULAR = METHOD_CM := by decide
    have n3 : ¬ METHOD_SUPERSINGULAR = METHOD_ANOMALOUS := by decide
    rcases hm with h | h | h <;> simp only [Run.used, cmSetup, cmGinit, h, if_true, if_neg n1, if_neg n2, if_neg n3] at hx
    · cases hp : prime (c.cmOrder.getD []) <;>
        simp only [hp, List.mem_cons, List.mem_append, List.not_mem_nil, or_false, not_or, Bool.false_eq_true, if_false, if_true] at hx <;>
        (simp only [h]; tauto)
    · simp only [List.mem_cons, List.mem_append, List.not_mem_nil, or_false, not_or] at hx
      refine ⟨?_, ?_, ?_, ?_, ?_, ?_, ?_, fun _ => ?_, fun e => ?_⟩ <;> first | (rw [h]; exact n1) | (exfalso; tauto) | tauto
    · simp only [List.mem_cons, List.mem_append, List.not_mem_nil, or_false, not_or] at hx
      refine ⟨?_, ?_, ?_, ?_, ?_, ?_, ?_, fun _ => ?_, fun e => ?_⟩ <;> first | (rw [h]; exact n2) | (exfalso; tauto) | tauto
  rw [(behaviour_cm order prime c hm).2]
  cases x <;> first
    | (exfalso; simp only [ne_eq, not_true_eq_false, false_and, and_false] at hne; done)
    | (rw [(behaviour_cm order prime _ (by exact hm)).2]; rfl)
    | skip
  · have h : c.method = METHOD_CM := hne.2.2.2.2.2.2.2.2 rfl
    rw [(behaviour_cm order prime _ (by exact hm)).2]
    clear hm hx hne
    cases c
    dsimp only at h
    subst h
    rfl
  · have h : c.method ≠ METHOD_CM := hne.2.2.2.2.2.2.2.1 rfl
    rw [(behaviour_cm order prime _ (by exact hm)).2]
    rcases hm with hm | hm | hm
    · exact absurd hm h
    all_goals
      clear hx hne h
      cases c
      dsimp only at hm
      subst hm
      rfl

theorem report_true_invalid (order : Str → Str) (prime : Str → Bool) (c : Config) (hm : c.method = METHOD_INVALID) (x : Name)
    (hx : x ∉ (Run.invalid (originalSetup c) (invalidSetup c) c.invalidPrimes).used) :
    behaviour order prime (erase c x) = behaviour order prime c := by
  simp only [Run.used, originalSetup, invalidSetup, List.mem_cons, List.mem_append, List.not_mem_nil, or_false, not_or] at hx
  rw [(behaviour_invalid order prime c hm).2]
  cases x <;> first
    | (exfalso; simp only [not_true_eq_false, false_and, and_false] at hx)
    | (rw [(behaviour_invalid order prime _ (by exact hm)).2]; rfl)

set_option maxHeartbeats 2000000 in
theorem report_true_exhaustive (order : Str → Str) (prime : Str → Bool) (c : Config)
    (hm : ¬ (c.method = METHOD_CM ∨ c.method = METHOD_ANOMALOUS ∨ c.method = METHOD_SUPERSINGULAR)) (hi : c.method ≠ METHOD_INVALID)
    (hone : ¬ (c.prime = true ∧ c.cofactor = true) ∧ ¬ (c.prime = true ∧ c.smooth = true) ∧ ¬ (c.smooth = true ∧ c.cofactor = true))
    (x : Name) (hx : x ∉ (Run.search (exhaustiveSetup c)).used) : behaviour order prime (erase c x) = behaviour order prime c := by
  obtain ⟨hu, n1, n2, n3, n4, n5⟩ := ginitMethod_used c x hx
  rw [(behaviour_exhaustive order prime c hm hi).2]
  have hmx : ¬ ((erase c x).method = METHOD_CM ∨ (erase c x).method = METHOD_ANOMALOUS ∨ (erase c x).method = METHOD_SUPERSINGULAR) ∧
      (erase c x).method ≠ METHOD_INVALID := by
    cases x <;> first | exact absurd rfl n1 | exact ⟨hm, hi⟩
  rw [(behaviour_exhaustive order prime _ hmx.1 hmx.2).2]
  clear hmx hm hi hx
  obtain ⟨field, method, count, random, prime, cmOrder, koblitz, koblitzValue, smooth, smoothValue, cofactor, cofactorValue,
    invalidPrimes, seedAlgo, seed, family, unique, hexCheck, pointsType, pointsAmount, metadata, datadir, memory, threads, threadMemory,
    timeout, output, input, append, verbose, verboseLog, bits, hexDigits, argNum, set⟩ := c
  dsimp only at hone
  have hcases : (prime = true ∧ cofactor = false ∧ smooth = false) ∨ (prime = false ∧ cofactor = true ∧ smooth = false) ∨
      (prime = false ∧ cofactor = false) := by
    revert hone
    cases prime <;> cases cofactor <;> cases smooth <;> decide
  clear hone
  have n6 : x ≠ .field := by
    rintro rfl
    apply hu
    unfold ginitMethod
    (repeat' split) <;> simp
  have n7 : x ≠ .seedAlgo := by
    rintro rfl
    apply hu
    unfold ginitMethod
    (repeat' split) <;> simp
  by_cases hs : seedAlgo = .none
  · subst hs
    by_cases hf : method = METHOD_FAMILY
    · subst hf
      rcases hcases with ⟨rfl, rfl, rfl⟩ | ⟨rfl, rfl, rfl⟩ | ⟨rfl, rfl⟩ <;> cases x <;> first
        | exact absurd rfl n1
        | exact absurd rfl n2
        | exact absurd rfl n3
        | exact absurd rfl n4
        | exact absurd rfl n5
        | exact absurd rfl n6
        | exact absurd rfl n7
        | rfl
        | (exfalso; apply hu; simp [ginitMethod]; done)
        | (cases random <;> rfl)
        | (cases smooth <;> rfl)
    · rcases hcases with ⟨rfl, rfl, rfl⟩ | ⟨rfl, rfl, rfl⟩ | ⟨rfl, rfl⟩ <;> (try cases smooth) <;> cases unique <;> cases koblitz <;> cases x <;> first
        | exact absurd rfl n1
        | exact absurd rfl n2
        | exact absurd rfl n3
        | exact absurd rfl n4
        | exact absurd rfl n5
        | exact absurd rfl n6
        | exact absurd rfl n7
        | rfl
        | (exfalso; apply hu; simp [ginitMethod, hf, orderChoiceKoblitz, gensChoice]; done)
        | (simp only [exhaustiveSetup, ginit, ginitMethod, ne_eq, not_true_eq_false, if_false, hf, erase]; rfl)
  · have n8 : x ≠ .prime := by
      rintro rfl
      apply hu
      have := fun c => (orderChoice_prime c).1
      cases seedAlgo <;> simp_all [ginitMethod]
    have n9 : x ≠ .unique := by
      rintro rfl
      apply hu
      have := gensChoice_unique
      cases seedAlgo <;> simp_all [ginitMethod]
    rcases hcases with ⟨rfl, rfl, rfl⟩ | ⟨rfl, rfl, rfl⟩ | ⟨rfl, rfl⟩ <;> (try cases smooth) <;> cases unique <;> cases seedAlgo <;> cases seed <;> cases x <;> first
        | exact absurd rfl hs
        | exact absurd rfl n8
        | exact absurd rfl n9
        | exact absurd rfl n1
        | exact absurd rfl n2
        | exact absurd rfl n3
        | exact absurd rfl n4
        | exact absurd rfl n5
        | exact absurd rfl n6
        | exact absurd rfl n7
        | rfl
        | (exfalso; apply hu; simp [ginitMethod, orderChoice, gensChoice, seedChoice]; done)
        | (exfalso; apply hu; simp [ginitMethod, seedChoice_random])

end Ecgen.Cli
