import Verif.Cli.Lemmas

/-!
# Properties of the option parser (C46, C47)
-/

namespace Ecgen.Cli

open Spec

theorem any_iff (os : List Opt) (p : Opt → Prop) [DecidablePred p] : (os.any fun o => decide (p o)) = true ↔ ∃ o ∈ os, p o := by
  simp

/-- **C46**, all but the form of the seed: an accepted command line gives a consistent configuration -/
theorem consistent (n : Int) (os : List Opt) (c : Config) (h : commandLine n os = some c) : Consistent os c := by
  unfold commandLine at h
  rw [Option.bind_eq_some_iff] at h
  obtain ⟨d, hd, h⟩ := h
  by_cases ha : d.argNum = 0
  · rw [if_pos ha] at h; cases h
  rw [if_neg ha] at h
  by_cases he : endChecks d = true
  swap
  · rw [if_neg he] at h; cases h
  rw [if_pos he, Option.some.injEq] at h
  subst h
  -- the bits of the field and the method
  have hf4 : d.field < 4 := parseAll_inv n (fun c => c.field < 4) (fun c c' o => field_lt n c c' o) os {} d (by decide) hd
  have hf0 : d.field.testBit 0 = os.any fun o => decide (o = .fp) := by
    have := parseAll_flag n (fun c => c.field.testBit 0) (fun o => decide (o = .fp)) (fun c c' o => field_bit0 n c c' o) os {} d hd
    simpa using this
  have hf1 : d.field.testBit 1 = os.any fun o => decide (o = .f2m) := by
    have := parseAll_flag n (fun c => c.field.testBit 1) (fun o => decide (o = .f2m)) (fun c c' o => field_bit1 n c c' o) os {} d hd
    simpa using this
  have hm128 : d.method < 128 :=
    parseAll_inv n (fun c => c.method < 128) (fun c c' o => method_lt n c c' o) os {} d (by decide) hd
  have hm (k : Kind) : d.method.testBit (pos k) = os.any fun o => decide (kind o = some k) := by
    have := parseAll_flag n (fun c => c.method.testBit (pos k)) (fun o => decide (kind o = some k))
      (fun c c' o => method_bit k n c c' o) os {} d hd
    simpa using this
  have hp : d.prime = os.any fun o => decide (constraint o = some .prime) := by
    simpa using parseAll_flag n (fun c => c.prime) (fun o => decide (constraint o = some .prime))
      (fun c c' o => prime_flag n c c' o) os {} d hd
  have hs : d.smooth = os.any fun o => decide (constraint o = some .smooth) := by
    simpa using parseAll_flag n (fun c => c.smooth) (fun o => decide (constraint o = some .smooth))
      (fun c c' o => smooth_flag n c c' o) os {} d hd
  have hco : d.cofactor = os.any fun o => decide (constraint o = some .cofactor) := by
    simpa using parseAll_flag n (fun c => c.cofactor) (fun o => decide (constraint o = some .cofactor))
      (fun c c' o => cofactor_flag n c c' o) os {} d hd
  have hbits : BitsInv os d := by
    simpa using parseAll_trace n BitsInv (fun os c c' o => bits_inv n os c c' o) os [] {} d
      (Or.inl ⟨rfl, by simp, rfl, rfl⟩) hd
  have halgo : AlgoInv os d := by
    simpa using parseAll_trace n AlgoInv (fun os c c' o => algo_inv n os c c' o) os [] {} d
      ⟨by simp, fun h => absurd rfl h⟩ hd
  have horder : OrderInv os d := by
    simpa using parseAll_trace n OrderInv (fun os c c' o => order_inv n os c c' o) os [] {} d (fun h => by simp at h) hd
  have hk := parseAll_inv n (fun c => c.koblitzValue = 0 ∨ c.koblitzValue = 1) (fun c c' o => koblitz_inv n c c' o) os {} d
    (Or.inl rfl) hd
  -- the final checks
  simp only [endChecks, Bool.and_eq_true, Bool.not_eq_true', Bool.or_eq_true, decide_eq_true_eq, Bool.or_eq_false_iff,
    decide_eq_false_iff_not, Bool.and_eq_false_imp, FIELD_PRIME, FIELD_BINARY] at he
  obtain ⟨⟨⟨⟨⟨⟨⟨⟨⟨⟨e1, e2⟩, e3⟩, e4⟩, e5⟩, e6⟩, e7⟩, e8⟩, e9⟩, e10⟩, e11⟩ := he
  have e3' : d.method = 0 ∨ ∃ k : Kind, d.method = code k := by
    rcases e3 with ((((((e | e) | e) | e) | e) | e) | e) | e
    · exact Or.inl e
    · exact Or.inr ⟨.cm, e⟩
    · exact Or.inr ⟨.anomalous, e⟩
    · exact Or.inr ⟨.seed, e⟩
    · exact Or.inr ⟨.invalid, e⟩
    · exact Or.inr ⟨.twist, e⟩
    · exact Or.inr ⟨.supersingular, e⟩
    · exact Or.inr ⟨.family, e⟩
  have hcode (k k' : Kind) : (code k).testBit (pos k') = decide (k = k') := by
    cases k <;> cases k' <;> decide
  have hzero (k : Kind) : Nat.testBit 0 (pos k) = false := by cases k <;> decide
  -- a requested method is the selected one
  have hsel : ∀ o ∈ os, ∀ k, kind o = some k → d.method = code k := by
    intro o ho k hok
    have hb : d.method.testBit (pos k) = true := by
      rw [hm k, any_iff]; exact ⟨o, ho, hok⟩
    rcases e3' with e | ⟨k', e⟩
    · rw [e, hzero] at hb; cases hb
    · rw [e, hcode, decide_eq_true_eq] at hb
      rw [e, hb]
  have hseedbit : d.method.testBit 2 = true ↔ d.method = METHOD_SEED := by
    rcases e3' with e | ⟨k', e⟩
    · rw [e]; decide
    · rw [e]; cases k' <;> decide
  have hcmbit : d.method = METHOD_CM → d.method.testBit 0 = true := by
    intro e; rw [e]; decide
  have codeinj (k k' : Kind) (h : code k = code k') : k = k' := by
    cases k <;> cases k' <;> first | rfl | exact absurd h (by decide)
  have hfield : d.field ≠ 0 ∧ d.field ≠ 3 := by
    refine ⟨e1.1, ?_⟩
    have := e1.2
    simpa using of_decide_eq_false this
  have hfield2 : d.field = 1 ∨ d.field = 2 := by omega
  have b2n_pos (b : Bool) : b2n b = 1 ↔ b = true := by cases b <;> simp [b2n]
  have b2n_le (b : Bool) : b2n b ≤ 1 := by cases b <;> simp [b2n]
  exact
    { field := by
        rcases hfield2 with e | e
        · left
          rw [e] at hf0 hf1
          have h1 := (any_iff os (· = .fp)).mp (by rw [← hf0]; decide)
          have h2 : ¬ ∃ o ∈ os, o = Opt.f2m := fun hx => by
            have := (any_iff os (· = .f2m)).mpr hx
            rw [← hf1] at this
            exact absurd this (by decide)
          obtain ⟨o, ho, rfl⟩ := h1
          exact ⟨ho, fun hx => h2 ⟨_, hx, rfl⟩, e⟩
        · right
          rw [e] at hf0 hf1
          have h1 := (any_iff os (· = .f2m)).mp (by rw [← hf1]; decide)
          have h2 : ¬ ∃ o ∈ os, o = Opt.fp := fun hx => by
            have := (any_iff os (· = .fp)).mpr hx
            rw [← hf0] at this
            exact absurd this (by decide)
          obtain ⟨o, ho, rfl⟩ := h1
          exact ⟨ho, fun hx => h2 ⟨_, hx, rfl⟩, e⟩
      method_unique := by
        intro o ho o' ho' k k' hk hk'
        exact codeinj k k' ((hsel o ho k hk).symm.trans (hsel o' ho' k' hk'))
      method := hsel
      method_default := by
        intro hno
        rcases e3' with e | ⟨k, e⟩
        · exact e
        · have hb : d.method.testBit (pos k) = true := by rw [e, hcode]; simp
          rw [hm k, any_iff] at hb
          obtain ⟨o, ho, hk⟩ := hb
          rw [hno o ho] at hk
          cases hk
      constraint_unique := by
        intro o ho o' ho' k k' hk hk'
        have hmem (k : Constraint) (o : Opt) (ho : o ∈ os) (hk : constraint o = some k) :
            (k = .prime → d.prime = true) ∧ (k = .smooth → d.smooth = true) ∧ (k = .cofactor → d.cofactor = true) := by
          refine ⟨?_, ?_, ?_⟩
          · rintro rfl; rw [hp, any_iff]; exact ⟨o, ho, hk⟩
          · rintro rfl; rw [hs, any_iff]; exact ⟨o, ho, hk⟩
          · rintro rfl; rw [hco, any_iff]; exact ⟨o, ho, hk⟩
        have a1 := hmem k o ho hk
        have a2 := hmem k' o' ho' hk'
        simp only [← b2n_pos] at a1 a2
        cases k <;> cases k' <;> simp only [reduceCtorEq, false_imp_iff, true_and, and_true, forall_const] at a1 a2 ⊢ <;> omega
      prime := by
        change d.prime = true ↔ _
        rw [hp, any_iff]
      smooth := by
        change d.smooth = true ↔ _
        rw [hs, any_iff]
      cofactor := by
        change d.cofactor = true ↔ _
        rw [hco, any_iff]
      primeField := by
        intro o ho k hk hpo
        have hmk := hsel o ho k hk
        change d.field = 1
        change primeOnly k d.seedAlgo at hpo
        rcases hfield2 with e | e
        · exact e
        · exfalso
          rcases hpo with rfl | rfl | rfl | rfl | ⟨rfl, ha⟩
          · exact of_decide_eq_false (e6 hmk) e
          · exact of_decide_eq_false (e7 hmk) e
          · exact of_decide_eq_false (e8 hmk) e
          · exact of_decide_eq_false (e9 hmk) e
          · rcases ha with ha | ha | ha
            · exact of_decide_eq_false (e4 ⟨hmk, Or.inl ha⟩) e
            · exact of_decide_eq_false (e4 ⟨hmk, Or.inr ha⟩) e
            · exact of_decide_eq_false (e5 ⟨hmk, ha⟩) e
      algo := by
        refine ⟨?_, halgo.2⟩
        change d.method = METHOD_SEED ↔ d.seedAlgo ≠ .none
        rw [← hseedbit]
        exact halgo.1
      nums := by
        intro hn
        change d.seedAlgo = .nums at hn
        change d.random = 0
        have : d.method = METHOD_SEED := hseedbit.mp (halgo.1.mpr (by rw [hn]; decide))
        have := e10 ⟨this, hn⟩
        simpa using this
      anomalous := e11
      bits := by
        rcases hbits with ⟨h0, _⟩ | ⟨_, s, h1, h2, h3, h4, _⟩
        · exact absurd h0 ha
        · exact ⟨s, h1, h2, h3, h4⟩
      hexDigits := by
        change d.bits ≤ 4 * d.hexDigits ∧ 4 * d.hexDigits < d.bits + 8 ∧ d.hexDigits % 2 = 0
        rcases hbits with ⟨h0, _⟩ | ⟨_, s, h1, h2, h3, h4, h5⟩
        · exact absurd h0 ha
        · rw [h5]
          by_cases hz : d.bits % 8 = 0
          · rw [if_neg (by simpa using hz)]; omega
          · rw [if_pos hz]; omega
      count := by
        intro hno
        have : d.count = 0 := parseAll_same n (fun c => c.count) (fun o => ∀ s, o ≠ .count s)
          (fun c c' o h hp => count_attr n c c' o h hp) os {} d (fun o ho s e => hno s (e ▸ ho)) hd
        simp only [defaults, this, if_true]
      memory := by
        intro hno
        have : d.memory = 0 := parseAll_same n (fun c => c.memory) (fun o => ∀ s, o ≠ .memory s)
          (fun c c' o h hp => memory_attr n c c' o h hp) os {} d (fun o ho s e => hno s (e ▸ ho)) hd
        simp only [defaults, this, if_true]
      threads := by
        intro hno
        have : d.threads = 0 := parseAll_same n (fun c => c.threads) (fun o => ∀ s, o ≠ .threads s)
          (fun c c' o h hp => threads_attr n c c' o h hp) os {} d (fun o ho s e => hno s (e ▸ ho)) hd
        simp only [defaults, this, if_true]
      threadMemory := by
        intro hno hlt
        have : d.threadMemory = 0 := parseAll_same n (fun c => c.threadMemory) (fun o => ∀ s, o ≠ .threadStack s)
          (fun c c' o h hp => threadMemory_attr n c c' o h hp) os {} d (fun o ho s e => hno s (e ▸ ho)) hd
        simp only [defaults, this, if_true]
        exact Nat.mod_eq_of_lt hlt
      timeout := by
        intro hno
        exact parseAll_same n (fun c => c.timeout) (fun o => ∀ s, o ≠ .timeout s)
          (fun c c' o h hp => timeout_attr n c c' o h hp) os {} d (fun o ho s e => hno s (e ▸ ho)) hd
      nonzero := by
        simp only [defaults]
        refine ⟨?_, ?_, ?_⟩ <;> split <;> first | assumption | decide
      koblitz := hk
      cmOrder := fun e => horder (hcmbit e) }

/-- **C46**, the form of the seed: when all the seeded methods asked for are the same, a seed has the form documented for it -/
theorem seed_form_partial (n : Int) (os : List Opt) (c : Config) (h : commandLine n os = some c)
    (hone : ∀ o ∈ os, ∀ o' ∈ os, ∀ a a', Spec.algo o = some a → Spec.algo o' = some a' → a = a')
    (s : Str) (hs : c.seed = some s) : SeedForm c.seedAlgo s := by
  have hcons := consistent n os c h
  unfold commandLine at h
  rw [Option.bind_eq_some_iff] at h
  obtain ⟨d, hd, h⟩ := h
  have hdc : d.seed = c.seed := by
    split at h
    · cases h
    · split at h
      · cases h; rfl
      · cases h
  have hseed : SeedInv os d := by
    simpa using parseAll_trace n SeedInv (fun os c c' o => seed_inv n os c c' o) os [] {} d (fun s h => by cases h) hd
  rw [← hdc] at hs
  obtain ⟨o, ho, a, ha, hf⟩ := hseed s hs
  have hk : kind o = some .seed := by
    have := algo_kind o
    rw [ha] at this
    simpa using this.symm
  have hm := hcons.method o ho _ hk
  obtain ⟨o', ho', ha'⟩ := hcons.algo.2 (hcons.algo.1.mp hm)
  have := hone o ho o' ho' a _ ha ha'
  rw [← this]
  exact hf

/-- a 42 digit seed -/
def longSeed : Str := List.replicate 42 'a'

/-- **C46** is false: `--fp --ansi=<42 digits> --brainpool 128` is accepted and runs the Brainpool procedure with a seed it does not allow -/
theorem seed_form_false :
    ∃ c, commandLine 4 [.fp, .ansi (some longSeed), .brainpool none, .arg "128".toList] = some c ∧
      c.seedAlgo = .brainpool ∧ c.seed = some longSeed ∧ ¬ SeedForm c.seedAlgo longSeed := by
  refine ⟨(commandLine 4 [.fp, .ansi (some longSeed), .brainpool none, .arg "128".toList]).get (by decide +kernel), by simp, ?_, ?_, ?_⟩
  · decide +kernel
  · decide +kernel
  · have : ((commandLine 4 [.fp, .ansi (some longSeed), .brainpool none, .arg "128".toList]).get (by decide +kernel)).seedAlgo = .brainpool := by
      decide +kernel
    rw [this]
    rintro ⟨_, h⟩
    exact absurd h (by decide)

/-- a command line that is accepted -/
theorem accepted : (commandLine 4 [.fp, .brainpool (some (List.replicate 40 'b')), .unique, .count "5".toList, .arg "256".toList]).isSome := by
  decide +kernel

/-- and one that is refused for each of the reasons -/
theorem refused :
    commandLine 4 [.arg "256".toList] = none ∧
    commandLine 4 [.fp, .f2m, .arg "256".toList] = none ∧
    commandLine 4 [.fp] = none ∧
    commandLine 4 [.fp, .arg "256".toList, .arg "256".toList] = none ∧
    commandLine 4 [.fp, .arg "256x".toList] = none ∧
    commandLine 4 [.fp, .prime, .smooth "10".toList, .arg "256".toList] = none ∧
    commandLine 4 [.fp, .twist, .anomalous, .random none, .arg "256".toList] = none ∧
    commandLine 4 [.f2m, .nums, .arg "256".toList] = none ∧
    commandLine 4 [.fp, .nums, .random none, .arg "256".toList] = none ∧
    commandLine 4 [.fp, .anomalous, .arg "256".toList] = none ∧
    commandLine 4 [.fp, .brainpool (some longSeed), .arg "256".toList] = none ∧
    commandLine 4 [.f2m, .koblitz (some "2".toList), .arg "256".toList] = none := by
  decide +kernel

end Ecgen.Cli
