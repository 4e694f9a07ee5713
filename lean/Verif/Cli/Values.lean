import Verif.Cli.ReportProps
import Verif.Cli.Units

/-!
# The arguments of options mean what the documentation says (C60)

cli.c:51-95 and README.md describe the arguments: a curve family by its name, a number of threads, a type of points with an optional
number before it, a range of primes, an order, names of files.
-/

namespace Ecgen.Cli

open Ecgen.Invalid (IsNumber value digits_append digit?)

/-! ## Specification -/

namespace Spec

/-- the documented families (cli.c:69) -/
def families : List (String × Family) :=
  [("BN", .bn), ("BLS12", .bls12), ("BLS24", .bls24), ("KSS16", .kss16), ("KSS18", .kss18), ("KSS36", .kss36), ("KSS40", .kss40)]

/-- the same character, or the small letter of a capital one -/
def SameLetter (a b : Char) : Prop := a = b ∨ ('A' ≤ b ∧ b ≤ 'Z' ∧ a.toNat = b.toNat + 32)

/-- `s` names the family in capital or small letters -/
def Names (s : Str) (f : Family) : Prop := ∃ name, (name, f) ∈ families ∧ List.Forall₂ SameLetter s name.toList

/-- the documented types of points (cli.c:83) and the stage that makes them; a number of random points is made by another stage than a
random point of every generator -/
def pointTypes : List (String × PointsType) :=
  [("random", .random), ("prime", .prime), ("all", .all), ("nonprime", .nonprime), ("none", .none)]

/-- the stage that makes points of a type -/
def stage : PointsType → Nat → Gen
  | .random, 0 => .pointRandom
  | .random, _ => .pointsRandom
  | .prime, _ => .pointsPrime
  | .all, _ => .pointsAll
  | .nonprime, _ => .pointsNonprime
  | .none, _ => .skip

end Spec

open Spec

/-! ## The last option of a kind -/

/-- the last option of a kind determines an attribute, if all others leave it alone -/
theorem last_parse {α : Type} (n : Int) (f : Config → α) (p : Opt → Prop)
    (same : ∀ c c' o, parse1 n c o = some c' → p o → f c' = f c)
    (pre : List Opt) (o : Opt) (post : List Opt) (d : Config) (hp : ∀ q ∈ post, p q)
    (h : parseAll n {} (pre ++ o :: post) = some d) : ∃ c c', parse1 n c o = some c' ∧ f d = f c' := by
  have key : ∀ (pre : List Opt) (c : Config), parseAll n c (pre ++ o :: post) = some d → ∃ c c', parse1 n c o = some c' ∧ f d = f c' := by
    intro pre
    induction pre with
    | nil =>
      intro c hc
      simp only [List.nil_append, parseAll, Option.bind_eq_some_iff] at hc
      obtain ⟨e, he, hc⟩ := hc
      exact ⟨c, e, he, parseAll_same n f p same post e d hp hc⟩
    | cons q qs ih =>
      intro c hc
      simp only [List.cons_append, parseAll, Option.bind_eq_some_iff] at hc
      obtain ⟨e, _, hc⟩ := hc
      exact ih e hc
  exact key pre {} h

/-! ## Families -/

theorem lower_sameLetter (a b : Char) (h : SameLetter a b) : lower a = lower b := by
  rcases h with rfl | ⟨h1, h2, h3⟩
  · rfl
  · have e1 : 65 ≤ b.toNat := h1
    have e2 : b.toNat ≤ 90 := h2
    unfold lower
    rw [if_neg (by omega), if_pos ⟨e1, e2⟩, ← h3, Char.ofNat_toNat]

theorem sameLetter_lower (a b : Char) (hb : ('A' ≤ b ∧ b ≤ 'Z') ∨ ('0' ≤ b ∧ b ≤ '9')) (h : lower a = lower b) : SameLetter a b := by
  have hv : ∀ n, n ≤ 200 → (Char.ofNat n).toNat = n := by
    intro n hn
    have : n.isValidChar := by left; omega
    simp only [Char.ofNat, this, dif_pos]
    rfl
  have hA : ('A' ≤ b ∧ b ≤ 'Z') ↔ 65 ≤ b.toNat ∧ b.toNat ≤ 90 := Iff.rfl
  have hD : ('0' ≤ b ∧ b ≤ '9') ↔ 48 ≤ b.toNat ∧ b.toNat ≤ 57 := Iff.rfl
  have h' := congrArg Char.toNat h
  unfold lower at h'
  unfold SameLetter
  by_cases ha : 65 ≤ a.toNat ∧ a.toNat ≤ 90
  · rw [if_pos ha, hv _ (by omega)] at h'
    rcases hb with hb | hb
    · rw [if_pos (hA.1 hb), hv _ (by have := hA.1 hb; omega)] at h'
      exact Or.inl (Char.toNat_inj.1 (by omega))
    · rw [if_neg (by have := hD.1 hb; omega)] at h'
      have := hD.1 hb
      omega
  · rw [if_neg ha] at h'
    rcases hb with hb | hb
    · rw [if_pos (hA.1 hb), hv _ (by have := hA.1 hb; omega)] at h'
      exact Or.inr ⟨hb.1, hb.2, h'⟩
    · rw [if_neg (by have := hD.1 hb; omega)] at h'
      exact Or.inl (Char.toNat_inj.1 h')

theorem caseEq_iff (s t : Str) (ht : ∀ b ∈ t, ('A' ≤ b ∧ b ≤ 'Z') ∨ ('0' ≤ b ∧ b ≤ '9')) :
    caseEq s t = true ↔ List.Forall₂ SameLetter s t := by
  unfold caseEq
  rw [beq_iff_eq]
  constructor
  · intro h
    induction t generalizing s with
    | nil => cases s with | nil => exact .nil | cons a s => cases h
    | cons b t ih =>
      cases s with
      | nil => cases h
      | cons a s =>
        simp only [List.map_cons, List.cons.injEq] at h
        exact .cons (sameLetter_lower a b (ht b List.mem_cons_self) h.1) (ih s (fun b hb => ht b (List.mem_cons_of_mem _ hb)) h.2)
  · intro h
    induction h with
    | nil => rfl
    | cons h _ ih =>
      rw [List.map_cons, List.map_cons, lower_sameLetter _ _ h, ih fun b hb => ht b (List.mem_cons_of_mem _ hb)]

theorem families_capital : ∀ x ∈ families, ∀ b ∈ x.1.toList, ('A' ≤ b ∧ b ≤ 'Z') ∨ ('0' ≤ b ∧ b ≤ '9') := by decide +kernel

theorem caseEq_unique (s : Str) (x y : String × Family) (hx : x ∈ families) (hy : y ∈ families)
    (h1 : caseEq s x.1.toList = true) (h2 : caseEq s y.1.toList = true) : x = y := by
  unfold caseEq at h1 h2
  rw [beq_iff_eq] at h1 h2
  rw [h1] at h2
  have : ∀ x ∈ families, ∀ y ∈ families, x.1.toList.map lower = y.1.toList.map lower → x = y := by decide +kernel
  exact this x hx y hy h2

theorem parseFamily_find (s : Str) : parseFamily s = (families.find? fun x => caseEq s x.1.toList).map Prod.snd := by
  unfold parseFamily families
  simp only [List.find?_cons, List.find?_nil]
  split_ifs <;> simp_all

theorem parseFamily_iff (s : Str) (f : Family) : parseFamily s = some f ↔ Names s f := by
  rw [parseFamily_find, Option.map_eq_some_iff]
  constructor
  · rintro ⟨⟨name, g⟩, h, rfl⟩
    have hm := List.mem_of_find?_eq_some h
    have hp := List.find?_some h
    exact ⟨name, hm, (caseEq_iff s name.toList (families_capital _ hm)).1 hp⟩
  · rintro ⟨name, hm, h⟩
    have hp := (caseEq_iff s name.toList (families_capital _ hm)).2 h
    cases hf : families.find? fun x => caseEq s x.1.toList with
    | none => exact absurd hp (by have := List.find?_eq_none.1 hf _ hm; simpa using this)
    | some y =>
      refine ⟨y, rfl, ?_⟩
      have e := caseEq_unique s y (name, f) (List.mem_of_find?_eq_some hf) hm (by simpa using List.find?_some hf) hp
      rw [e]

/-! ## C60 -/

/-- **C60** (family) an accepted command line has the family its last `--family` names, in capital or small letters -/
theorem family_named (n : Int) (pre post : List Opt) (s : Str) (c : Config) (h : commandLine n (pre ++ .family s :: post) = some c)
    (hp : ∀ t, Opt.family t ∉ post) : Names s c.family := by
  obtain ⟨d, hd, rfl⟩ := commandLine_parse n _ c h
  obtain ⟨e, e', he, hf⟩ := last_parse n (fun c => c.family) (fun o => ∀ t, o ≠ .family t)
    (fun c c' o h ho => by parse_cases h <;> first | rfl | exact absurd rfl (ho _)) pre _ post d
    (fun q hq t e => hp t (e ▸ hq)) hd
  change Names s d.family
  rw [hf, ← parseFamily_iff]
  simp only [parse1] at he
  split at he
  · rename_i f hpf
    rw [hpf, ← Option.some.inj he]
  · cases he

/-- every documented name is accepted in this sense, and no other text -/
theorem family_accepted (n : Int) (s : Str) (f : Family) : Names s f ↔
    ∃ c, commandLine n [.fp, .family s, .arg "256".toList] = some c ∧ c.family = f := by
  constructor
  · intro h
    have e := (parseFamily_iff s f).2 h
    refine ⟨_, by simp only [commandLine, parseAll, parse1, e]; rfl, rfl⟩
  · rintro ⟨c, hc, rfl⟩
    exact family_named n [.fp] [.arg "256".toList] s c hc (by simp)

theorem strtol_number (ds rest : List Char) (h : IsNumber ds) (hr : rest.head?.bind digit? = none)
    (hv : value ds < 2 ^ 63) : strtol (ds ++ rest) = ((value ds : Int), rest) := by
  obtain ⟨hne, hall⟩ := h
  obtain ⟨c, cs, rfl⟩ := List.exists_cons_of_ne_nil hne
  have hc := hall c List.mem_cons_self
  have hd : digit? c = some (c.toNat - 48) := by unfold digit?; rw [if_pos hc]
  have hsp : isspace c = false := by
    simp only [isspace, Bool.or_eq_false_iff, Bool.and_eq_false_imp, decide_eq_false_iff_not, decide_eq_true_eq]
    omega
  have hdw : (c :: cs ++ rest).dropWhile isspace = c :: cs ++ rest := by
    rw [List.cons_append, List.dropWhile_cons, hsp]; rfl
  have hm : ¬ ((c :: cs ++ rest).head? = some '-' ∨ (c :: cs ++ rest).head? = some '+') := by
    simp only [List.cons_append, List.head?_cons, Option.some.injEq]
    rintro (rfl | rfl) <;> revert hc <;> decide
  have hneg : ((c :: cs ++ rest).head? == some '-') = false := by
    rw [beq_eq_false_iff_ne]
    exact fun e => hm (Or.inl e)
  unfold strtol number?
  simp only [hdw]
  rw [if_neg hm, if_pos (by simp [hd]), digits_append _ _ hall hr, hneg]
  have e : (List.foldl (fun n c => 10 * n + (c.toNat - 48)) 0 (c :: cs)) = value (c :: cs) := rfl
  simp only [e]
  congr 1
  simp only [Bool.false_eq_true, if_false]
  omega

/-- the number before a type of points -/
def amount (ds : Str) : Nat := if ds = [] then 0 else value ds

theorem strtol_word (ds : Str) (word : String) (t : PointsType) (hd : ds = [] ∨ IsNumber ds) (hv : amount ds < 2 ^ 63)
    (hw : (word, t) ∈ pointTypes) : strtol (ds ++ word.toList) = ((amount ds : Int), word.toList) ∧ pointsKind word.toList = some t := by
  have hx : word.toList.head?.bind digit? = none ∧ pointsKind word.toList = some t ∧ strtol word.toList = (0, word.toList) := by
    have : ∀ x ∈ pointTypes, x.1.toList.head?.bind digit? = none ∧ pointsKind x.1.toList = some x.2 ∧ strtol x.1.toList = (0, x.1.toList) := by
      decide +kernel
    exact this _ hw
  refine ⟨?_, hx.2.1⟩
  unfold amount at hv ⊢
  by_cases he : ds = []
  · subst he
    rw [if_pos rfl]
    exact hx.2.2
  · rw [if_neg he] at hv ⊢
    exact strtol_number ds _ (hd.resolve_left he) hx.1 hv

/-- **C60** (points) the last `--points` option, a documented type with an optional number before it, sets type and number. The stage for
points is the one of this type, given this number when it makes random points, unless a prime order was asked for. -/
theorem points_named_partial (order : Str → Str) (prime : Str → Bool) (n : Int) (pre post : List Opt) (ds : Str) (word : String) (t : PointsType)
    (c : Config) (h : commandLine n (pre ++ .points (ds ++ word.toList) :: post) = some c) (hp : ∀ s, Opt.points s ∉ post)
    (hd : ds = [] ∨ IsNumber ds) (hv : amount ds < 2 ^ 63) (hw : (word, t) ∈ pointTypes) :
    c.pointsType = t ∧ c.pointsAmount = amount ds ∧
    (c.method ≠ METHOD_INVALID → ¬ (c.method = METHOD_CM ∧ prime (c.cmOrder.getD []) = true) →
      ∃ s, run order prime c = .search s ∧ s.gens.points = some (stage t (amount ds)) ∧
        (t = .random → s.genArgs.points = some (.size (amount ds)))) := by
  obtain ⟨hs, hk⟩ := strtol_word ds word t hd hv hw
  have hcfg : c.pointsType = t ∧ c.pointsAmount = amount ds := by
    obtain ⟨d, hdd, rfl⟩ := commandLine_parse n _ c h
    obtain ⟨e, e', he, hf⟩ := last_parse n (fun c => (c.pointsType, c.pointsAmount)) (fun o => ∀ t, o ≠ .points t)
      (fun c c' o h ho => by parse_cases h <;> first | rfl | exact absurd rfl (ho _)) pre _ post d
      (fun q hq t e => hp t (e ▸ hq)) hdd
    simp only [parse1, hs, hk, Option.map_some, Option.some.injEq] at he
    rw [← he] at hf
    simp only [Config.mark, Prod.mk.injEq] at hf
    refine ⟨hf.1, ?_⟩
    change d.pointsAmount = _
    rw [hf.2]
    unfold toSize
    omega
  refine ⟨hcfg.1, hcfg.2, fun hi hcm => ?_⟩
  have hst : pointsChoice c = stage t (amount ds) := by
    unfold pointsChoice
    rw [hcfg.1, hcfg.2]
    cases t <;> simp only [stage]
    split <;> simp_all
  unfold run
  by_cases hm : c.method = METHOD_CM ∨ c.method = METHOD_ANOMALOUS ∨ c.method = METHOD_SUPERSINGULAR
  · rw [if_pos hm]
    refine ⟨_, rfl, ?_, ?_⟩
    · simp only [cmSetup, cmGinit]
      rcases hm with hm | hm | hm
      · have : prime (c.cmOrder.getD []) = false := by
          cases hb : prime (c.cmOrder.getD [])
          · rfl
          · exact absurd ⟨hm, hb⟩ hcm
        simp [hm, this, hst]
      all_goals simp [hm, hst, METHOD_CM, METHOD_ANOMALOUS, METHOD_SUPERSINGULAR]
    · intro ht
      simp only [cmSetup, cmAinit]
      rw [if_pos (by rw [hcfg.1, ht]), hcfg.2]
  · rw [if_neg hm, if_neg hi]
    refine ⟨_, rfl, ?_, ?_⟩
    · simp only [exhaustiveSetup, ginit, hst]
    · intro ht
      have e : c.pointsType = .random := by rw [hcfg.1, ht]
      simp only [exhaustiveSetup, ainit, e, if_true, hcfg.2]
      split_ifs <;> rfl

/-- With a prime order asked for, the type of points has no effect: points are made although `--points=none` is given. -/
theorem points_named_false : ∃ c s, commandLine 1 [.fp, .order "103".toList, .points "none".toList, .arg "7".toList] = some c ∧
    run id (fun _ => true) c = .search s ∧ c.pointsType = .none ∧ s.gens.points = some .pointsPrime := by
  refine ⟨(commandLine 1 [.fp, .order "103".toList, .points "none".toList, .arg "7".toList]).get (by decide +kernel), _, by simp, rfl, ?_, ?_⟩ <;>
    decide +kernel

/-- Negative numbers of points are accepted, and taken for huge ones. -/
theorem points_negative : (commandLine 1 [.fp, .points "-5random".toList, .arg "7".toList]).map (fun c => (c.pointsType, c.pointsAmount)) =
    some (.random, 2 ^ 64 - 5) := by decide +kernel

/-- **C60** (threads) a number of threads is used if it is positive, and refused if it is zero; `auto` uses the processors there are. -/
theorem threads_named (n : Int) (pre post : List Opt) (s : Str) (hp : ∀ t, Opt.threads t ∉ post) :
    (IsNumber s → value s < 2 ^ 64 → ∀ c, commandLine n (pre ++ .threads s :: post) = some c → c.threads = value s ∧ 0 < value s) ∧
    (s = "auto".toList ∨ s = "AUTO".toList → 0 < n → ∀ c, commandLine n (pre ++ .threads s :: post) = some c → (c.threads : Int) = n) := by
  have key : ∀ c, commandLine n (pre ++ .threads s :: post) = some c →
      ∃ e e', parse1 n e (.threads s) = some e' ∧ c.threads = if e'.threads = 0 then 1 else e'.threads := by
    intro c h
    obtain ⟨d, hd, rfl⟩ := commandLine_parse n _ c h
    obtain ⟨e, e', he, hf⟩ := last_parse n (fun c => c.threads) (fun o => ∀ t, o ≠ .threads t)
      (fun c c' o h ho => threads_attr n c c' o h ho) pre _ post d (fun q hq t e => hp t (e ▸ hq)) hd
    exact ⟨e, e', he, by simp only [defaults, hf]⟩
  refine ⟨fun hs hv c h => ?_, fun hs hn c h => ?_⟩
  · obtain ⟨e, e', he, hc⟩ := key c h
    have hsu := strtoul_number s [] hs rfl hv
    rw [List.append_nil] at hsu
    have hna : ¬ (s = "auto".toList ∨ s = "AUTO".toList) := by
      rintro (rfl | rfl)
      · exact absurd (hs.2 'a' (by decide)) (by decide)
      · exact absurd (hs.2 'A' (by decide)) (by decide)
    simp only [parse1] at he
    rw [if_neg hna, hsu] at he
    split at he
    · cases he
    · rename_i hz
      rw [← Option.some.inj he] at hc
      simp only at hc hz
      rw [if_neg hz] at hc
      exact ⟨hc, Nat.pos_of_ne_zero hz⟩
  · obtain ⟨e, e', he, hc⟩ := key c h
    simp only [parse1] at he
    rw [if_pos hs, if_pos hn] at he
    rw [← Option.some.inj he] at hc
    simp only at hc
    rw [if_neg (by omega)] at hc
    omega

/-- A negative number of threads is accepted and taken for a huge one. -/
theorem threads_negative : (commandLine 1 [.fp, .threads "-1".toList, .arg "7".toList]).map (fun c => c.threads) = some (2 ^ 64 - 1) := by
  decide +kernel

/-- **C60** (ranges) the range of primes of the invalid curve method is the text of the last `--invalid` that has one, and consists of
digits and dashes -/
theorem invalid_named (order : Str → Str) (prime : Str → Bool) (n : Int) (pre post : List Opt) (s : Str) (c : Config)
    (h : commandLine n (pre ++ .invalid (some s) :: post) = some c) (hp : ∀ t, Opt.invalid (some t) ∉ post) :
    (∀ ch ∈ s, ('0' ≤ ch ∧ ch ≤ '9') ∨ ch = '-') ∧ ∃ a b, run order prime c = .invalid a b (some s) := by
  have hm : c.method = METHOD_INVALID :=
    (consistent n _ c h).method (.invalid (some s)) (by simp) .invalid rfl
  obtain ⟨d, hd, rfl⟩ := commandLine_parse n _ c h
  obtain ⟨e, e', he, hf⟩ := last_parse n (fun c => c.invalidPrimes) (fun o => ∀ t, o ≠ .invalid (some t))
    (fun c c' o h ho => by parse_cases h <;> first | rfl | exact absurd rfl (ho _)) pre _ post d
    (fun q hq t e => hp t (e ▸ hq)) hd
  simp only [parse1] at he
  split at he
  · rename_i ha
    rw [← Option.some.inj he] at hf
    refine ⟨fun ch hch => ?_, ?_⟩
    · have := List.all_eq_true.1 ha ch hch
      simp only [Bool.or_eq_true, decide_eq_true_eq] at this
      rcases this with this | this
      · left
        unfold digit? at this
        split at this
        · rename_i hr; exact hr
        · simp at this
      · exact Or.inr this
    · unfold run
      rw [if_neg (by rw [hm]; decide), if_pos hm]
      have e : (defaults d).invalidPrimes = some s := hf
      exact ⟨_, _, by rw [e]⟩
  · cases he

/-- **C60** (orders) the order to construct has a digit -/
theorem order_digit (n : Int) (pre post : List Opt) (s : Str) (c : Config) (h : commandLine n (pre ++ .order s :: post) = some c) :
    ∃ ch ∈ s, '0' ≤ ch ∧ ch ≤ '9' := by
  obtain ⟨d, hd, _⟩ := commandLine_parse n _ c h
  obtain ⟨e, e', he, _⟩ := last_parse n (fun _ => ()) (fun _ => True) (fun _ _ _ _ _ => rfl) pre _ post d (fun _ _ => trivial) hd
  simp only [parse1] at he
  split at he
  · rename_i ha
    obtain ⟨ch, hch, hdig⟩ := List.any_eq_true.1 ha
    refine ⟨ch, hch, ?_⟩
    unfold digit? at hdig
    split at hdig
    · rename_i hr; exact hr
    · simp at hdig
  · cases he

/-- but it need not be a list of numbers as cli.c:101-104 spells it out: the expression is not anchored -/
theorem order_lenient : (commandLine 1 [.fp, .order "no 1".toList, .arg "7".toList]).map (fun c => c.cmOrder) = some (some "no 1".toList) := by
  decide +kernel

/-- the value an option gives for the name of the input file, the output file and the data directory -/
def inputArg : Opt → Option Str
  | .input s => some s
  | _ => none
def outputArg : Opt → Option Str
  | .output s => some s
  | _ => none
def dataArg : Opt → Option Str
  | .dataDir s => some s
  | _ => none
def logArg : Opt → Option Str
  | .verbose (some s) => some s
  | _ => none

/-- the last value of an option, if it is given at all -/
def lastArg (f : Opt → Option Str) (os : List Opt) : Option Str := (os.filterMap f).getLast?

theorem lastArg_spec (n : Int) (g : Config → Option Str) (f : Opt → Option Str) (h0 : g {} = none)
    (step : ∀ c c' o, parse1 n c o = some c' → g c' = (f o).or (g c)) (os : List Opt) (d : Config)
    (h : parseAll n {} os = some d) : g d = lastArg f os := by
  have := parseAll_trace n (fun os c => g c = lastArg f os)
    (fun os c c' o hp hc => by
      rw [step c c' o hc, hp]
      unfold lastArg
      rw [List.filterMap_append]
      cases hf : f o with
      | none => simp [hf]
      | some v => simp [hf]) os [] {} d (by rw [h0]; rfl) h
  simpa using this

/-- **C60** (files) the files of an accepted command line are the ones its last options name; output is appended exactly with `--append` -/
theorem files_named (n : Int) (os : List Opt) (c : Config) (h : commandLine n os = some c) :
    c.input = lastArg inputArg os ∧ c.output = lastArg outputArg os ∧ c.datadir = lastArg dataArg os ∧
    c.verboseLog = lastArg logArg os ∧ (c.append = true ↔ .append ∈ os) ∧
    c.verbose = os.countP (fun o => match o with | .verbose _ => true | _ => false) := by
  obtain ⟨d, hd, rfl⟩ := commandLine_parse n _ c h
  refine ⟨?_, ?_, ?_, ?_, ?_, ?_⟩
  · exact lastArg_spec n (fun c => c.input) inputArg rfl (fun c c' o hp => by parse_cases hp <;> simp [Config.mark, inputArg]) os d hd
  · exact lastArg_spec n (fun c => c.output) outputArg rfl (fun c c' o hp => by parse_cases hp <;> simp [Config.mark, outputArg]) os d hd
  · exact lastArg_spec n (fun c => c.datadir) dataArg rfl (fun c c' o hp => by parse_cases hp <;> simp [Config.mark, dataArg]) os d hd
  · exact lastArg_spec n (fun c => c.verboseLog) logArg rfl (fun c c' o hp => by parse_cases hp <;> simp [Config.mark, logArg]) os d hd
  · have := parseAll_flag n (fun c => c.append) (fun o => decide (o = .append))
      (fun c c' o hp => by parse_cases hp <;> simp [Config.mark]) os {} d hd
    simp only [defaults, this]
    simp
  · have := parseAll_trace n (fun os c => c.verbose = os.countP (fun o => match o with | .verbose _ => true | _ => false))
      (fun os c c' o hp hc => by
        rw [List.countP_append, ← hp]
        parse_cases hc <;> simp [Config.mark]) os [] {} d rfl hd
    change d.verbose = _
    simpa using this

/-! ### What is random -/

/-- the parts of a curve that can be made at random -/
inductive Part where
  | seed | field | a | b
  deriving DecidableEq, Repr

/-- the documented words (cli.c:73-74) and what they stand for -/
def words : List (String × List Part) :=
  [("seed", [.seed]), ("field", [.field]), ("a", [.a]), ("b", [.b]), ("equation", [.a, .b])]

/-- an option that asks for a part to be random: `--random` alone, or with a list of words separated by commas, one of which stands for it -/
def asksRandom (p : Part) : Opt → Prop
  | .random none => True
  | .random (some s) => ∃ w parts, (w, parts) ∈ words ∧ p ∈ parts ∧ w.toList ∈ s.splitOn ','
  | _ => False

/-- the bit of a part -/
def Part.bit : Part → Nat
  | .seed => 0
  | .field => 1
  | .a => 2
  | .b => 3

theorem tokens_splitOn (s cur : Str) :
    tokens cur s = ((s.splitOn ',').modifyHead (cur.reverse ++ ·)).filter (fun t => decide (t ≠ [])) := by
  unfold List.splitOn
  induction s generalizing cur with
  | nil => by_cases h : cur = [] <;> simp [tokens, h]
  | cons c s ih =>
    rw [tokens, List.splitOnP_cons_eq_if_modifyHead]
    by_cases hc : c = ','
    · rw [if_pos hc, hc]
      have h0 := ih []
      have e : (s.splitOnP fun x => x == ',').modifyHead (fun x => ([] : Str).reverse ++ x) = s.splitOnP fun x => x == ',' := by
        cases s.splitOnP fun x => x == ',' <;> rfl
      rw [e] at h0
      by_cases hcur : cur = []
      · simp [hcur, h0]
      · simp [hcur, h0]
    · rw [if_neg hc, ih]
      rw [if_neg (by simpa using hc), List.modifyHead_modifyHead]
      congr 2
      funext x
      simp

theorem mem_tokens (s w : Str) (hw : w ≠ []) : w ∈ tokens [] s ↔ w ∈ s.splitOn ',' := by
  rw [tokens_splitOn]
  have : (s.splitOn ',').modifyHead (([] : Str).reverse ++ ·) = s.splitOn ',' := by
    cases s.splitOn ',' <;> rfl
  rw [this, List.mem_filter]
  simp [hw]

theorem randomToken_spec (r r' : Nat) (t : Str) (h : randomToken r t = some r') (p : Part) :
    r'.testBit p.bit = true ↔ r.testBit p.bit = true ∨ ∃ w parts, (w, parts) ∈ words ∧ p ∈ parts ∧ t = w.toList := by
  unfold randomToken at h
  simp only [words, List.mem_cons, Prod.mk.injEq, List.not_mem_nil, or_false]
  have bits : ∀ p : Part, (RANDOM_SEED.testBit p.bit = decide (p = .seed)) ∧ (RANDOM_FIELD.testBit p.bit = decide (p = .field)) ∧
      (RANDOM_A.testBit p.bit = decide (p = .a)) ∧ (RANDOM_B.testBit p.bit = decide (p = .b)) ∧
      (RANDOM_EQUATION.testBit p.bit = decide (p = .a ∨ p = .b)) := by
    intro p; cases p <;> decide
  obtain ⟨b1, b2, b3, b4, b5⟩ := bits p
  split at h
  · rename_i e; subst e
    rw [← Option.some.inj h, Nat.testBit_or, b1]
    constructor
    · intro hb
      rcases Bool.or_eq_true_iff.1 hb with hb | hb
      · exact Or.inl hb
      · exact Or.inr ⟨"seed", _, Or.inl ⟨rfl, rfl⟩, by simpa using hb, rfl⟩
    · rintro (hb | ⟨w, parts, hw, hp, ht⟩)
      · simp [hb]
      · rcases hw with ⟨rfl, rfl⟩ | ⟨rfl, rfl⟩ | ⟨rfl, rfl⟩ | ⟨rfl, rfl⟩ | ⟨rfl, rfl⟩ <;> first | (exfalso; revert ht; decide +kernel) | simp_all
  split at h
  · rename_i e; subst e
    rw [← Option.some.inj h, Nat.testBit_or, b2]
    constructor
    · intro hb
      rcases Bool.or_eq_true_iff.1 hb with hb | hb
      · exact Or.inl hb
      · exact Or.inr ⟨"field", _, Or.inr (Or.inl ⟨rfl, rfl⟩), by simpa using hb, rfl⟩
    · rintro (hb | ⟨w, parts, hw, hp, ht⟩)
      · simp [hb]
      · rcases hw with ⟨rfl, rfl⟩ | ⟨rfl, rfl⟩ | ⟨rfl, rfl⟩ | ⟨rfl, rfl⟩ | ⟨rfl, rfl⟩ <;> first | (exfalso; revert ht; decide +kernel) | simp_all
  split at h
  · rename_i e; subst e
    rw [← Option.some.inj h, Nat.testBit_or, b3]
    constructor
    · intro hb
      rcases Bool.or_eq_true_iff.1 hb with hb | hb
      · exact Or.inl hb
      · exact Or.inr ⟨"a", _, Or.inr (Or.inr (Or.inl ⟨rfl, rfl⟩)), by simpa using hb, rfl⟩
    · rintro (hb | ⟨w, parts, hw, hp, ht⟩)
      · simp [hb]
      · rcases hw with ⟨rfl, rfl⟩ | ⟨rfl, rfl⟩ | ⟨rfl, rfl⟩ | ⟨rfl, rfl⟩ | ⟨rfl, rfl⟩ <;> first | (exfalso; revert ht; decide +kernel) | simp_all
  split at h
  · rename_i e; subst e
    rw [← Option.some.inj h, Nat.testBit_or, b4]
    constructor
    · intro hb
      rcases Bool.or_eq_true_iff.1 hb with hb | hb
      · exact Or.inl hb
      · exact Or.inr ⟨"b", _, Or.inr (Or.inr (Or.inr (Or.inl ⟨rfl, rfl⟩))), by simpa using hb, rfl⟩
    · rintro (hb | ⟨w, parts, hw, hp, ht⟩)
      · simp [hb]
      · rcases hw with ⟨rfl, rfl⟩ | ⟨rfl, rfl⟩ | ⟨rfl, rfl⟩ | ⟨rfl, rfl⟩ | ⟨rfl, rfl⟩ <;> first | (exfalso; revert ht; decide +kernel) | simp_all
  split at h
  · rename_i e; subst e
    rw [← Option.some.inj h, Nat.testBit_or, b5]
    constructor
    · intro hb
      rcases Bool.or_eq_true_iff.1 hb with hb | hb
      · exact Or.inl hb
      · exact Or.inr ⟨"equation", _, Or.inr (Or.inr (Or.inr (Or.inr ⟨rfl, rfl⟩))), by simpa using hb, rfl⟩
    · rintro (hb | ⟨w, parts, hw, hp, ht⟩)
      · simp [hb]
      · rcases hw with ⟨rfl, rfl⟩ | ⟨rfl, rfl⟩ | ⟨rfl, rfl⟩ | ⟨rfl, rfl⟩ | ⟨rfl, rfl⟩ <;> first | (exfalso; revert ht; decide +kernel) | simp_all
  · cases h

theorem randomTokens_spec (ts : List Str) (r r' : Nat) (h : randomTokens r ts = some r') (p : Part) :
    r'.testBit p.bit = true ↔ r.testBit p.bit = true ∨ ∃ w parts, (w, parts) ∈ words ∧ p ∈ parts ∧ w.toList ∈ ts := by
  induction ts generalizing r with
  | nil =>
    rw [randomTokens, Option.some.injEq] at h
    simp [h]
  | cons t ts ih =>
    rw [randomTokens, Option.bind_eq_some_iff] at h
    obtain ⟨q, hq, h⟩ := h
    rw [ih q h, randomToken_spec r q t hq p]
    constructor
    · rintro ((h | ⟨w, ps, h1, h2, h3⟩) | ⟨w, ps, h1, h2, h3⟩)
      · exact Or.inl h
      · exact Or.inr ⟨w, ps, h1, h2, by simp [h3]⟩
      · exact Or.inr ⟨w, ps, h1, h2, List.mem_cons_of_mem _ h3⟩
    · rintro (h | ⟨w, ps, h1, h2, h3⟩)
      · exact Or.inl (Or.inl h)
      · rcases List.mem_cons.1 h3 with h3 | h3
        · exact Or.inl (Or.inr ⟨w, ps, h1, h2, h3.symm⟩)
        · exact Or.inr ⟨w, ps, h1, h2, h3⟩

theorem random_same (n : Int) (c c' : Config) (o : Opt) (h : parse1 n c o = some c') (ho : ∀ a, o ≠ .random a) : c'.random = c.random := by
  parse_cases h <;> first | rfl | exact absurd rfl (ho _)

theorem random_step (n : Int) (c c' : Config) (o : Opt) (h : parse1 n c o = some c') (p : Part) :
    c'.random.testBit p.bit = true ↔ c.random.testBit p.bit = true ∨ asksRandom p o := by
  by_cases ho : ∃ a, o = .random a
  · obtain ⟨a, rfl⟩ := ho
    cases a with
    | none =>
      simp only [parse1, Option.some.injEq] at h
      rw [← h]
      simp only [Config.mark, asksRandom, or_true, iff_true]
      cases p <;> decide
    | some s =>
      have hne : ∀ x ∈ words, x.1.toList ≠ [] := by decide +kernel
      simp only [parse1, Option.map_eq_some_iff] at h
      obtain ⟨r, hr, rfl⟩ := h
      simp only [Config.mark, asksRandom]
      rw [randomTokens_spec _ _ _ hr p]
      constructor
      · rintro (h | ⟨w, ps, h1, h2, h3⟩)
        · exact Or.inl h
        · exact Or.inr ⟨w, ps, h1, h2, (mem_tokens s _ (hne _ h1)).1 h3⟩
      · rintro (h | ⟨w, ps, h1, h2, h3⟩)
        · exact Or.inl h
        · exact Or.inr ⟨w, ps, h1, h2, (mem_tokens s _ (hne _ h1)).2 h3⟩
  · have hno : ∀ a, o ≠ .random a := fun a e => ho ⟨a, e⟩
    rw [random_same n c c' o h hno]
    have : ¬ asksRandom p o := by
      cases o <;> first | exact id | exact absurd rfl (hno _)
    simp [this]

/-- **C60** (random) a part is random exactly when some `--random` asks for it -/
theorem random_named (n : Int) (os : List Opt) (c : Config) (h : commandLine n os = some c) (p : Part) :
    c.random.testBit p.bit = true ↔ ∃ o ∈ os, asksRandom p o := by
  obtain ⟨d, hd, rfl⟩ := commandLine_parse n _ c h
  have := parseAll_trace n (fun os c => c.random.testBit p.bit = true ↔ ∃ o ∈ os, asksRandom p o)
    (fun os c c' o hp hc => by
      rw [random_step n c c' o hc p, hp]
      constructor
      · rintro (⟨o', h1, h2⟩ | h)
        · exact ⟨o', by simp [h1], h2⟩
        · exact ⟨o, by simp, h⟩
      · rintro ⟨o', h1, h2⟩
        rcases List.mem_append.1 h1 with h1 | h1
        · exact Or.inl ⟨o', h1, h2⟩
        · rw [List.mem_singleton] at h1
          subst h1
          exact Or.inr h2) os [] {} d (by simp) hd
  change d.random.testBit p.bit = true ↔ _
  simpa using this

theorem has_testBit (r : Nat) (p : Part) : has r (2 ^ p.bit) = r.testBit p.bit := by
  unfold has
  cases hb : r.testBit p.bit
  · rw [decide_eq_false_iff_not, ne_eq, not_not]
    apply Nat.eq_of_testBit_eq
    intro i
    rw [Nat.testBit_and, Nat.testBit_two_pow, Nat.zero_testBit]
    by_cases hi : p.bit = i
    · simp [← hi, hb]
    · simp [hi]
  · rw [decide_eq_true_iff]
    intro e
    have := congrArg (Nat.testBit · p.bit) e
    simp [hb] at this

/-- **C60** (random, in effect) in a search without a method option, field and coefficients come from the random generator exactly when a
`--random` asks for them (the coefficients unless `--koblitz` fixes them), and from the input otherwise -/
theorem random_in_force (order : Str → Str) (prime : Str → Bool) (n : Int) (os : List Opt) (c : Config) (h : commandLine n os = some c)
    (hm : ∀ o ∈ os, kind o = none) : ∃ s, run order prime c = .search s ∧
      (s.gens.field = some .fieldRandom ↔ ∃ o ∈ os, asksRandom .field o) ∧
      (s.gens.field = some .fieldInput ↔ ¬ ∃ o ∈ os, asksRandom .field o) ∧
      (c.koblitz = false → (s.gens.a = some .aRandom ↔ ∃ o ∈ os, asksRandom .a o) ∧ (s.gens.a = some .aInput ↔ ¬ ∃ o ∈ os, asksRandom .a o) ∧
        (s.gens.b = some .bRandom ↔ ∃ o ∈ os, asksRandom .b o) ∧ (s.gens.b = some .bInput ↔ ¬ ∃ o ∈ os, asksRandom .b o)) := by
  have hc := consistent n os c h
  have hm0 := hc.method_default hm
  have ha : c.seedAlgo = .none := by
    by_contra hne
    have := hc.algo.1.2 hne
    rw [hm0] at this
    exact absurd this (by decide)
  refine ⟨_, plain_run order prime c (Or.inl hm0), ?_⟩
  have hf := random_named n os c h .field
  have h1 := random_named n os c h .a
  have h2 := random_named n os c h .b
  rw [← has_testBit] at hf h1 h2
  rw [← hf, ← h1, ← h2]
  change (_ ↔ has c.random RANDOM_FIELD = true) ∧ (_ ↔ ¬ has c.random RANDOM_FIELD = true) ∧ (_ → (_ ↔ has c.random RANDOM_A = true) ∧
    (_ ↔ ¬ has c.random RANDOM_A = true) ∧ (_ ↔ has c.random RANDOM_B = true) ∧ (_ ↔ ¬ has c.random RANDOM_B = true))
  have hmf : ¬ c.method = METHOD_FAMILY := by rw [hm0]; decide
  simp only [exhaustiveSetup, ginit, ginitMethod, ha, ne_eq, not_true_eq_false, if_false, hmf]
  refine ⟨?_, ?_, fun hk => ⟨?_, ?_, ?_, ?_⟩⟩
  · cases c.koblitz <;> cases has c.random RANDOM_FIELD <;> simp
  · cases c.koblitz <;> cases has c.random RANDOM_FIELD <;> simp
  · rw [hk]; cases has c.random RANDOM_A <;> simp
  · rw [hk]; cases has c.random RANDOM_A <;> simp
  · rw [hk]; cases has c.random RANDOM_B <;> simp
  · rw [hk]; cases has c.random RANDOM_B <;> simp

/-- **C60** (count) a positive number of curves below `2 ^ 63` is the number of curves asked for -/
theorem count_named (n : Int) (pre post : List Opt) (s : Str) (c : Config) (h : commandLine n (pre ++ .count s :: post) = some c)
    (hp : ∀ t, Opt.count t ∉ post) (hs : IsNumber s) (hv : value s < 2 ^ 63) (h0 : value s ≠ 0) : c.count = value s := by
  obtain ⟨d, hd, rfl⟩ := commandLine_parse n _ c h
  obtain ⟨e, e', he, hf⟩ := last_parse n (fun c => c.count) (fun o => ∀ t, o ≠ .count t)
    (fun c c' o h ho => count_attr n c c' o h ho) pre _ post d (fun q hq t e => hp t (e ▸ hq)) hd
  have hsu := strtoul_number s [] hs rfl (by omega)
  rw [List.append_nil] at hsu
  simp only [parse1, hsu, Option.some.injEq] at he
  rw [← he] at hf
  simp only [Config.mark, toLong, if_pos hv] at hf
  simp only [defaults, hf]
  rw [if_neg (by omega)]

/-- the hypotheses are met -/
theorem values_met :
    (commandLine 4 [.fp, .family "bls12".toList, .points "12random".toList, .threads "8".toList, .output "x".toList, .output "y".toList,
      .append, .arg "256".toList]).map (fun c => (c.family, c.pointsType, c.pointsAmount)) = some (.bls12, .random, 12) ∧
    (commandLine 4 [.fp, .family "bls12".toList, .points "12random".toList, .threads "8".toList, .output "x".toList, .output "y".toList,
      .append, .arg "256".toList]).map (fun c => (c.threads, c.output, c.append)) = some (8, some "y".toList, true) ∧
    (commandLine 4 [.fp, .random (some "field,equation".toList), .count "12".toList, .arg "256".toList]).map (fun c => (c.random, c.count)) =
      some (14, 12) ∧
    commandLine 4 [.fp, .threads "0".toList, .arg "256".toList] = none ∧
    commandLine 4 [.fp, .family "BLS13".toList, .arg "256".toList] = none ∧
    (commandLine 4 [.fp, .invalid (some "3-50".toList), .threads "auto".toList, .arg "256".toList]).map (fun c => (c.invalidPrimes, c.threads)) =
      some (some "3-50".toList, 4) := by
  refine ⟨?_, ?_, ?_, ?_, ?_, ?_⟩ <;> decide +kernel

end Ecgen.Cli
