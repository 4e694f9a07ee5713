import Verif.Files.Lemmas

/-!
# What a run does to files (C65)
-/

namespace Ecgen.Files

/-! ## Specification -/

/-- the output file, if it can be opened the way asked for -/
def outFile (env : Env) (c : Cli.Config) : Option Path :=
  c.output.filter fun p => env.can p (if c.append then .append else .write)

/-- the log file, if it can be opened -/
def logFile (env : Env) (c : Cli.Config) : Option Path := c.verboseLog.filter fun p => env.can p .write

/-- the text a run reads: the content of the input file before the run, or standard input; none if the file cannot be opened -/
def inputText (env : Env) (c : Cli.Config) (w : World) : Option Text :=
  match c.input with
  | none => some w.stdin
  | some p => if env.can p .read then w.fs p else none

/-- output, log and input are different files -/
def Distinct (c : Cli.Config) : Prop :=
  (∀ p, c.output = some p → c.verboseLog ≠ some p ∧ c.input ≠ some p) ∧ ∀ p, c.verboseLog = some p → c.input ≠ some p

/-- what the run prints, logs and returns: nothing when there is no input -/
def result (env : Env) (c : Cli.Config) (search : Prog) (w : World) : Effect :=
  match inputText env c w with
  | some i => effect search i
  | none => ⟨[], [], EXIT_FAILURE⟩

/-! ## Opening -/

theorem filter_some {p q : Path} {o : Option Path} {f : Path → Bool} (h : o.filter f = some p) (e : o = some q) : p = q := by
  subst e
  simp only [Option.filter] at h
  split at h
  · exact (Option.some.inj h).symm
  · cases h

/-- opening a file for output -/
theorem open_out (env : Env) (w : World) (p : Path) (m : Mode) (hm : m ≠ .read) (hc : env.can p m = true) :
    fopen env w p m =
      ({ w with fs := set w.fs p (some (if m = .append then (w.fs p).getD [] else [])),
                handles := set w.handles w.next (some ⟨p, m, 0, false⟩), next := w.next + 1 }, some (.file w.next)) := by
  cases m with
  | read => exact absurd rfl hm
  | write => simp [fopen, hc]
  | append => simp [fopen, hc]

/-- what `openOr` gives: `q` is the name of the file opened, if there is one -/
theorem openOr_spec (env : Env) (w : World) (name : Option Path) (m : Mode) (msg : String) (std : Stream) (hm : m ≠ .read) (w' : World) (s : Option Stream) (h : openOr env w name m msg std = (w', s)) :
    w'.stdin = w.stdin ∧ w'.stdout = w.stdout ∧
    ((name.filter (fun p => env.can p m) = none ∧ s = some std ∧ w'.fs = w.fs ∧ w'.handles = w.handles ∧ w'.next = w.next) ∨
     ∃ p, name.filter (fun p => env.can p m) = some p ∧ s = some (.file w.next) ∧ w'.next = w.next + 1 ∧
      w'.fs = set w.fs p (some (if m = .append then (w.fs p).getD [] else [])) ∧
      w'.handles = set w.handles w.next (some ⟨p, m, 0, false⟩)) := by
  cases name with
  | none =>
    simp only [openOr, Prod.mk.injEq] at h
    obtain ⟨rfl, rfl⟩ := h
    exact ⟨rfl, rfl, Or.inl ⟨rfl, rfl, rfl, rfl, rfl⟩⟩
  | some p =>
    by_cases hc : env.can p m = true
    · simp only [openOr, open_out env w p m hm hc, Option.isNone_some, Bool.false_eq_true, if_false, Prod.mk.injEq] at h
      obtain ⟨rfl, rfl⟩ := h
      exact ⟨rfl, rfl, Or.inr ⟨p, by simp [hc], rfl, rfl, rfl, rfl⟩⟩
    · have ef : fopen env w p m = (w, none) := by simp [fopen, hc]
      simp only [openOr, ef, Option.isNone_none, if_true, Prod.mk.injEq] at h
      obtain ⟨rfl, rfl⟩ := h
      exact ⟨rfl, rfl, Or.inl ⟨by simp [hc], rfl, rfl, rfl, rfl⟩⟩

theorem output_init (env : Env) (c : Cli.Config) (w : World) (h0 : ∀ k, w.handles k = none)
    (hd : ∀ p, c.output = some p → c.verboseLog ≠ some p) (w' : World) (g : Globals) (h : outputInit env c w {} = (w', g)) :
    (∃ before, Holds w' g.out (outFile env c) before ∧ (outFile env c = none → g.out = some .stdout ∧ before = w.stdout) ∧
      (∀ p, outFile env c = some p → before = if c.append then (w.fs p).getD [] else [])) ∧
    Holds w' g.verbose (logFile env c) [] ∧ g.err = some .stderr ∧ g.verbose ≠ some .stdout ∧ g.inp = none ∧
    (∀ k hd, w'.handles k = some hd → k < w'.next ∧ (g.out = some (.file k) ∨ g.verbose = some (.file k))) ∧ w'.stdin = w.stdin ∧
    (∀ p, outFile env c ≠ some p → logFile env c ≠ some p → w'.fs p = w.fs p) := by
  have hm : (if c.append then Mode.append else .write) ≠ .read := by cases c.append <;> simp
  have hb : ∀ p, (if (if c.append then Mode.append else .write) = .append then (w.fs p).getD [] else []) =
      if c.append then (w.fs p).getD [] else [] := by cases c.append <;> simp
  obtain ⟨w1, o, e1⟩ : ∃ w1 o, openOr env w c.output (if c.append then .append else .write) "Failed to open output file." .stdout = (w1, o) :=
    ⟨_, _, rfl⟩
  obtain ⟨w2, v, e2⟩ : ∃ w2 v, openOr env w1 c.verboseLog .write "Failed to open verbose output file." .stderr = (w2, v) := ⟨_, _, rfl⟩
  simp only [outputInit, e1, e2, Prod.mk.injEq] at h
  obtain ⟨rfl, rfl⟩ := h
  obtain ⟨i1, s1, c1⟩ := openOr_spec env w _ _ _ _ hm w1 o e1
  obtain ⟨i2, s2, c2⟩ := openOr_spec env w1 _ _ _ _ (by simp) w2 v e2
  rw [show c.output.filter (fun p => env.can p (if c.append then .append else .write)) = outFile env c from rfl] at c1
  rw [show c.verboseLog.filter (fun p => env.can p .write) = logFile env c from rfl] at c2
  rcases c1 with ⟨n1, rfl, f1, k1, x1⟩ | ⟨p, n1, rfl, x1, f1, k1⟩ <;> rcases c2 with ⟨n2, rfl, f2, k2, x2⟩ | ⟨q, n2, rfl, x2, f2, k2⟩ <;> rw [n1, n2]
  · refine ⟨⟨w.stdout, Or.inl ⟨rfl, rfl, by rw [s2, s1]⟩, fun _ => ⟨rfl, rfl⟩, fun _ h => by cases h⟩, Or.inr (Or.inl ⟨rfl, rfl⟩), rfl, by simp,
      rfl, fun k hd hk => ?_, by rw [i2, i1], fun _ _ _ => by rw [f2, f1]⟩
    rw [k2, k1, h0 k] at hk
    cases hk
  · refine ⟨⟨w.stdout, Or.inl ⟨rfl, rfl, by rw [s2, s1]⟩, fun _ => ⟨rfl, rfl⟩, fun _ h => by cases h⟩,
      Or.inr (Or.inr ⟨w1.next, _, q, rfl, rfl, by rw [k2, set_self], rfl, rfl, by rw [f2, set_self]; simp, Or.inr ⟨rfl, rfl⟩⟩), rfl, by simp,
      rfl, fun k hd hk => ?_, by rw [i2, i1], fun x _ hx => ?_⟩
    · rw [k2] at hk
      by_cases ek : k = w1.next
      · subst ek; exact ⟨by omega, Or.inr rfl⟩
      · rw [set_ne _ _ _ _ ek, k1, h0 k] at hk
        cases hk
    · rw [f2, set_ne _ _ _ _ fun e => hx (by rw [e]), f1]
  · refine ⟨⟨_, Or.inr (Or.inr ⟨w.next, _, p, rfl, rfl, by rw [k2, k1, set_self], rfl, rfl, by rw [f2, f1, set_self, hb p], ?_⟩), fun h => (by cases h),
      fun x hx => (by rw [← Option.some.inj hx])⟩, Or.inr (Or.inl ⟨rfl, rfl⟩), rfl, by simp, rfl, fun k hd hk => ?_, by rw [i2, i1], fun x hx _ => ?_⟩
    · cases c.append
      · exact Or.inr ⟨by simp, by simp⟩
      · exact Or.inl (by simp)
    · rw [k2, k1] at hk
      by_cases ek : k = w.next
      · subst ek; exact ⟨by omega, Or.inl rfl⟩
      · rw [set_ne _ _ _ _ ek, h0 k] at hk
        cases hk
    · rw [f2, f1, set_ne _ _ _ _ fun e => hx (by rw [e])]
  · have hpq : p ≠ q := by
      rintro rfl
      cases hco : c.output with
      | none => simp [outFile, hco] at n1
      | some x =>
        cases hcv : c.verboseLog with
        | none => simp [logFile, hcv] at n2
        | some y =>
          have e1 : p = x := filter_some (f := fun p => env.can p (if c.append then .append else .write)) n1 hco
          have e2 : p = y := filter_some (f := fun p => env.can p .write) n2 hcv
          exact hd p (by rw [hco, e1]) (by rw [hcv, e2])
    refine ⟨⟨_, Or.inr (Or.inr ⟨w.next, _, p, rfl, rfl, by rw [k2, set_ne _ _ _ _ (by omega), k1, set_self], rfl, rfl,
      by rw [f2, set_ne _ _ _ _ hpq, f1, set_self, hb p], ?_⟩), fun h => (by cases h),
      fun x hx => (by rw [← Option.some.inj hx])⟩,
      Or.inr (Or.inr ⟨w1.next, _, q, rfl, rfl, by rw [k2, set_self], rfl, rfl, by rw [f2, set_self]; simp, Or.inr ⟨rfl, rfl⟩⟩), rfl, by simp,
      rfl, fun k hd hk => ?_, by rw [i2, i1], fun x hx hx' => ?_⟩
    · cases c.append
      · exact Or.inr ⟨by simp, by simp⟩
      · exact Or.inl (by simp)
    · rw [k2] at hk
      by_cases ek : k = w1.next
      · subst ek; exact ⟨by omega, Or.inr rfl⟩
      · rw [set_ne _ _ _ _ ek, k1] at hk
        by_cases ek' : k = w.next
        · subst ek'; exact ⟨by omega, Or.inl rfl⟩
        · rw [set_ne _ _ _ _ ek', h0 k] at hk
          cases hk
    · rw [f2, set_ne _ _ _ _ fun e => hx' (by rw [e]), f1, set_ne _ _ _ _ fun e => hx (by rw [e])]

/-! ## C65 -/

/-- **C65** A run with different files for output, log and input never uses a stream that is not open; it closes all it opened. The output
file holds what was printed, after its former content with `--append`; without an output file that can be opened standard output gets it.
The log file holds the log. All other files are as before. The text read is what the input file contained before the run, and without it
nothing is printed and the run fails. -/
theorem files_partial (env : Env) (c : Cli.Config) (search : Prog) (w : World) (h0 : ∀ k, w.handles k = none) (hdist : Distinct c) :
    ∃ w', main true env c search w = some (w', (result env c search w).status) ∧
      (∀ k hd, w'.handles k = some hd → hd.closed = true) ∧
      (∀ p, outFile env c = some p → w'.fs p = some ((if c.append then (w.fs p).getD [] else []) ++ (result env c search w).printed)) ∧
      (outFile env c = none → w'.stdout = w.stdout ++ (result env c search w).printed) ∧
      (∀ p, logFile env c = some p → w'.fs p = some (result env c search w).logged) ∧
      (∀ p, outFile env c ≠ some p → logFile env c ≠ some p → w'.fs p = w.fs p) := by
  obtain ⟨d1, d2⟩ := hdist
  obtain ⟨w1, g, ho⟩ : ∃ w1 g, outputInit env c w {} = (w1, g) := ⟨_, _, rfl⟩
  obtain ⟨⟨before, hout, hb1, hb2⟩, hlog, herr, hnot, hinp, hopen, hstdin, hframe⟩ :=
    output_init env c w h0 (fun p hp => (d1 p hp).1) w1 g ho
  have isOut : ∀ p, outFile env c = some p → c.output = some p := by
    intro p hp
    cases hco : c.output with
    | none => simp [outFile, hco] at hp
    | some q => rw [filter_some (f := fun p => env.can p (if c.append then .append else .write)) hp hco]
  have isLog : ∀ p, logFile env c = some p → c.verboseLog = some p := by
    intro p hp
    cases hco : c.verboseLog with
    | none => simp [logFile, hco] at hp
    | some q => rw [filter_some (f := fun p => env.can p .write) hp hco]
  have hov : ∀ p, outFile env c = some p → logFile env c ≠ some p := fun p hp hl => (d1 p (isOut p hp)).1 (isLog p hl)
  -- the end, for any state in good order
  have final : ∀ (w2 : World) (g2 : Globals) (tx tv : Text) (status : Nat), Holds w2 g2.out (outFile env c) tx → Holds w2 g2.verbose (logFile env c) tv →
      g2.err = some .stderr → g2.out = g.out →
      (g2.inp = none ∨ ∃ pi rest, Reads w2 g2.inp pi rest ∧ (∀ p, outFile env c = some p → pi ≠ some p) ∧ (∀ p, logFile env c = some p → pi ≠ some p)) →
      (∀ k hd, w2.handles k = some hd → hd.closed = false → g2.out = some (.file k) ∨ g2.verbose = some (.file k) ∨ g2.inp = some (.file k)) →
      (∀ p, outFile env c ≠ some p → logFile env c ≠ some p → w2.fs p = w.fs p) →
      ∀ e : Effect, tx = before ++ e.printed → tv = e.logged → status = e.status →
      ∃ w', quit w2 g2 status = some (w', e.status) ∧
        (∀ k hd, w'.handles k = some hd → hd.closed = true) ∧
        (∀ p, outFile env c = some p → w'.fs p = some ((if c.append then (w.fs p).getD [] else []) ++ e.printed)) ∧
        (outFile env c = none → w'.stdout = w.stdout ++ e.printed) ∧
        (∀ p, logFile env c = some p → w'.fs p = some e.logged) ∧
        (∀ p, outFile env c ≠ some p → logFile env c ≠ some p → w'.fs p = w.fs p) := by
    intro w2 g2 tx tv status ho2 hv2 herr2 hgo hi2 hop2 hfr2 e htx htv hst
    obtain ⟨w', eq, hfs, hso, hcl⟩ := quit_ok g2 w2 _ _ tx tv status ho2 hv2 herr2 hi2 hov hop2
    refine ⟨w', by rw [eq, hst], hcl, fun p hp => ?_, fun hn => ?_, fun p hp => ?_, fun p hp hp' => by rw [hfs, hfr2 p hp hp']⟩
    · rcases ho2 with ⟨_, hn, _⟩ | ⟨_, hn⟩ | ⟨k, hd, q, _, hq, _, _, _, hf, _⟩
      · rw [hp] at hn; cases hn
      · rw [hp] at hn; cases hn
      · rw [hp] at hq
        cases hq
        rw [hfs, hf, htx, hb2 p hp]
    · rcases ho2 with ⟨_, _, hs⟩ | ⟨hs, _⟩ | ⟨k, hd, q, _, hq, _⟩
      · rw [hso, hs, htx, (hb1 hn).2]
      · rw [hgo, (hb1 hn).1] at hs; cases hs
      · rw [hn] at hq; cases hq
    · rcases hv2 with ⟨_, hn, _⟩ | ⟨_, hn⟩ | ⟨k, hd, q, _, hq, _, _, _, hf, _⟩
      · rw [hp] at hn; cases hn
      · rw [hp] at hn; cases hn
      · rw [hp] at hq
        cases hq
        rw [hfs, hf, htv]
  -- the search, for an input in good order
  have searched : ∀ (w2 : World) (s : Option Stream) (pi : Option Path) (i : Text), Holds w2 g.out (outFile env c) before →
      Holds w2 g.verbose (logFile env c) [] → Reads w2 s pi i → (∀ p, pi = some p → c.input = some p) →
      (∀ k hd, w2.handles k = some hd → g.out = some (.file k) ∨ g.verbose = some (.file k) ∨ s = some (.file k)) →
      (∀ p, outFile env c ≠ some p → logFile env c ≠ some p → w2.fs p = w.fs p) →
      ∃ w', ((exec { g with inp := s } w2 search).bind fun r => quit r.1 { g with inp := s } r.2) = some (w', (effect search i).status) ∧
        (∀ k hd, w'.handles k = some hd → hd.closed = true) ∧
        (∀ p, outFile env c = some p → w'.fs p = some ((if c.append then (w.fs p).getD [] else []) ++ (effect search i).printed)) ∧
        (outFile env c = none → w'.stdout = w.stdout ++ (effect search i).printed) ∧
        (∀ p, logFile env c = some p → w'.fs p = some (effect search i).logged) ∧
        (∀ p, outFile env c ≠ some p → logFile env c ≠ some p → w'.fs p = w.fs p) := by
    intro w2 s pi i ho2 hv2 hr2 hpi hop2 hfr2
    have hoi : ∀ p, outFile env c = some p → pi ≠ some p := fun p hp hi => (d1 p (isOut p hp)).2 (hpi p hi)
    have hvi : ∀ p, logFile env c = some p → pi ≠ some p := fun p hp hi => d2 p (isLog p hp) (hpi p hi)
    obtain ⟨w3, rest', e3, g3, f3⟩ := exec_good { g with inp := s } _ _ pi hov hoi hvi search w2 before [] i
      { out := ho2, verbose := hv2, inp := hr2, err := herr, notOut := hnot, opened := fun k hd hk _ => hop2 k hd hk }
    rw [e3, Option.bind_some]
    exact final w3 { g with inp := s } _ _ _ g3.out g3.verbose herr rfl (Or.inr ⟨pi, rest', g3.inp, hoi, hvi⟩) g3.opened
      (fun p hp hp' => by rw [f3 p hp hp', hfr2 p hp hp']) (effect search i) rfl (by simp) rfl
  unfold main
  simp only [if_true, ho]
  unfold inputInit
  cases hci : c.input with
  | none =>
    have hr : result env c search w = effect search w.stdin := by simp [result, inputText, hci]
    rw [hr]
    simp only [if_true]
    exact searched w1 (some .stdin) none w.stdin hout hlog (Or.inl ⟨rfl, rfl, hstdin⟩) (fun p hp => by cases hp)
      (fun k hd hk => (hopen k hd hk).2.elim Or.inl fun h => Or.inr (Or.inl h)) hframe
  | some p =>
    have hpo : outFile env c ≠ some p := fun h => (d1 p (isOut p h)).2 hci
    have hpl : logFile env c ≠ some p := fun h => d2 p (isLog p h) hci
    have hfp : w1.fs p = w.fs p := hframe p hpo hpl
    simp only []
    by_cases hcan : env.can p .read = true ∧ (w.fs p).isSome = true
    · obtain ⟨t, ht⟩ := Option.isSome_iff_exists.1 hcan.2
      have hr : result env c search w = effect search t := by simp [result, inputText, hci, hcan.1, ht]
      have ef : fopen env w1 p .read = ({ w1 with handles := set w1.handles w1.next (some ⟨p, .read, 0, false⟩), next := w1.next + 1 },
          some (.file w1.next)) := by
        simp [fopen, hcan.1, hfp, ht]
      rw [hr, ef]
      simp only [Option.isNone_some, Bool.false_eq_true, if_false, if_true]
      have fresh : ∀ (s : Option Stream) (name : Option Path) (text : Text), Holds w1 s name text → ∀ k, s = some (.file k) → k ≠ w1.next := by
        intro s name text hs k hk eq
        rcases hs with ⟨h, _⟩ | ⟨h, _⟩ | ⟨j, hd', q, h, _, hh, _⟩
        · rw [hk] at h; cases h
        · rw [hk] at h; cases h
        · rw [hk] at h; cases h
          have := (hopen k hd' hh).1
          omega
      refine searched _ (some (.file w1.next)) (some p) t
        (holds_frame w1 _ _ _ _ hout (fun _ _ => rfl) (fun k hk => set_ne _ _ _ _ (fresh _ _ _ hout k hk)) (fun _ => rfl))
        (holds_frame w1 _ _ _ _ hlog (fun _ _ => rfl) (fun k hk => set_ne _ _ _ _ (fresh _ _ _ hlog k hk)) (fun _ => rfl))
        (Or.inr ⟨w1.next, _, p, rfl, rfl, set_self _ _ _, rfl, rfl, rfl, by simp [hfp, ht]⟩) (fun q hq => by rw [hci, hq]) ?_ hframe
      intro k hd hk
      by_cases ek : k = w1.next
      · subst ek; exact Or.inr (Or.inr rfl)
      · simp only [set_ne _ _ _ _ ek] at hk
        exact (hopen k hd hk).2.elim Or.inl fun h => Or.inr (Or.inl h)
    · have ef : fopen env w1 p .read = (w1, none) := by
        unfold fopen
        by_cases h1 : env.can p .read = true
        · have : ¬ (w.fs p).isSome = true := fun h => hcan ⟨h1, h⟩
          simp [h1, hfp, this]
        · simp [h1]
      have hr : result env c search w = ⟨[], [], EXIT_FAILURE⟩ := by
        have : inputText env c w = none := by
          simp only [inputText, hci]
          split
          · rename_i h1
            have : ¬ (w.fs p).isSome = true := fun h => hcan ⟨h1, h⟩
            simpa using this
          · rfl
        simp [result, this]
      rw [hr, ef]
      simp only [Option.isNone_none, if_true, Bool.false_eq_true, if_false]
      exact final (perror env w1 "Failed to open input file." p) { g with inp := none } before [] EXIT_FAILURE
        (holds_frame w1 _ _ _ _ hout (fun _ _ => rfl) (fun _ _ => rfl) (fun _ => rfl))
        (holds_frame w1 _ _ _ _ hlog (fun _ _ => rfl) (fun _ _ => rfl) (fun _ => rfl)) herr rfl (Or.inl rfl)
        (fun k hd hk _ => (hopen k hd hk).2.elim Or.inl fun h => Or.inr (Or.inl h)) hframe ⟨[], [], EXIT_FAILURE⟩ (by simp) rfl rfl

/-! ### Where it is false -/

/-- a file system with two files -/
def two (p q : Path) (t u : Text) : World :=
  ⟨fun x => if x = p then some t else if x = q then some u else none, fun _ => none, 0, [], [], []⟩

def anyone : Env := ⟨fun _ _ => true, fun _ => []⟩

/-- copies its input to the output -/
def copy : Prog := .read 100 fun t => .print t (.done 0)

/-- With the same file for input and output the input is lost before it is read: it is emptied when the output is opened, and a run that
copies its input leaves an empty file. -/
theorem files_false_same : ∃ r, main true anyone { input := some ['f'], output := some ['f'] } copy (two ['f'] ['g'] ['1'] ['2']) = some r ∧
    r.1.fs ['f'] = some [] := ⟨_, rfl, by decide⟩

/-- With the same file for output and log they overwrite each other. -/
theorem files_false_log : ∃ r, main true anyone { output := some ['f'], verboseLog := some ['f'] } (.print ['a', 'b'] (.log ['c'] (.done 0)))
    (two ['f'] ['g'] ['1'] ['2']) = some r ∧ r.1.fs ['f'] = some ['c', 'b'] := ⟨_, rfl, by decide⟩

/-- A run that fails for want of an input has emptied the output file. -/
theorem failed_run_empties : ∃ r, main true anyone { input := some ['h'], output := some ['f'] } copy (two ['f'] ['g'] ['1'] ['2']) = some r ∧
    r.2 = EXIT_FAILURE ∧ r.1.fs ['f'] = some [] := ⟨_, rfl, rfl, by decide⟩

/-- When the expression for orders does not compile, the output stream is closed although it is null. -/
theorem quit_null (env : Env) (c : Cli.Config) (search : Prog) (w : World) : main false env c search w = none := rfl

/-- the hypotheses are met: a copy with `--append` from `g` to `f` -/
theorem files_met : Distinct { input := some ['g'], output := some ['f'], append := true } ∧
    ∃ r, main true anyone { input := some ['g'], output := some ['f'], append := true } copy (two ['f'] ['g'] ['1'] ['2']) = some r ∧
      r.1.fs ['f'] = some ['1', '2'] ∧ r.1.fs ['g'] = some ['2'] ∧ r.2 = 0 := by
  refine ⟨⟨fun p hp => ?_, fun p hp => by cases hp⟩, _, rfl, by decide, by decide, rfl⟩
  cases hp
  exact ⟨by simp, by simp⟩

end Ecgen.Files
