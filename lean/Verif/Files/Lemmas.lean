import Verif.Files.Model

/-!
# Lemmas about the streams of a run
-/

namespace Ecgen.Files

theorem set_self {α β : Type} [DecidableEq α] (f : α → β) (a : α) (b : β) : set f a b a = b := by simp [set]

theorem set_ne {α β : Type} [DecidableEq α] (f : α → β) (a x : α) (b : β) (h : x ≠ a) : set f a b x = f x := by simp [set, h]

/-- what a search prints and logs, and how it ends, when it reads a given text -/
structure Effect where
  printed : Text
  logged : Text
  status : Nat

def effect : Prog → Text → Effect
  | .done s, _ => ⟨[], [], s⟩
  | .print t k, i => let e := effect k i; ⟨t ++ e.printed, e.logged, e.status⟩
  | .log t k, i => let e := effect k i; ⟨e.printed, t ++ e.logged, e.status⟩
  | .report _ k, i => effect k i
  | .read n k, i => effect (k (i.take n)) (i.drop n)

/-- the stream writes to the end of the file `name`, which holds `text`; or to standard output, or standard error, where no file is named -/
def Holds (w : World) (s : Option Stream) (name : Option Path) (text : Text) : Prop :=
  (s = some .stdout ∧ name = none ∧ w.stdout = text) ∨ (s = some .stderr ∧ name = none) ∨
  ∃ h hd p, s = some (.file h) ∧ name = some p ∧ w.handles h = some hd ∧ hd.closed = false ∧ hd.path = p ∧ w.fs p = some text ∧
    (hd.mode = .append ∨ hd.mode = .write ∧ hd.pos = text.length)

/-- the stream reads `rest` from the file `name`, or from standard input -/
def Reads (w : World) (s : Option Stream) (name : Option Path) (rest : Text) : Prop :=
  (s = some .stdin ∧ name = none ∧ w.stdin = rest) ∨
  ∃ h hd p, s = some (.file h) ∧ name = some p ∧ w.handles h = some hd ∧ hd.closed = false ∧ hd.path = p ∧ hd.mode = .read ∧
    ((w.fs p).getD []).drop hd.pos = rest

theorem overwrite_end (old t : Text) : overwrite old old.length t = old ++ t := by
  simp [overwrite]

/-- a write to a stream in good order -/
theorem fwrite_holds (w : World) (s : Option Stream) (name : Option Path) (text t : Text) (h : Holds w s name text) :
    ∃ w', fwrite w s t = some w' ∧ Holds w' s name (text ++ t) ∧
      (∀ p, name ≠ some p → w'.fs p = w.fs p) ∧
      (∀ k, s ≠ some (.file k) → w'.handles k = w.handles k) ∧
      (∀ k hd', w'.handles k = some hd' → ∃ hd, w.handles k = some hd ∧ hd.closed = hd'.closed ∧ hd.path = hd'.path) ∧
      (s ≠ some .stdout → w'.stdout = w.stdout) ∧ w'.stdin = w.stdin := by
  rcases h with ⟨rfl, rfl, h⟩ | ⟨rfl, rfl⟩ | ⟨k, hd, p, rfl, rfl, hh, hc, hp, hf, hm⟩
  · refine ⟨_, rfl, Or.inl ⟨rfl, rfl, by rw [← h]⟩, fun _ _ => rfl, fun _ _ => rfl, fun k hd' hk => ⟨hd', hk, rfl, rfl⟩, fun h => absurd rfl h, rfl⟩
  · exact ⟨_, rfl, Or.inr (Or.inl ⟨rfl, rfl⟩), fun _ _ => rfl, fun _ _ => rfl, fun k hd' hk => ⟨hd', hk, rfl, rfl⟩, fun _ => rfl, rfl⟩
  · rcases hm with hm | ⟨hm, hpos⟩
    · refine ⟨{ w with fs := set w.fs hd.path (some (text ++ t)) }, ?_, ?_, ?_, fun _ _ => rfl, fun k hd' hk => ⟨hd', hk, rfl, rfl⟩,
        fun _ => rfl, rfl⟩
      · simp only [fwrite, hh, hc, hm, hp, hf]
        simp
      · exact Or.inr (Or.inr ⟨k, hd, p, rfl, rfl, hh, hc, hp, by simp [hp, set_self], Or.inl hm⟩)
      · intro q hq
        exact set_ne _ _ _ _ fun e => hq (by rw [e, hp])
    · refine ⟨{ w with fs := set w.fs hd.path (some (text ++ t)), handles := set w.handles k (some { hd with pos := hd.pos + t.length }) },
        ?_, ?_, ?_, ?_, ?_, fun _ => rfl, rfl⟩
      · simp only [fwrite, hh, hc, hm, hp, hf, hpos, Option.getD_some, overwrite_end]
        simp
      · refine Or.inr (Or.inr ⟨k, _, p, rfl, rfl, set_self _ _ _, hc, hp, by simp [hp, set_self], Or.inr ⟨hm, ?_⟩⟩)
        simp [hpos]
      · intro q hq
        exact set_ne _ _ _ _ fun e => hq (by rw [e, hp])
      · intro j hj
        exact set_ne _ _ _ _ fun e => hj (by rw [e])
      · intro j hd' hj
        by_cases e : j = k
        · subst e
          simp only [set_self, Option.some.injEq] at hj
          exact ⟨hd, hh, by rw [← hj], by rw [← hj]⟩
        · simp only [set_ne _ _ _ _ e] at hj
          exact ⟨hd', hj, rfl, rfl⟩

/-- streams for different files are different -/
theorem holds_ne (w : World) (s s' : Option Stream) (name name' : Option Path) (text text' : Text) (h : Holds w s name text)
    (h' : Holds w s' name' text') (hd : ∀ p, name = some p → name' ≠ some p) (k : Nat) (hs : s = some (.file k)) : s' ≠ some (.file k) := by
  rintro e
  subst hs e
  rcases h with ⟨h, _⟩ | ⟨h, _⟩ | ⟨j, hd1, p, h1, hn, hh, _, hp, _⟩
  · cases h
  · cases h
  · rcases h' with ⟨h', _⟩ | ⟨h', _⟩ | ⟨j', hd2, p', h1', hn', hh', _, hp', _⟩
    · cases h'
    · cases h'
    · cases h1
      cases h1'
      rw [hh] at hh'
      cases hh'
      exact hd p hn (by rw [hn', ← hp', hp])

theorem reads_ne (w : World) (s s' : Option Stream) (name name' : Option Path) (text rest : Text) (h : Holds w s name text)
    (h' : Reads w s' name' rest) (hd : ∀ p, name = some p → name' ≠ some p) (k : Nat) (hs : s = some (.file k)) : s' ≠ some (.file k) := by
  rintro e
  subst hs e
  rcases h with ⟨h, _⟩ | ⟨h, _⟩ | ⟨j, hd1, p, h1, hn, hh, _, hp, _⟩
  · cases h
  · cases h
  · rcases h' with ⟨h', _⟩ | ⟨j', hd2, p', h1', hn', hh', _, hp', _⟩
    · cases h'
    · cases h1
      cases h1'
      rw [hh] at hh'
      cases hh'
      exact hd p hn (by rw [hn', ← hp', hp])

theorem holds_frame (w w' : World) (s : Option Stream) (name : Option Path) (text : Text) (h : Holds w s name text)
    (hf : ∀ p, name = some p → w'.fs p = w.fs p) (hh : ∀ k, s = some (.file k) → w'.handles k = w.handles k)
    (ho : s = some .stdout → w'.stdout = w.stdout) : Holds w' s name text := by
  rcases h with ⟨rfl, rfl, h⟩ | ⟨rfl, rfl⟩ | ⟨k, hd, p, rfl, rfl, h, hc, hp, hfs, hm⟩
  · exact Or.inl ⟨rfl, rfl, by rw [ho rfl, h]⟩
  · exact Or.inr (Or.inl ⟨rfl, rfl⟩)
  · exact Or.inr (Or.inr ⟨k, hd, p, rfl, rfl, by rw [hh k rfl, h], hc, hp, by rw [hf p rfl, hfs], hm⟩)

theorem reads_frame (w w' : World) (s : Option Stream) (name : Option Path) (rest : Text) (h : Reads w s name rest)
    (hf : ∀ p, name = some p → w'.fs p = w.fs p) (hh : ∀ k, s = some (.file k) → w'.handles k = w.handles k)
    (ho : w'.stdin = w.stdin) : Reads w' s name rest := by
  rcases h with ⟨rfl, rfl, h⟩ | ⟨k, hd, p, rfl, rfl, h, hc, hp, hm, hr⟩
  · exact Or.inl ⟨rfl, rfl, by rw [ho, h]⟩
  · exact Or.inr ⟨k, hd, p, rfl, rfl, by rw [hh k rfl, h], hc, hp, hm, by rw [hf p rfl, hr]⟩

theorem fread_reads (w : World) (s : Option Stream) (name : Option Path) (rest : Text) (n : Nat) (h : Reads w s name rest) :
    ∃ w', fread w s n = some (w', rest.take n) ∧ Reads w' s name (rest.drop n) ∧ w'.fs = w.fs ∧
      (∀ k, s ≠ some (.file k) → w'.handles k = w.handles k) ∧
      (∀ k hd', w'.handles k = some hd' → ∃ hd, w.handles k = some hd ∧ hd.closed = hd'.closed ∧ hd.path = hd'.path) ∧
      w'.stdout = w.stdout := by
  rcases h with ⟨rfl, rfl, h⟩ | ⟨k, hd, p, rfl, rfl, hh, hc, hp, hm, hr⟩
  · exact ⟨{ w with stdin := w.stdin.drop n }, by simp [fread, h], Or.inl ⟨rfl, rfl, by rw [← h]⟩, rfl, fun _ _ => rfl,
      fun k hd' hk => ⟨hd', hk, rfl, rfl⟩, rfl⟩
  · refine ⟨{ w with handles := set w.handles k (some { hd with pos := hd.pos + (rest.take n).length }) }, ?_, ?_, rfl, ?_, ?_, rfl⟩
    · simp only [fread, hh, hc, hm, hp, hr]
      simp
    · refine Or.inr ⟨k, _, p, rfl, rfl, set_self _ _ _, hc, hp, hm, ?_⟩
      simp only [← hr, ← List.drop_drop, List.length_take]
      rw [hr, Nat.min_def]
      split
      · rfl
      · rename_i hn
        rw [List.drop_eq_nil_of_le (Nat.le_refl _), List.drop_eq_nil_of_le (by omega)]
    · intro j hj
      exact set_ne _ _ _ _ fun e => hj (by rw [e])
    · intro j hd' hj
      by_cases e : j = k
      · subst e
        simp only [set_self, Option.some.injEq] at hj
        exact ⟨hd, hh, by rw [← hj], by rw [← hj]⟩
      · simp only [set_ne _ _ _ _ e] at hj
        exact ⟨hd', hj, rfl, rfl⟩

/-- the state of the files between `init` and `quit` -/
structure Good (g : Globals) (w : World) (po pv pi : Option Path) (tx tv rest : Text) : Prop where
  out : Holds w g.out po tx
  verbose : Holds w g.verbose pv tv
  inp : Reads w g.inp pi rest
  err : g.err = some .stderr
  notOut : g.verbose ≠ some .stdout
  opened : ∀ k hd, w.handles k = some hd → hd.closed = false →
    g.out = some (.file k) ∨ g.verbose = some (.file k) ∨ g.inp = some (.file k)

theorem exec_good (g : Globals) (po pv pi : Option Path) (hov : ∀ p, po = some p → pv ≠ some p) (hoi : ∀ p, po = some p → pi ≠ some p)
    (hvi : ∀ p, pv = some p → pi ≠ some p) (prog : Prog) :
    ∀ (w : World) (tx tv rest : Text), Good g w po pv pi tx tv rest →
    ∃ w' rest', exec g w prog = some (w', (effect prog rest).status) ∧
      Good g w' po pv pi (tx ++ (effect prog rest).printed) (tv ++ (effect prog rest).logged) rest' ∧
      (∀ p, po ≠ some p → pv ≠ some p → w'.fs p = w.fs p) := by
  induction prog with
  | done s =>
    intro w tx tv rest hg
    exact ⟨w, rest, rfl, by simpa [effect] using hg, fun _ _ _ => rfl⟩
  | print t k ih =>
    intro w tx tv rest hg
    obtain ⟨w1, e, h1, hf, hh, hk, hso, hsi⟩ := fwrite_holds w g.out po tx t hg.out
    have g1 : Good g w1 po pv pi (tx ++ t) tv rest :=
      { out := h1
        verbose := holds_frame w w1 _ _ _ hg.verbose (fun p hp => hf p fun e => hov p e hp)
          (fun j hj => hh j fun e => holds_ne w _ _ _ _ _ _ hg.out hg.verbose hov j e hj) (fun e => absurd e hg.notOut)
        inp := reads_frame w w1 _ _ _ hg.inp (fun p hp => hf p fun e => hoi p e hp)
          (fun j hj => hh j fun e => reads_ne w _ _ _ _ _ _ hg.out hg.inp hoi j e hj) hsi
        err := hg.err
        notOut := hg.notOut
        opened := fun j hd hj hc => by
          obtain ⟨hd', e1, e2, _⟩ := hk j hd hj
          exact hg.opened j hd' e1 (by rw [e2, hc]) }
    obtain ⟨w', rest', e', g', f'⟩ := ih w1 _ _ _ g1
    refine ⟨w', rest', by simp only [exec, e, Option.bind_some, e', effect], by simpa only [effect, List.append_assoc] using g', ?_⟩
    intro p hp hp'
    rw [f' p hp hp', hf p hp]
  | log t k ih =>
    intro w tx tv rest hg
    obtain ⟨w1, e, h1, hf, hh, hk, hso, hsi⟩ := fwrite_holds w g.verbose pv tv t hg.verbose
    have g1 : Good g w1 po pv pi tx (tv ++ t) rest :=
      { out := holds_frame w w1 _ _ _ hg.out (fun p hp => hf p (hov p hp))
          (fun j hj => hh j fun e => holds_ne w _ _ _ _ _ _ hg.out hg.verbose hov j hj e) (fun _ => hso hg.notOut)
        verbose := h1
        inp := reads_frame w w1 _ _ _ hg.inp (fun p hp => hf p fun e => hvi p e hp)
          (fun j hj => hh j fun e => reads_ne w _ _ _ _ _ _ hg.verbose hg.inp hvi j e hj) hsi
        err := hg.err
        notOut := hg.notOut
        opened := fun j hd hj hc => by
          obtain ⟨hd', e1, e2, _⟩ := hk j hd hj
          exact hg.opened j hd' e1 (by rw [e2, hc]) }
    obtain ⟨w', rest', e', g', f'⟩ := ih w1 _ _ _ g1
    refine ⟨w', rest', by simp only [exec, e, Option.bind_some, e', effect], by simpa only [effect, List.append_assoc] using g', ?_⟩
    intro p hp hp'
    rw [f' p hp hp', hf p hp']
  | report t k ih =>
    intro w tx tv rest hg
    have g1 : Good g { w with stderr := w.stderr ++ t } po pv pi tx tv rest :=
      { out := holds_frame w _ _ _ _ hg.out (fun _ _ => rfl) (fun _ _ => rfl) (fun _ => rfl)
        verbose := holds_frame w _ _ _ _ hg.verbose (fun _ _ => rfl) (fun _ _ => rfl) (fun _ => rfl)
        inp := reads_frame w _ _ _ _ hg.inp (fun _ _ => rfl) (fun _ _ => rfl) rfl
        err := hg.err
        notOut := hg.notOut
        opened := hg.opened }
    obtain ⟨w', rest', e', g', f'⟩ := ih _ _ _ _ g1
    exact ⟨w', rest', by simp only [exec, hg.err, fwrite, Option.bind_some, e', effect], by simpa only [effect] using g', f'⟩
  | read n k ih =>
    intro w tx tv rest hg
    obtain ⟨w1, e, h1, hf, hh, hk, hso⟩ := fread_reads w g.inp pi rest n hg.inp
    have g1 : Good g w1 po pv pi tx tv (rest.drop n) :=
      { out := holds_frame w w1 _ _ _ hg.out (fun p _ => by rw [hf])
          (fun j hj => hh j fun e => reads_ne w _ _ _ _ _ _ hg.out hg.inp hoi j hj e) (fun _ => hso)
        verbose := holds_frame w w1 _ _ _ hg.verbose (fun p _ => by rw [hf])
          (fun j hj => hh j fun e => reads_ne w _ _ _ _ _ _ hg.verbose hg.inp hvi j hj e) (fun e => absurd e hg.notOut)
        inp := h1
        err := hg.err
        notOut := hg.notOut
        opened := fun j hd hj hc => by
          obtain ⟨hd', e1, e2, _⟩ := hk j hd hj
          exact hg.opened j hd' e1 (by rw [e2, hc]) }
    obtain ⟨w', rest', e', g', f'⟩ := ih (rest.take n) w1 _ _ _ g1
    refine ⟨w', rest', by simp only [exec, e, Option.bind_some, e', effect], by simpa only [effect] using g', ?_⟩
    intro p hp hp'
    rw [f' p hp hp', hf]

/-- closing a stream that is a standard one, or an open file -/
theorem close_ok (w : World) (s : Option Stream)
    (h : isStd s = true ∨ ∃ k hd, s = some (.file k) ∧ w.handles k = some hd ∧ hd.closed = false) :
    ∃ w', closeUnlessStd w s = some w' ∧ w'.fs = w.fs ∧ w'.stdout = w.stdout ∧
      (∀ k, s ≠ some (.file k) → w'.handles k = w.handles k) ∧
      (∀ k hd, w'.handles k = some hd → hd.closed = false → w.handles k = some hd ∧ s ≠ some (.file k)) := by
  rcases h with h | ⟨k, hd, rfl, hh, hc⟩
  · refine ⟨w, by simp [closeUnlessStd, h], rfl, rfl, fun _ _ => rfl, fun k hd hk _ => ⟨hk, ?_⟩⟩
    rintro rfl
    simp [isStd] at h
  · refine ⟨{ w with handles := set w.handles k (some { hd with closed := true }) }, by simp [closeUnlessStd, isStd, fclose, hh, hc], rfl, rfl,
      fun j hj => set_ne _ _ _ _ fun e => hj (by rw [e]), fun j hd' hj hc' => ?_⟩
    by_cases e : j = k
    · subst e
      simp only [set_self, Option.some.injEq] at hj
      rw [← hj] at hc'
      cases hc'
    · simp only [set_ne _ _ _ _ e] at hj
      exact ⟨hj, fun e' => e (by cases e'; rfl)⟩

theorem holds_close (w : World) (s : Option Stream) (name : Option Path) (text : Text) (h : Holds w s name text) :
    isStd s = true ∨ ∃ k hd, s = some (.file k) ∧ w.handles k = some hd ∧ hd.closed = false := by
  rcases h with ⟨rfl, _⟩ | ⟨rfl, _⟩ | ⟨k, hd, p, rfl, _, hh, hc, _⟩
  · exact Or.inl (by decide)
  · exact Or.inl (by decide)
  · exact Or.inr ⟨k, hd, rfl, hh, hc⟩

/-- the end of a run, with or without an input -/
theorem quit_ok (g : Globals) (w : World) (po pv : Option Path) (tx tv : Text) (status : Nat)
    (out : Holds w g.out po tx) (verbose : Holds w g.verbose pv tv) (err : g.err = some .stderr)
    (inp : g.inp = none ∨ ∃ pi rest, Reads w g.inp pi rest ∧ (∀ p, po = some p → pi ≠ some p) ∧ (∀ p, pv = some p → pi ≠ some p))
    (hov : ∀ p, po = some p → pv ≠ some p)
    (opened : ∀ k hd, w.handles k = some hd → hd.closed = false →
      g.out = some (.file k) ∨ g.verbose = some (.file k) ∨ g.inp = some (.file k)) :
    ∃ w', quit w g status = some (w', status) ∧ w'.fs = w.fs ∧ w'.stdout = w.stdout ∧ ∀ k hd, w'.handles k = some hd → hd.closed = true := by
  obtain ⟨w1, e1, f1, s1, k1, o1⟩ := close_ok w g.out (holds_close w _ _ _ out)
  obtain ⟨w2, e2, f2, s2, k2, o2⟩ := close_ok w1 g.err (Or.inl (by rw [err]; decide))
  have hv : isStd g.verbose = true ∨ ∃ k hd, g.verbose = some (.file k) ∧ w2.handles k = some hd ∧ hd.closed = false := by
    rcases holds_close w _ _ _ verbose with h | ⟨k, hd, h, hh, hc⟩
    · exact Or.inl h
    · refine Or.inr ⟨k, hd, h, ?_, hc⟩
      rw [k2 k (by rw [err]; simp), k1 k fun e => holds_ne w _ _ _ _ _ _ out verbose hov k e h, hh]
  obtain ⟨w3, e3, f3, s3, k3, o3⟩ := close_ok w2 g.verbose hv
  have open3 : ∀ k hd, w3.handles k = some hd → hd.closed = false → g.inp = some (.file k) := by
    intro k hd hk hc
    obtain ⟨hk2, n3⟩ := o3 k hd hk hc
    obtain ⟨hk1, _⟩ := o2 k hd hk2 hc
    obtain ⟨hk0, n1⟩ := o1 k hd hk1 hc
    rcases opened k hd hk0 hc with h | h | h
    · exact absurd h n1
    · exact absurd h n3
    · exact h
  have eo : outputQuit w g = some w3 := by simp [outputQuit, e1, e2, e3]
  have hi : ∃ w4, inputQuit w3 g = some w4 ∧ w4.fs = w3.fs ∧ w4.stdout = w3.stdout ∧ ∀ k hd, w4.handles k = some hd → hd.closed = true := by
    rcases inp with hn | ⟨pi, rest, hr, hoi, hvi⟩
    · refine ⟨w3, by simp [inputQuit, hn], rfl, rfl, fun k hd hk => ?_⟩
      cases hc : hd.closed
      · have := open3 k hd hk hc
        rw [hn] at this
        cases this
      · rfl
    · have hr0 := hr
      rcases hr with ⟨hs, _, _⟩ | ⟨k, hd, p, hs, hp, hh, hc, _⟩
      · refine ⟨w3, by simp [inputQuit, hs], rfl, rfl, fun k hd hk => ?_⟩
        cases hc : hd.closed
        · have := open3 k hd hk hc
          rw [hs] at this
          cases this
        · rfl
      · have h3 : w3.handles k = some hd := by
          rw [k3 k fun e => reads_ne w _ _ _ _ _ _ verbose hr0 hvi k e hs, k2 k (by rw [err]; simp),
            k1 k fun e => reads_ne w _ _ _ _ _ _ out hr0 hoi k e hs, hh]
        refine ⟨{ w3 with handles := set w3.handles k (some { hd with closed := true }) }, ?_, rfl, rfl, fun j hd' hj => ?_⟩
        · simp [inputQuit, hs, fclose, h3, hc]
        · by_cases e : j = k
          · subst e
            simp only [set_self, Option.some.injEq] at hj
            rw [← hj]
          · simp only [set_ne _ _ _ _ e] at hj
            cases hc' : hd'.closed
            · have := open3 j hd' hj hc'
              rw [hs] at this
              cases this
              exact absurd rfl e
            · rfl
  obtain ⟨w4, e4, f4, s4, c4⟩ := hi
  exact ⟨w4, by simp [quit, eo, e4], by rw [f4, f3, f2, f1], by rw [s4, s3, s2, s1], c4⟩

end Ecgen.Files
