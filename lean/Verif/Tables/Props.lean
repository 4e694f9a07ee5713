import Verif.Tables.Lemmas

/-!
# The tables of a search mean what the setup says, and their release is complete (C101)
-/

namespace Ecgen.Tables

open Ecgen.Cli

/-! ## Release -/

theorem gone_gone (h : Heap) (l m : List Nat) : gone (gone h l) m = gone h (l ++ m) := by
  funext x
  simp only [gone, List.mem_append]
  by_cases h1 : x ∈ m <;> by_cases h2 : x ∈ l <;> simp [h1, h2]

theorem gone_nil (h : Heap) : gone h [] = h := by
  funext x
  simp [gone]

theorem checkFree_spec {h : Heap} {e : Option Nat} {fp : List Nat} (ho : Owns h .validators e fp) : checkFree h e = some (gone h fp) := by
  cases ho with
  | null => rw [gone_nil]; rfl
  | plain hw ha => exact absurd rfl hw
  | both hw ha hk ne => exact absurd rfl hw
  | checks ha hk ne =>
    simp only [checkFree, ha, free, hk, Option.isSome_some, if_true, Option.bind_some]
    rw [if_pos (by rw [set_other _ _ ne, ha]; rfl)]
    congr 1
    funext x
    simp only [Heap.set, gone, List.mem_cons, List.not_mem_nil, or_false]
    split
    · rename_i e; simp [e]
    · rename_i e; simp [e]

theorem argFree_spec {h : Heap} {w : Which} (hw : w ≠ .validators) {e : Option Nat} {fp : List Nat} (ho : Owns h w e fp) : argFree h e = some (gone h fp) := by
  cases ho with
  | null => rw [gone_nil]; rfl
  | checks ha hk ne => exact absurd rfl hw
  | plain _ ha =>
    simp only [argFree, ha, free, Option.isSome_some, if_true]
    congr 1
    funext x
    simp only [Heap.set, gone, List.mem_cons, List.not_mem_nil, or_false]
  | both _ ha hk ne =>
    simp only [argFree, ha, free]
    rw [if_pos (Option.isSome_iff_ne_none.2 hk), Option.bind_some, if_pos (by rw [set_other _ _ ne, ha]; rfl)]
    congr 1
    funext x
    simp only [Heap.set, gone, List.mem_cons, List.not_mem_nil, or_false]
    split
    · rename_i e; simp [e]
    · rename_i e; simp [e]

theorem clearEach_spec {f : Heap → Option Nat → Option Heap} {w : Which} (hf : ∀ h e fp, Owns h w e fp → f h e = some (gone h fp)) (fp : Stage → List Nat) :
    ∀ (l : List Stage) (x : St), l.Nodup → (∀ s ∈ l, Owns x.1 w (x.2 w s) (fp s)) → (∀ s u y, y ∈ fp s → y ∈ fp u → s = u) →
      clearEach f w l x = some (gone x.1 (l.flatMap fp), fun v u => if v = w ∧ u ∈ l then none else x.2 v u)
  | [], x, _, _, _ => by simp [clearEach, gone_nil]
  | s :: l, x, hn, ho, ha => by
    obtain ⟨hsl, hn⟩ := List.nodup_cons.1 hn
    rw [clearEach, hf _ _ _ (ho s (by simp)), Option.bind_some, clearEach_spec hf fp l _ hn ?_ ha]
    · simp only [gone_gone, List.flatMap_cons, Option.some.injEq, Prod.mk.injEq, true_and]
      funext v u
      simp only [Tables.put, List.mem_cons]
      by_cases h1 : v = w <;> by_cases h2 : u ∈ l <;> by_cases h3 : u = s <;> simp [h1, h2, h3]
    · intro u hu
      have hus : u ≠ s := fun e => hsl (e ▸ hu)
      have h1 : (x.2.put w s none) w u = x.2 w u := by simp [Tables.put, hus]
      dsimp only
      rw [h1]
      refine (ho u (by simp [hu])).frame fun y hy => ?_
      simp only [gone]
      rw [if_neg fun hy' => hus (ha _ _ y hy hy')]

theorem stages_nodup : stages.Nodup := by decide

theorem clear_spec {h : Heap} {t : Tables} {fp : Which → Stage → List Nat} (hh : Held h t fp) : clear (h, t) = some (gone h (allOf fp), empty) := by
  have hc := clearEach_spec (f := checkFree) (w := .validators) (fun _ _ _ h => checkFree_spec h) (fp .validators) stages (h, t) stages_nodup (fun s _ => hh.owns _ s)
    (fun s u y h1 h2 => (hh.apart _ _ _ _ y h1 h2).2)
  rw [clear, hc, Option.bind_some]
  have hg := clearEach_spec (f := argFree) (w := .genArgs) (fun _ _ _ h => argFree_spec (by simp) h) (fp .genArgs) stages
    (gone h (stages.flatMap (fp .validators)), fun v u => if v = .validators ∧ u ∈ stages then none else t v u) stages_nodup
    (fun s _ => by
      refine ((hh.owns .genArgs s).frame fun y hy => ?_)
      simp only [gone]
      rw [if_neg fun hy' => ?_]
      obtain ⟨u, -, hu⟩ := List.mem_flatMap.1 hy'
      exact absurd (hh.apart _ _ _ _ y hy hu).1 (by simp))
    (fun s u y h1 h2 => (hh.apart _ _ _ _ y h1 h2).2)
  rw [hg, Option.bind_some]
  have hk := clearEach_spec (f := argFree) (w := .checkArgs) (fun _ _ _ h => argFree_spec (by simp) h) (fp .checkArgs) stages
    (gone (gone h (stages.flatMap (fp .validators))) (stages.flatMap (fp .genArgs)),
      fun v u => if v = .genArgs ∧ u ∈ stages then none else if v = .validators ∧ u ∈ stages then none else t v u) stages_nodup
    (fun s _ => by
      refine ((hh.owns .checkArgs s).frame fun y hy => ?_)
      simp only [gone]
      rw [if_neg fun hy' => ?_, if_neg fun hy' => ?_]
      · obtain ⟨u, -, hu⟩ := List.mem_flatMap.1 hy'
        exact absurd (hh.apart _ _ _ _ y hy hu).1 (by simp)
      · obtain ⟨u, -, hu⟩ := List.mem_flatMap.1 hy'
        exact absurd (hh.apart _ _ _ _ y hy hu).1 (by simp))
    (fun s u y h1 h2 => (hh.apart _ _ _ _ y h1 h2).2)
  rw [hk, gone_gone, gone_gone]
  simp only [allOf, List.append_assoc, Option.some.injEq, Prod.mk.injEq, true_and]
  funext v u
  cases v <;> simp [empty, stages_all]

theorem clear_empty (h : Heap) : clear (h, empty) = some (h, empty) := by
  have := clear_spec (h := h) (t := empty) (fp := fun _ _ => []) ⟨fun w _ => .null w, by intro _ _ _ _ _ hx; cases hx⟩
  rw [this]
  have e : allOf (fun _ _ => []) = [] := by simp [allOf, stages]
  rw [e, gone_nil]

/-! ## The setup of a run -/

/-- the table of the setup as a function of the stage -/
theorem upd_entry {α : Type} (t : Table α) (f : Stage → α) (hf : ∀ s, f s = entry t s) : f = entry t := funext hf

/-- the setup whose tables are on the heap; both setups of the invalid curve method have the same -/
def tablesOf (order : Str → Str) (prime : Str → Bool) (c : Config) : Table (List Check) × Table (Option Arg) × Table (Option Arg) :=
  match run order prime c with
  | .search s => (s.checks, s.genArgs, s.checkArgs)
  | .invalid s _ _ => (s.checks, s.genArgs, s.checkArgs)

theorem hexArg_ready {A : Heap → Nat} (hA : Allocator A) {c : Config} {h0 : Heap} {x : St} {ck : Stage → List Check} {ga : Stage → Option Arg}
    (hx : Ready c h0 x ck ga fun _ => none) (hn : x.2 .checkArgs .points = none) : Ready c h0 (hexArg A c x) ck ga (entry (checkArgs c)) := by
  unfold hexArg
  cases hh : c.hexCheck with
  | none =>
    have : entry (checkArgs c) = fun _ => none := by funext s; cases s <;> simp [entry, checkArgs, hh, Table.const]
    rw [this]
    exact hx
  | some v =>
    have h1 := (addArg_check hA hx .points hn .hex (v := .text v) fun h => by simp [follow, hh]).1
    have : entry (checkArgs c) = upd (fun _ => none) .points (some (.text v)) := by funext s; cases s <;> simp [entry, checkArgs, hh, Table.const, upd]
    rw [this]
    exact h1

/-- the checks of `check_new` calls -/
theorem hexCheck_ready {A : Heap → Nat} (hA : Allocator A) {c : Config} {h0 : Heap} {x : St} {ga ca : Stage → Option Arg}
    (hx : Ready c h0 x (fun _ => []) ga ca) (hn : ∀ s, x.2 .validators s = none) :
    ∃ y, cmCinit A c x = some y ∧ Ready c h0 y (entry (Cli.cmCinit c)) ga ca ∧ (∀ s, s ≠ .curve → s ≠ .points → y.2 .validators s = none) ∧
      ∀ w u, w ≠ .validators → y.2 w u = x.2 w u := by
  obtain ⟨y, e1, hy, hk⟩ := addCheck_ready hA hx .curve (hn _) .curveNonzero []
  unfold cmCinit
  rw [e1]
  simp only [Option.bind_eq_bind, Option.bind_some]
  cases hh : c.hexCheck with
  | none =>
    refine ⟨y, by simp, ?_, fun s h1 h2 => by rw [hk _ _ (by simp [h1]), hn], fun w u hw => hk _ _ (by simp [hw])⟩
    have : entry (Cli.cmCinit c) = upd (fun _ => []) .curve [.curveNonzero] := by funext s; cases s <;> simp [entry, Cli.cmCinit, hh, Table.const, upd]
    rw [this]
    exact hy
  | some v =>
    obtain ⟨z, e2, hz, hk2⟩ := addCheck_ready hA hy .points (by rw [hk _ _ (by simp), hn]) .hexParam []
    refine ⟨z, by simpa using e2, ?_, fun s h1 h2 => by rw [hk2 _ _ (by simp [h2]), hk _ _ (by simp [h1]), hn],
      fun w u hw => by rw [hk2 _ _ (by simp [hw]), hk _ _ (by simp [hw])]⟩
    have : entry (Cli.cmCinit c) = upd (upd (fun _ => []) .curve [.curveNonzero]) .points [.hexParam] := by
      funext s; cases s <;> simp [entry, Cli.cmCinit, hh, Table.const, upd]
    rw [this]
    exact hz

theorem pointsArg_ready {A : Heap → Nat} (hA : Allocator A) {c : Config} {h0 : Heap} {x : St} {ck : Stage → List Check} {ga ca : Stage → Option Arg}
    (hx : Ready c h0 x ck ga ca) (hn : x.2 .genArgs .points = none) :
    Ready c h0 (pointsArg A c x) ck (if c.pointsType = .random then upd ga .points (some (.size c.pointsAmount)) else ga) ca ∧
      ∀ w u, ¬ (w = .genArgs ∧ u = .points) → (pointsArg A c x).2 w u = x.2 w u := by
  unfold pointsArg
  by_cases h : c.pointsType = .random
  · rw [if_pos h, if_pos h]
    exact addArg_gen hA hx .points hn .amount fun _ => rfl
  · rw [if_neg h, if_neg h]
    exact ⟨hx, fun _ _ _ => rfl⟩

theorem cm_ready {A : Heap → Nat} (hA : Allocator A) {c : Config} {h : Heap} (hb : Bounded h) (order : Str) :
    ∃ y, cmCinit A c (cmAinit A c order (h, empty)) = some y ∧ Ready c h y (entry (Cli.cmCinit c)) (entry (Cli.cmAinit c order)) (entry (checkArgs c)) := by
  have h0 := start_ready (c := c) hb
  have s1 : ∃ ga, Ready c h (if c.method = METHOD_CM then shared A .curve .order (.text order) (h, empty) else (h, empty)) (fun _ => []) ga (fun _ => none) ∧
      (∀ w u, ¬ (w = .genArgs ∧ (u = .curve ∨ u = .order)) →
        (if c.method = METHOD_CM then shared A .curve .order (.text order) (h, empty) else (h, empty)).2 w u = none) ∧
      ga = (if c.method = METHOD_CM then upd (upd (fun _ => none) .curve (some (.text order))) .order (some (.text order)) else fun _ => none) := by
    by_cases hm : c.method = METHOD_CM
    · simp only [if_pos hm]
      have := shared_ready hA h0 (s := .curve) (t := .order) (by simp) rfl rfl (b := .text order) (v := .text order) fun h k e => by simp [follow, e]
      exact ⟨_, this.1, fun w u e => (this.2 w u e).trans rfl, rfl⟩
    · simp only [if_neg hm]
      exact ⟨_, h0, fun _ _ _ => rfl, rfl⟩
  obtain ⟨ga, r1, k1, g1⟩ := s1
  unfold cmAinit
  generalize (if c.method = METHOD_CM then shared A .curve .order (.text order) (h, empty) else (h, empty)) = x at r1 k1 ⊢
  have s2 : ∃ ga', Ready c h (if c.method = METHOD_ANOMALOUS then shared A .field .b (.counter 3) x else x) (fun _ => []) ga' (fun _ => none) ∧
      (∀ w u, ¬ (w = .genArgs ∧ (u = .curve ∨ u = .order)) → ¬ (w = .genArgs ∧ (u = .field ∨ u = .b)) →
        (if c.method = METHOD_ANOMALOUS then shared A .field .b (.counter 3) x else x).2 w u = none) ∧
      ga' = (if c.method = METHOD_ANOMALOUS then upd (upd ga .field (some .counter)) .b (some .counter) else ga) := by
    by_cases hm : c.method = METHOD_ANOMALOUS
    · simp only [if_pos hm]
      have := shared_ready hA r1 (s := .field) (t := .b) (by simp) (k1 _ _ (by simp)) (k1 _ _ (by simp)) (b := .counter 3) (v := .counter) fun h k e => by simp [follow, e]
      exact ⟨_, this.1, fun w u e1 e2 => (this.2 w u e2).trans (k1 w u e1), rfl⟩
    · simp only [if_neg hm]
      exact ⟨_, r1, fun w u e _ => k1 w u e, rfl⟩
  obtain ⟨ga', r2, k2, g2⟩ := s2
  dsimp only
  generalize (if c.method = METHOD_ANOMALOUS then shared A .field .b (.counter 3) x else x) = y at r2 k2 ⊢
  obtain ⟨r3, k3⟩ := pointsArg_ready hA r2 (k2 _ _ (by simp) (by simp))
  have hc : (pointsArg A c y).2 .checkArgs .points = none := by rw [k3 _ _ (by simp), k2 _ _ (by simp) (by simp)]
  have r4 := hexArg_ready hA r3 hc
  have k4 : ∀ s, (hexArg A c (pointsArg A c y)).2 .validators s = none := by
    intro s
    have : (hexArg A c (pointsArg A c y)).2 .validators s = (pointsArg A c y).2 .validators s := by
      unfold hexArg
      split
      · simp [addArg, Tables.put]
      · rfl
    rw [this, k3 _ _ (by simp), k2 _ _ (by simp) (by simp)]
  obtain ⟨z, e5, r5, -, -⟩ := hexCheck_ready hA r4 k4
  refine ⟨z, e5, ?_⟩
  have : entry (Cli.cmAinit c order) = (if c.pointsType = .random then upd ga' .points (some (.size c.pointsAmount)) else ga') := by
    have hm : METHOD_CM ≠ METHOD_ANOMALOUS := by decide
    rw [g2, g1]
    funext s
    unfold Cli.cmAinit
    by_cases h1 : c.method = METHOD_CM
    · have h2 : c.method ≠ METHOD_ANOMALOUS := h1 ▸ hm
      by_cases h3 : c.pointsType = .random <;> cases s <;> simp [h1, hm, h3, entry, upd, Table.const]
    · by_cases h2 : c.method = METHOD_ANOMALOUS
      · by_cases h3 : c.pointsType = .random <;> cases s <;> simp [h2, hm.symm, h3, entry, upd, Table.const]
      · by_cases h3 : c.pointsType = .random <;> cases s <;> simp [h1, h2, h3, entry, upd, Table.const]
  rw [this]
  exact r5

theorem cinit_ready {A : Heap → Nat} (hA : Allocator A) {c : Config} {h : Heap} (hb : Bounded h) :
    ∃ y, cinit A c (h, empty) = some y ∧ Ready c h y (entry (Cli.cinit c).1) (fun _ => none) (fun _ => none) ∧ ∀ w u, w ≠ .validators → y.2 w u = none := by
  have h0 := start_ready (c := c) hb
  obtain ⟨y, e1, hy, k1, k2⟩ := hexCheck_ready hA h0 (fun _ => rfl)
  have hsplit : cinit A c (h, empty) = (cmCinit A c (h, empty)).bind fun x =>
      if c.method = METHOD_SEED then
        match c.seedAlgo with
        | .brainpool | .brainpoolRfc => (addCheck A .order .brainpoolOrder [] x).bind fun x => addCheck A .gens .gensAnomalous [.brainpoolGens] x
        | .nums => addCheck A .gens .gensAnomalous [.brainpoolGens] x
        | _ => some x
      else some x := by
    unfold cinit cmCinit
    simp only [Option.bind_eq_bind, Option.bind_assoc]
    congr 1
    funext x
    cases c.hexCheck.isSome <;> rfl
  rw [hsplit, e1, Option.bind_some]
  have kz : ∀ w u, w ≠ .validators → y.2 w u = none := fun w u hw => (k2 w u hw).trans rfl
  by_cases hm : c.method = METHOD_SEED
  · rw [if_pos hm]
    have bp : ∃ z, ((addCheck A .order .brainpoolOrder [] y).bind fun x => addCheck A .gens .gensAnomalous [.brainpoolGens] x) = some z ∧
        Ready c h z (upd (upd (entry (Cli.cmCinit c)) .order [.brainpoolOrder]) .gens [.gensAnomalous, .brainpoolGens]) (fun _ => none) (fun _ => none) ∧
        ∀ w u, w ≠ .validators → z.2 w u = none := by
      obtain ⟨z, e2, hz, k3⟩ := addCheck_ready hA hy .order (k1 _ (by simp) (by simp)) .brainpoolOrder []
      obtain ⟨z', e3, hz', k4⟩ := addCheck_ready hA hz .gens (by rw [k3 _ _ (by simp)]; exact k1 _ (by simp) (by simp)) .gensAnomalous [.brainpoolGens]
      refine ⟨z', by rw [e2, Option.bind_some, e3], hz', fun w u hw => ?_⟩
      rw [k4 _ _ (by simp [hw]), k3 _ _ (by simp [hw]), kz w u hw]
    have same : ∀ f : Stage → List Check, (∀ s, f s = entry (Cli.cinit c).1 s) → f = entry (Cli.cinit c).1 := fun f hf => funext hf
    cases ha : c.seedAlgo with
    | brainpool =>
      obtain ⟨z, e, hz, kk⟩ := bp
      refine ⟨z, e, ?_, kk⟩
      have e' := same (upd (upd (entry (Cli.cmCinit c)) .order [.brainpoolOrder]) .gens [.gensAnomalous, .brainpoolGens]) fun s => by
        cases s <;> simp [entry, Cli.cinit, Cli.cmCinit, hm, ha, upd, Table.const]
      rw [← e']
      exact hz
    | brainpoolRfc =>
      obtain ⟨z, e, hz, kk⟩ := bp
      refine ⟨z, e, ?_, kk⟩
      have e' := same (upd (upd (entry (Cli.cmCinit c)) .order [.brainpoolOrder]) .gens [.gensAnomalous, .brainpoolGens]) fun s => by
        cases s <;> simp [entry, Cli.cinit, Cli.cmCinit, hm, ha, upd, Table.const]
      rw [← e']
      exact hz
    | nums =>
      obtain ⟨z', e3, hz', k4⟩ := addCheck_ready hA hy .gens (k1 _ (by simp) (by simp)) .gensAnomalous [.brainpoolGens]
      refine ⟨z', e3, ?_, fun w u hw => by rw [k4 _ _ (by simp [hw]), kz w u hw]⟩
      have e := same (upd (entry (Cli.cmCinit c)) .gens [.gensAnomalous, .brainpoolGens]) fun s => by cases s <;> simp [entry, Cli.cinit, Cli.cmCinit, hm, ha, upd, Table.const]
      rw [← e]
      exact hz'
    | _ =>
      refine ⟨y, rfl, ?_, kz⟩
      have : entry (Cli.cinit c).1 = entry (Cli.cmCinit c) := by funext s; cases s <;> simp [entry, Cli.cinit, Cli.cmCinit, hm, ha, Table.const]
      rw [this]
      exact hy
  · rw [if_neg hm]
    refine ⟨y, rfl, ?_, kz⟩
    have : entry (Cli.cinit c).1 = entry (Cli.cmCinit c) := by funext s; cases s <;> simp [entry, Cli.cinit, Cli.cmCinit, hm, Table.const]
    rw [this]
    exact hy

theorem ainit_ready {A : Heap → Nat} (hA : Allocator A) {c : Config} {h : Heap} {x : St} {ck : Stage → List Check} (hx : Ready c h x ck (fun _ => none) (fun _ => none))
    (hn : ∀ w u, w ≠ .validators → x.2 w u = none) (hcs : ¬ (c.cofactor = true ∧ c.smooth = true)) :
    Ready c h (ainit A c x) ck (entry (Cli.ainit c)) (entry (checkArgs c)) := by
  obtain ⟨r1, k1⟩ := pointsArg_ready hA hx (hn _ _ (by simp))
  unfold ainit
  have k1' : ∀ w u, w ≠ .validators → ¬ (w = .genArgs ∧ u = .points) → (pointsArg A c x).2 w u = none := fun w u h1 h2 => (k1 w u h2).trans (hn w u h1)
  generalize pointsArg A c x = y at r1 k1' ⊢
  by_cases hc : c.cofactor = true
  · have hs : ¬ c.smooth = true := fun h => hcs ⟨hc, h⟩
    obtain ⟨r2, k2⟩ := cofactor_ready hA r1 hc (k1' _ _ (by simp) (by simp)) (k1' _ _ (by simp) (by simp))
    have hsm : smoothArg A c (cofactorArgs A c y) = cofactorArgs A c y := by simp [smoothArg, hs]
    rw [hsm]
    have r3 := hexArg_ready hA r2 (by rw [k2 _ _ (by simp)]; exact k1' _ _ (by simp) (by simp))
    have : entry (Cli.ainit c) = upd (upd (if c.pointsType = .random then upd (fun _ => none) .points (some (.size c.pointsAmount)) else fun _ => none) .order
        (some (.long c.cofactorValue))) .gens (some (.long c.cofactorValue)) := by
      funext s
      by_cases h3 : c.pointsType = .random <;> cases s <;> simp [Cli.ainit, hc, hs, h3, entry, upd, Table.const]
    rw [this]
    exact r3
  · have hco : cofactorArgs A c y = y := by simp [cofactorArgs, hc]
    rw [hco]
    by_cases hs : c.smooth = true
    · have hsm : smoothArg A c y = addArg A .genArgs .order .smooth y := by simp [smoothArg, hs]
      rw [hsm]
      obtain ⟨r2, k2⟩ := addArg_gen hA r1 .order (k1' _ _ (by simp) (by simp)) .smooth (v := .long c.smoothValue) fun _ => rfl
      have r3 := hexArg_ready hA r2 (by rw [k2 _ _ (by simp)]; exact k1' _ _ (by simp) (by simp))
      have : entry (Cli.ainit c) = upd (if c.pointsType = .random then upd (fun _ => none) .points (some (.size c.pointsAmount)) else fun _ => none) .order
          (some (.long c.smoothValue)) := by
        funext s
        by_cases h3 : c.pointsType = .random <;> cases s <;> simp [Cli.ainit, hc, hs, h3, entry, upd, Table.const]
      rw [this]
      exact r3
    · have hsm : smoothArg A c y = y := by simp [smoothArg, hs]
      rw [hsm]
      have r3 := hexArg_ready hA r1 (k1' _ _ (by simp) (by simp))
      have : entry (Cli.ainit c) = (if c.pointsType = .random then upd (fun _ => none) .points (some (.size c.pointsAmount)) else fun _ => none) := by
        funext s
        by_cases h3 : c.pointsType = .random <;> cases s <;> simp [Cli.ainit, hc, hs, h3, entry, upd, Table.const]
      rw [this]
      exact r3

theorem not_both {nprocs : Int} {os : List Opt} {c : Config} (hc : commandLine nprocs os = some c) : ¬ (c.cofactor = true ∧ c.smooth = true) := by
  rintro ⟨h1, h2⟩
  unfold commandLine at hc
  cases hp : parseAll nprocs {} os with
  | none => rw [hp] at hc; cases hc
  | some d =>
    rw [hp, Option.bind_some] at hc
    split at hc
    · cases hc
    · split at hc
      · rename_i he
        cases hc
        have k1 : d.cofactor = true := h1
        have k2 : d.smooth = true := h2
        simp only [endChecks, Bool.and_eq_true] at he
        have := he.1.1.1.1.1.1.1.1.1.2
        simp [b2n, k1, k2] at this
      · cases hc

theorem start_spec {A : Heap → Nat} (hA : Allocator A) (order : Str → Str) (prime : Str → Bool) {c : Config} (hcs : ¬ (c.cofactor = true ∧ c.smooth = true)) {h : Heap} (hb : Bounded h) :
    ∃ y, start A order c h = some y ∧ Ready c h y (entry (tablesOf order prime c).1) (entry (tablesOf order prime c).2.1) (entry (tablesOf order prime c).2.2) := by
  unfold start tablesOf run
  by_cases hm : c.method = METHOD_CM ∨ c.method = METHOD_ANOMALOUS ∨ c.method = METHOD_SUPERSINGULAR
  · simp only [if_pos hm]
    exact cm_ready hA hb (order (c.cmOrder.getD []))
  · simp only [if_neg hm]
    by_cases hi : c.method = METHOD_INVALID
    · simp only [if_pos hi]
      obtain ⟨y, e, hy, -⟩ := addCheck_ready hA (start_ready (c := c) hb) .curve rfl .curveNonzero []
      refine ⟨y, e, ?_⟩
      have e1 : entry (originalSetup c).checks = upd (fun _ => []) .curve [.curveNonzero] := by funext s; cases s <;> simp [entry, originalSetup, upd, Table.const]
      have e2 : entry (originalSetup c).genArgs = fun _ => none := by funext s; cases s <;> simp [entry, originalSetup, Table.const]
      have e3 : entry (originalSetup c).checkArgs = fun _ => none := by funext s; cases s <;> simp [entry, originalSetup, Table.const]
      rw [e1, e2, e3]
      exact hy
    · simp only [if_neg hi]
      obtain ⟨y, e, hy, hn⟩ := cinit_ready hA (c := c) hb
      exact ⟨ainit A c y, by rw [e]; rfl, ainit_ready hA hy hn hcs⟩

/-! ## Theorems -/

/-- For every command line that is accepted, setting up the tables of the search is defined, and leaves the rest of the heap as it was. The search then reads exactly the
checks, in their order, and the arguments that its setup consists of, in this heap and in every later one in which the blocks of the tables are unchanged. -/
theorem tables_mean {A : Heap → Nat} (hA : Allocator A) (order : Str → Str) (prime : Str → Bool) {nprocs : Int} {os : List Opt} {c : Config}
    (hc : commandLine nprocs os = some c) {h : Heap} (hb : Bounded h) :
    ∃ h' t fp, start A order c h = some (h', t) ∧ Held h' t fp ∧ (∀ x, x ∉ allOf fp → h' x = h x) ∧ (∀ x ∈ allOf fp, h x = none) ∧
      ∀ g, (∀ x ∈ allOf fp, g x = h' x) → ∀ s, readChecks g (t .validators s) = some (entry (tablesOf order prime c).1 s) ∧
        readArg c g (t .genArgs s) = some (entry (tablesOf order prime c).2.1 s) ∧ readArg c g (t .checkArgs s) = some (entry (tablesOf order prime c).2.2 s) := by
  obtain ⟨⟨h', t⟩, e, fp, hi, hs⟩ := start_spec hA order prime (not_both hc) hb
  have hl : ∀ x, x ∈ allOf fp → h x = none := fun x hx => by
    obtain ⟨w, s, hm⟩ := mem_allOf.1 hx
    exact hi.fresh w s x hm
  refine ⟨h', t, fp, e, hi.toHeld, fun x hx => hi.rest x fun w s hm => hx (mem_allOf.2 ⟨w, s, hm⟩), hl, fun g hg s => ?_⟩
  have hle : Le (only h' fp) g := fun x hx => by
    by_cases hm : x ∈ allOf fp
    · rw [hg x hm, only, if_pos hm]
    · exact absurd (if_neg hm) hx
  have hs' := hs.mono hle
  exact ⟨hs'.checks s, hs'.genArgs s, hs'.checkArgs s⟩

/-- Releasing the tables at the end of a run gives back exactly their blocks, whatever else happened on the heap in the meantime, and so does the run with the tables of two
searches, where the release comes twice. -/
theorem tables_released {h : Heap} {t : Tables} {fp : Which → Stage → List Nat} (hh : Held h t fp) (c : Config) : finish c (h, t) = some (gone h (allOf fp), empty) := by
  unfold finish
  split
  · rw [clear_spec hh, Option.bind_some, clear_empty]
  · exact clear_spec hh

/-- A run that leaves the heap as it finds it leaves no block of the tables behind. -/
theorem tables_nothing_left {A : Heap → Nat} (hA : Allocator A) (order : Str → Str) {nprocs : Int} {os : List Opt} {c : Config} (hc : commandLine nprocs os = some c)
    {h : Heap} (hb : Bounded h) : ∃ x, start A order c h = some x ∧ finish c x = some (h, empty) := by
  obtain ⟨h', t, fp, e, hh, h1, h2, -⟩ := tables_mean hA order (fun _ => false) hc hb
  refine ⟨(h', t), e, ?_⟩
  rw [tables_released hh]
  congr 2
  funext x
  simp only [gone]
  split
  · rename_i hm; exact (h2 x hm).symm
  · rename_i hm; exact h1 x hm

/-! ## The hypotheses are met -/

theorem allocator_exists : ∃ A, Allocator A := by
  classical
  refine ⟨fun h => if hb : Bounded h then hb.choose else 0, fun h hb => ?_⟩
  simp only [dif_pos hb]
  exact hb.choose_spec _ (Nat.le_refl _)

/-- `ecgen --fp --order 0x1b --points 2random --hex-check ab 5`: two arguments share the text of the order -/
def exampleLine : List Opt := [.fp, .order "0x1b".toList, .points "2random".toList, .hexCheck "ab".toList, .arg "5".toList]

theorem tables_met : ∃ A c h, Allocator A ∧ commandLine 4 exampleLine = some c ∧ Bounded h ∧
    entry (tablesOf id (fun _ => false) c).2.1 .curve = some (.text "0x1b".toList) ∧ entry (tablesOf id (fun _ => false) c).2.1 .order = some (.text "0x1b".toList) ∧
    entry (tablesOf id (fun _ => false) c).2.1 .points = some (.size 2) ∧ entry (tablesOf id (fun _ => false) c).2.2 .points = some (.text "ab".toList) ∧
    entry (tablesOf id (fun _ => false) c).1 .points = [.hexParam] := by
  obtain ⟨A, hA⟩ := allocator_exists
  exact ⟨A, (commandLine 4 exampleLine).get (by decide +kernel), fun _ => none, hA, (Option.some_get _).symm, ⟨0, fun _ _ => rfl⟩, by decide +kernel, by decide +kernel, by decide +kernel,
    by decide +kernel, by decide +kernel⟩

/-- the check of a Brainpool search for the generators has two functions, in this order -/
example : ∃ c, commandLine 4 [.fp, .brainpool none, .random none, .arg "160".toList] = some c ∧
    entry (tablesOf id (fun _ => false) c).1 .gens = [.gensAnomalous, .brainpoolGens] :=
  ⟨(commandLine 4 [.fp, .brainpool none, .random none, .arg "160".toList]).get (by decide +kernel), (Option.some_get _).symm, by decide +kernel⟩

end Ecgen.Tables
