import Verif.Invalid.ThreadsInv

/-!
# Generation of invalid curves with several threads (C43, C44)
-/

namespace Ecgen.Invalid

open Json

variable {F R : Type} {p : Nat → Nat} {n threads : Nat} {orig : Curve F R}

/-- C43, safety: in every reachable state (for any number of threads and any schedule) the entries printed behind the original curve are
those of a list `es` of curves with their indices. No index occurs twice, and each of these curves is stored for its index and serves
for its prime. -/
theorem threaded_printed_once (hp : Distinct p n) (hn : 0 < n) {g : G F R} (hr : Reachable p n threads orig g) :
    ∃ es : List (Nat × Curve F R), objects g.out = (none, some orig) :: es.map entry ∧ (es.map Prod.fst).Nodup ∧
      ∀ e ∈ es, e.1 < n ∧ g.curves e.1 = some e.2 ∧ Serves orig (p e.1) e.2 := by
  obtain ⟨hw, es, he⟩ := inv_reachable hp hn hr
  have hsep : ∀ os : List (Entry F R), objects (sepd os) = os := by
    intro os
    induction os with
    | nil => rfl
    | cons o os ih => simpa [sepd, objects] using ih
  have hmap : ∀ l : List (Nat × Curve F R), objects (l.map fun e => Tok.obj (entry e)) = l.map entry := by
    intro l
    induction l with
    | nil => rfl
    | cons o os ih => simpa [objects] using ih
  refine ⟨es, ?_, he.nodup, ?_⟩
  · by_cases hf : g.main = .finished
    · obtain ⟨-, -, es1, es2, rfl, -, ho⟩ := he.finished hf
      rw [ho, objects_append, hmap]
      simp [objects, hsep]
    · rw [(he.open_ hf).1]
      simp [objects, hsep]
  · rintro ⟨i, c⟩ hm
    obtain ⟨-, hc⟩ := (he.mem i c).1 hm
    exact ⟨(hw.curve i c hc).1, hc, (hw.curve i c hc).2⟩

/-- C43, a stored curve is final: no step of any thread replaces it. -/
theorem threaded_stored_once (hp : Distinct p n) (hn : 0 < n) {g g' : G F R} (hr : Reachable p n threads orig g)
    (hs : Step p n threads orig g g') (i : Nat) (c : Curve F R) (hc : g.curves i = some c) : g'.curves i = some c := by
  obtain ⟨hw, -⟩ := inv_reachable hp hn hr
  cases hs with
  | store t d l ht hws ho =>
    obtain ⟨idx, rfl, hs, hg⟩ := hw.held t d l (by rw [hws]; rfl)
    rw [storeLoop_eq p d n hp n _ _ idx 0 (Nat.le_refl n) hs (fun j hj => (hg j hj).1)]
    simp only
    rw [if_neg]
    · exact hc
    · intro hm
      have a := (hg i hm).2.1
      rw [(hw.curveSome i).2 (by rw [hc]; rfl)] at a
      cases a
  | _ => exact hc

/-- C43: when the printing thread is behind its loop, every selected prime has a stored curve, and each was printed exactly once. -/
theorem threaded_complete (hp : Distinct p n) (hn : 0 < n) {g : G F R} (hr : Reachable p n threads orig g)
    (hf : g.main = .finished) :
    g.generated = n ∧ ∃ es : List (Nat × Curve F R), objects g.out = (none, some orig) :: es.map entry ∧
      (es.map Prod.fst).Perm (List.range n) ∧ ∀ e ∈ es, g.curves e.1 = some e.2 ∧ Serves orig (p e.1) e.2 := by
  obtain ⟨es, ho, hnd, hall⟩ := threaded_printed_once hp hn hr
  obtain ⟨hw, es', he⟩ := inv_reachable hp hn hr
  obtain ⟨hg, hold, -⟩ := he.finished hf
  refine ⟨hg, es, ho, ?_, fun e hm => (hall e hm).2⟩
  have hes' : ∀ i, i < n → i ∈ es'.map Prod.fst := by
    intro i hi
    obtain ⟨c, hc⟩ := Option.isSome_iff_exists.1 ((hw.curveSome i).1 (he.oldStored i (hold i hi)))
    exact List.mem_map.2 ⟨(i, c), (he.mem i c).2 ⟨hold i hi, hc⟩, rfl⟩
  have hlen' : n ≤ es'.length := by
    have hsub : List.range n ⊆ es'.map Prod.fst := fun i hi => hes' i (List.mem_range.1 hi)
    have := (List.subperm_of_subset List.nodup_range hsub).length_le
    simpa using this
  have hlen : es.length = es'.length := by
    obtain ⟨-, -, es1, es2, rfl, -, hout⟩ := he.finished hf
    have hcount : ∀ l : List (Tok (Entry F R)), (objects l).length = l.countP (fun t => match t with | .obj _ => true | _ => false) := by
      intro l
      induction l with
      | nil => rfl
      | cons t l ih => cases t <;> simp [objects, ih]
    have h1 := hcount g.out
    rw [ho] at h1
    have h2 : ∀ os : List (Entry F R), (sepd os).countP (fun t => match t with | .obj _ => true | _ => false) = os.length := by
      intro os
      induction os with
      | nil => rfl
      | cons o os ih => simpa [sepd] using ih
    have h3 : ∀ l : List (Nat × Curve F R),
        (l.map fun e => Tok.obj (entry e)).countP (fun t => match t with | .obj _ => true | _ => false) = l.length := by
      intro l
      induction l with
      | nil => rfl
      | cons o os ih => simpa using ih
    rw [hout, List.countP_append, h3, List.countP_cons_of_neg (by simp), h2] at h1
    simp at h1
    simp only [List.length_append]
    omega
  exact perm_range hnd (fun e hm => (hall e hm).1) (by omega)

/-- C43, no lost wakeup: while the printing thread is blocked, there is nothing to print, curves are still missing, and no worker has
given up. -/
theorem threaded_no_lost_wakeup (hp : Distinct p n) (hn : 0 < n) {g : G F R} (hr : Reachable p n threads orig g)
    (hb : g.main = .blocked) :
    (∀ i c, g.curves i = some c → ∃ es : List (Nat × Curve F R), objects g.out = (none, some orig) :: es.map entry ∧ (i, c) ∈ es) ∧
      (∃ i, i < n ∧ g.curves i = none) ∧ ∀ t, g.workers t ≠ .exited := by
  obtain ⟨hw, es, he⟩ := inv_reachable hp hn hr
  obtain ⟨h1, h2⟩ := he.blocked hb
  have hsep : ∀ os : List (Entry F R), objects (sepd os) = os := by
    intro os
    induction os with
    | nil => rfl
    | cons o os ih => simpa [sepd, objects] using ih
  refine ⟨?_, ?_, fun t ht => h2 (hw.exited t ht)⟩
  · intro i c hc
    refine ⟨es, ?_, (he.mem i c).2 ⟨h1 i ((hw.curveSome i).2 (by rw [hc]; rfl)), hc⟩⟩
    rw [(he.open_ (by rw [hb]; intro hx; cases hx)).1]
    simp [objects, hsep]
  · obtain ⟨i, hi, hi'⟩ := stored_not_full (s := g.states) (n := n) (by rw [← hw.count]; exact h2)
    refine ⟨i, hi, ?_⟩
    rw [← Option.not_isSome_iff_eq_none]
    exact fun hx => hi' ((hw.curveSome i).2 hx)

/-- C43, mutual exclusion: at most one thread is inside a critical section. -/
theorem threaded_mutex (hp : Distinct p n) (hn : 0 < n) {g : G F R} (hr : Reachable p n threads orig g) :
    (∀ t t', inside (g.workers t) = true → inside (g.workers t') = true → t = t') ∧
      (g.main = .scanning → ∀ t, inside (g.workers t) = false) := by
  obtain ⟨hw, -⟩ := inv_reachable hp hn hr
  constructor
  · intro t t' h1 h2
    have a := (hw.mutex t).1 h1
    have b := (hw.mutex t').1 h2
    rw [a] at b
    cases b
    rfl
  · intro hm t
    rw [Bool.eq_false_iff]
    intro h1
    have a := (hw.mutex t).1 h1
    rw [hw.mutexMain.1 hm] at a
    cases a

/-- C43, no deadlock: as long as the printing thread is not behind its loop, some thread can take a step that is not a spurious
wakeup, if there is a worker. -/
theorem threaded_progress (hp : Distinct p n) (hn : 0 < n) (ht : 0 < threads) (r : R) {g : G F R}
    (hr : Reachable p n threads orig g) (hf : g.main ≠ .finished) :
    ∃ g', Step p n threads orig g g' ∧ ¬ (g.main = .blocked ∧ g' = { g with main := .woken }) := by
  obtain ⟨hw, es, he⟩ := inv_reachable hp hn hr
  have hlt : ∀ t, g.owner = .worker t → t < threads := by
    intro t ho
    by_contra hge
    have := (hw.mutex t).2 ho
    rw [hw.idle t (by omega)] at this
    cases this
  have hupd : ∀ (t : Nat) (w : Worker F R) (h : g.workers t ≠ w), upd g.workers t w ≠ g.workers := by
    intro t w h hx
    have := congrFun hx t
    simp only [upd, if_true] at this
    exact h this.symm
  cases ho : g.owner with
  | main =>
    have hm := hw.mutexMain.2 ho
    exact ⟨_, Step.scan g hm ho, fun hx => by rw [hm] at hx; exact absurd hx.1 (by simp)⟩
  | worker t =>
    have hin := (hw.mutex t).2 ho
    have ht' := hlt t ho
    cases hwk : g.workers t with
    | inCheck =>
      refine ⟨_, Step.check g t ht' hwk ho, fun hx => ?_⟩
      have := congrArg G.owner hx.2
      simp only at this
      first | cases this | (rw [ho] at this; cases this)
    | inClaim c =>
      refine ⟨_, Step.claim g t c ht' hwk ho, fun hx => ?_⟩
      have := congrArg G.owner hx.2
      simp only at this
      first | cases this | (rw [ho] at this; cases this)
    | inStore c l =>
      refine ⟨_, Step.store g t c l ht' hwk ho, fun hx => ?_⟩
      have := congrArg G.owner hx.2
      simp only at this
      first | cases this | (rw [ho] at this; cases this)
    | _ => rw [hwk] at hin; cases hin
  | nobody =>
    cases hm : g.main with
    | finished => exact absurd hm hf
    | scanning => have := hw.mutexMain.1 hm; rw [ho] at this; cases this
    | woken =>
      exact ⟨_, Step.mainLock g hm ho, fun hx => by cases hx.1⟩
    | blocked =>
      obtain ⟨-, hne⟩ := he.blocked hm
      cases hwk : g.workers 0 with
      | wantCheck =>
        refine ⟨_, Step.checkLock g 0 ht hwk ho, fun hx => ?_⟩
        exact hupd 0 .inCheck (by rw [hwk]; simp) (congrArg G.workers hx.2)
      | search =>
        refine ⟨_, Step.searchFail g 0 ht hwk, fun hx => ?_⟩
        exact hupd 0 .wantCheck (by rw [hwk]; simp) (congrArg G.workers hx.2)
      | wantClaim c =>
        refine ⟨_, Step.claimLock g 0 c ht hwk ho, fun hx => ?_⟩
        exact hupd 0 (.inClaim c) (by rw [hwk]; simp) (congrArg G.workers hx.2)
      | points c l =>
        refine ⟨_, Step.points g 0 c l r ht hwk, fun hx => ?_⟩
        exact hupd 0 (.wantStore { c with rest := r } l) (by rw [hwk]; simp) (congrArg G.workers hx.2)
      | wantStore c l =>
        refine ⟨_, Step.storeLock g 0 c l ht hwk ho, fun hx => ?_⟩
        exact hupd 0 (.inStore c l) (by rw [hwk]; simp) (congrArg G.workers hx.2)
      | exited => exact absurd (hw.exited 0 hwk) hne
      | inCheck => have := (hw.mutex 0).1 (by rw [hwk]; rfl); rw [ho] at this; cases this
      | inClaim c => have := (hw.mutex 0).1 (by rw [hwk]; rfl); rw [ho] at this; cases this
      | inStore c l => have := (hw.mutex 0).1 (by rw [hwk]; rfl); rw [ho] at this; cases this

/-! ## JSON (C44) -/

/-- the last scan: what was printed before ends with a comma, and then come the remaining curves without any comma -/
theorem last_scan (hp : Distinct p n) (hn : 0 < n) {g g' : G F R} (hr : Reachable p n threads orig g)
    (hm : g.main ≠ .finished) (hs : Step p n threads orig g g') (hf : g'.main = .finished) :
    ∃ es es2 : List (Nat × Curve F R), g.out = .open :: sepd ((none, some orig) :: es.map entry) ∧
      g'.out = g.out ++ es2.map (fun e => Tok.obj (entry e)) ∧ es2 ≠ [] := by
  obtain ⟨hw, es, he⟩ := inv_reachable hp hn hr
  obtain ⟨hout, i0, hi0, hi0'⟩ := he.open_ hm
  cases hs with
  | scan hsc ho =>
    have hgen : g.generated = n := by
      by_contra hx
      simp only [if_neg hx] at hf
      cases hf
    have hall := stored_full (s := g.states) (n := n) (by rw [← hw.count]; exact hgen)
    have hsome : ∀ i ∈ news g n n, (g.curves i).isSome = true := fun i hi => (hw.curveSome i).1 (mem_news.1 hi).2.2
    refine ⟨es, withCurves g.curves (news g n n), hout, ?_, ?_⟩
    · simp only
      rw [scanLoop_eq n g n g.old g.out (Nat.le_refl n) (fun _ _ => rfl), printed_eq g n hsome, if_neg (c := g.generated ≠ n) (not_not.2 hgen)]
    · intro h0
      have hi0m : i0 ∈ news g n n := mem_news.2 ⟨hi0, hi0', hall i0 hi0⟩
      rw [← withCurves_fst hsome, h0] at hi0m
      cases hi0m
  | store t c l _ _ _ =>
    simp only at hf
    split at hf
    · cases hf
    · exact absurd hf hm
  | spurious _ => cases hf
  | mainLock _ _ => cases hf
  | _ => exact absurd hf hm

/-- C44, several threads: for every schedule, the final output is a JSON array exactly when the last scan had exactly one curve to
print. -/
theorem threaded_array_iff (hp : Distinct p n) (hn : 0 < n) {g g' : G F R} (hr : Reachable p n threads orig g)
    (hm : g.main ≠ .finished) (hs : Step p n threads orig g g') (hf : g'.main = .finished) :
    (∃ os, IsArray (finalOutput g') os) ↔ ∃ i, ∀ j, (j < n ∧ ∀ c, Tok.obj (some j, c) ∉ g.out) ↔ j = i := by
  have hr' := hr.step hs
  obtain ⟨hw, es, he⟩ := inv_reachable hp hn hr
  obtain ⟨hout, -⟩ := he.open_ hm
  have hmem : ∀ j, (∀ c, Tok.obj (some j, c) ∉ g.out) ↔ g.old j ≠ .generated := by
    intro j
    rw [hout]
    constructor
    · intro h hold
      obtain ⟨c, hc⟩ := Option.isSome_iff_exists.1 ((hw.curveSome j).1 (he.oldStored j hold))
      apply h (some c)
      have : (j, c) ∈ es := (he.mem j c).2 ⟨hold, hc⟩
      simp only [sepd, List.mem_cons, List.mem_flatMap]
      right
      exact ⟨entry (j, c), Or.inr (List.mem_map.2 ⟨_, this, rfl⟩), Or.inl rfl⟩
    · intro h c hx
      apply h
      simp only [sepd, List.mem_cons, List.mem_flatMap] at hx
      rcases hx with hx | ⟨e, he1, he2⟩
      · cases hx
      · rcases he2 with he2 | he2 | he2
        · cases he2
          rcases he1 with he1 | he1
          · cases he1
          · obtain ⟨⟨i, d⟩, hd, he⟩ := List.mem_map.1 he1
            cases he
            exact ((PInv.mem ‹_› i d).1 hd).1
        · cases he2
        · cases he2
  cases hs with
  | scan hsc ho =>
    have hgen : g.generated = n := by
      by_contra hx
      simp only [if_neg hx] at hf
      cases hf
    have hall := stored_full (s := g.states) (n := n) (by rw [← hw.count]; exact hgen)
    have hsome : ∀ i ∈ news g n n, (g.curves i).isSome = true := fun i hi => (hw.curveSome i).1 (mem_news.1 hi).2.2
    have hnews : ∀ j, (j < n ∧ ∀ c, Tok.obj (some j, c) ∉ g.out) ↔ j ∈ news g n n := by
      intro j
      rw [hmem, mem_news]
      constructor
      · rintro ⟨a, b⟩; exact ⟨a, b, hall j a⟩
      · rintro ⟨a, b, -⟩; exact ⟨a, b⟩
    simp only [hnews]
    unfold finalOutput
    rw [scanLoop_eq n g n g.old g.out (Nat.le_refl n) (fun _ _ => rfl), printed_eq g n hsome,
      if_neg (c := g.generated ≠ n) (not_not.2 hgen)]
    simp only [hout]
    have hfst := withCurves_fst hsome
    have hnd := news_nodup g n n
    obtain ⟨-, i0, hi0, hi0'⟩ := he.open_ hm
    have hi0m : i0 ∈ news g n n := mem_news.2 ⟨hi0, hi0', hall i0 hi0⟩
    generalize withCurves g.curves (news g n n) = es2 at hfst ⊢
    generalize news g n n = ns at hfst hnd hi0m ⊢
    subst hfst
    match es2, hnd, hi0m with
    | [], _, h => cases h
    | [e], _, _ =>
      constructor
      · intro _
        exact ⟨e.1, fun j => by simp⟩
      · intro _
        exact ⟨_, array_sepd ((none, some orig) :: es.map entry) (entry e)⟩
    | e1 :: e2 :: es2, hnd, _ =>
      constructor
      · rintro ⟨os, ha⟩
        exfalso
        refine not_array_pair (.open :: sepd ((none, some orig) :: es.map entry)) (es2.map (fun e => Tok.obj (entry e)) ++ [.close])
          (entry e1) (entry e2) os ?_
        simpa using ha
      · rintro ⟨i, hi⟩
        exfalso
        have h1 := (hi e1.1).1 (by simp)
        have h2 := (hi e2.1).1 (by simp)
        rw [List.map_cons, List.map_cons, List.nodup_cons] at hnd
        apply hnd.1
        rw [h1, h2]
        simp
  | store t c l _ _ _ =>
    simp only at hf
    split at hf
    · cases hf
    · exact absurd hf hm
  | spurious _ => cases hf
  | mainLock _ _ => cases hf
  | _ => exact absurd hf hm

/-- C44 is false for several threads: with the primes 2 and 3 and a curve of order 6 there is a schedule after which the two invalid
curves are printed without a comma between them. -/
theorem threaded_array_false : ∃ g : G Nat Nat, Reachable (fun i => if i = 0 then 2 else 3) 2 2 ⟨11, 1, 13, 0⟩ g ∧
    g.main = .finished ∧ ∀ os, ¬ IsArray (finalOutput g) os := by
  have r0 := Reachable.initial (p := fun i => if i = 0 then 2 else 3) (n := 2) (threads := 2) (orig := (⟨11, 1, 13, 0⟩ : Curve Nat Nat))
  have r1 := r0.step (Step.checkLock _ 0 (by decide) rfl rfl)
  have r2 := r1.step (Step.check _ 0 (by decide) rfl rfl)
  have r3 := r2.step (Step.searchFound _ 0 6 0 (by decide) rfl ⟨0, by decide, by decide⟩)
  have r4 := r3.step (Step.claimLock _ 0 _ (by decide) rfl rfl)
  have r5 := r4.step (Step.claim _ 0 _ (by decide) rfl rfl)
  have r6 := r5.step (Step.points _ 0 _ _ 1 (by decide) rfl)
  have r7 := r6.step (Step.storeLock _ 0 _ _ (by decide) rfl rfl)
  have r8 := r7.step (Step.store _ 0 _ _ (by decide) rfl rfl)
  have r9 := r8.step (Step.mainLock _ rfl rfl)
  have r10 := r9.step (Step.scan _ rfl rfl)
  refine ⟨_, r10, rfl, ?_⟩
  intro os h
  refine not_array_pair [.open, .obj (none, some ⟨11, 1, 13, 0⟩), .comma] [.close] (some 0, some ⟨11, 1, 6, 1⟩)
    (some 1, some ⟨11, 1, 6, 1⟩) os ?_
  unfold finalOutput at h
  revert h
  simp [scanLoop, storeLoop, claimLoop, upd, initial]

end Ecgen.Invalid
