import Verif.Invalid.Threads

/-!
# Generation of invalid curves with several threads: the invariant holds in every reachable state
-/

namespace Ecgen.Invalid

open Json

variable {F R : Type}

theorem mem_stored {s : Nat → PState} {n i : Nat} : i ∈ stored s n ↔ i < n ∧ s i = .generated := by
  unfold stored
  rw [Finset.mem_filter, Finset.mem_range]

theorem stored_le (s : Nat → PState) (n : Nat) : (stored s n).card ≤ n := by
  unfold stored
  calc _ ≤ (Finset.range n).card := Finset.card_filter_le _ _
    _ = n := Finset.card_range n

theorem stored_full {s : Nat → PState} {n : Nat} (h : (stored s n).card = n) : ∀ i, i < n → s i = .generated := by
  have hsub : stored s n ⊆ Finset.range n := fun i hi => Finset.mem_range.2 (mem_stored.1 hi).1
  have he := Finset.eq_of_subset_of_card_le hsub (by rw [Finset.card_range, h])
  intro i hi
  have : i ∈ stored s n := by rw [he]; exact Finset.mem_range.2 hi
  exact (mem_stored.1 this).2

theorem stored_not_full {s : Nat → PState} {n : Nat} (h : (stored s n).card ≠ n) : ∃ i, i < n ∧ s i ≠ .generated := by
  by_contra hc
  apply h
  have : stored s n = Finset.range n := by
    ext i
    rw [mem_stored, Finset.mem_range]
    constructor
    · exact fun h => h.1
    · intro hi
      refine ⟨hi, ?_⟩
      by_contra hg
      exact hc ⟨i, hi, hg⟩
  rw [this, Finset.card_range]

theorem held_inside_claiming (w : Worker F R) (c : Curve F R) (h : claiming w = some c) : held w = none := by
  cases w <;> simp_all [claiming, held]

variable {p : Nat → Nat} {n threads : Nat} {orig : Curve F R}

/-- a worker moves on without changing the shared data -/
theorem winv_move {g : G F R} (h : WInv p n threads orig g) (t : Nat) (ht : t < threads) (w : Worker F R) (o : Owner)
    (hin : inside w = true ↔ o = .worker t) (hother : ∀ t', t' ≠ t → (g.owner = .worker t' ↔ o = .worker t'))
    (hmain : g.main = .scanning ↔ o = .main) (hc : ∀ c, claiming w = some c → c.field = orig.field ∧ c.a = orig.a)
    (h1 : ∀ c l, held w = some (c, l) → ∃ c0, held (g.workers t) = some (c0, l) ∧ c.order = c0.order ∧ c.field = c0.field ∧ c.a = c0.a)
    (h2 : ∀ c l, held (g.workers t) = some (c, l) → ∃ c', held w = some (c', l))
    (he : w = .exited → g.generated = n) :
    WInv p n threads orig { g with owner := o, workers := upd g.workers t w } := by
  constructor
  · intro t' ht'
    simp only [upd, if_neg (show t' ≠ t by omega)]
    exact h.idle t' ht'
  · intro t'
    by_cases hh : t' = t
    · subst hh; simpa [upd] using hin
    · simp only [upd, if_neg hh]
      rw [h.mutex t']
      exact hother t' hh
  · exact hmain
  · exact h.curveSome
  · exact h.curve
  · intro t' c hcl
    by_cases hh : t' = t
    · subst hh; simp only [upd, if_true] at hcl; exact hc c hcl
    · simp only [upd, if_neg hh] at hcl; exact h.claiming t' c hcl
  · intro t' c l hl
    by_cases hh : t' = t
    · subst hh
      simp only [upd, if_true] at hl
      obtain ⟨c0, hc0, e1, e2, e3⟩ := h1 c l hl
      obtain ⟨idx, hi, hs, hg⟩ := h.held t' c0 l hc0
      refine ⟨idx, hi, hs, fun i hm => ?_⟩
      obtain ⟨a, b, c', d, e⟩ := hg i hm
      exact ⟨a, b, by rw [e1]; exact c', by rw [e2]; exact d, by rw [e3]; exact e⟩
    · simp only [upd, if_neg hh] at hl
      exact h.held t' c l hl
  · intro t1 t2 c1 c2 l1 l2 hne ha hb
    by_cases hh1 : t1 = t
    · subst hh1
      have hh2 : ¬ t2 = t1 := fun e => hne e.symm
      simp only [upd, if_true, if_neg hh2] at ha hb
      obtain ⟨c0, hc0, -⟩ := h1 c1 l1 ha
      exact h.disjoint t1 t2 c0 c2 l1 l2 hne hc0 hb
    · by_cases hh2 : t2 = t
      · subst hh2
        simp only [upd, if_true, if_neg hh1] at ha hb
        obtain ⟨c0, hc0, -⟩ := h1 c2 l2 hb
        exact h.disjoint t1 t2 c1 c0 l1 l2 hne ha hc0
      · simp only [upd, if_neg hh1, if_neg hh2] at ha hb
        exact h.disjoint t1 t2 c1 c2 l1 l2 hne ha hb
  · intro i hi
    obtain ⟨t', c, l, a, b, c', d⟩ := h.cover i hi
    by_cases hh : t' = t
    · subst hh
      obtain ⟨c1, hc1⟩ := h2 c l b
      exact ⟨t', c1, l, a, by simpa [upd] using hc1, c', d⟩
    · exact ⟨t', c, l, a, by simpa [upd, hh] using b, c', d⟩
  · exact h.count
  · intro t' hx
    by_cases hh : t' = t
    · subst hh; simp only [upd, if_true] at hx; exact he hx
    · simp only [upd, if_neg hh] at hx; exact h.exited t' hx

theorem owner_free {g : G F R} (h : WInv p n threads orig g) (ho : g.owner = .nobody) (t : Nat) :
    (∀ t', t' ≠ t → (g.owner = .worker t' ↔ Owner.worker t = .worker t')) ∧ (g.main = .scanning ↔ Owner.worker t = .main) := by
  constructor
  · intro t' hne
    rw [ho]
    constructor
    · intro hh; cases hh
    · intro hh; cases hh; exact absurd rfl hne
  · rw [h.mutexMain, ho]
    constructor <;> (intro hh; cases hh)

theorem owner_release {g : G F R} (h : WInv p n threads orig g) {t : Nat} (ho : g.owner = .worker t) :
    (∀ t', t' ≠ t → (g.owner = .worker t' ↔ Owner.nobody = .worker t')) ∧ (g.main = .scanning ↔ Owner.nobody = .main) := by
  constructor
  · intro t' hne
    rw [ho]
    constructor
    · intro hh; cases hh; exact absurd rfl hne
    · intro hh; cases hh
  · rw [h.mutexMain, ho]
    constructor <;> (intro hh; cases hh)

/-- the primes are distinct -/
def Distinct (p : Nat → Nat) (n : Nat) : Prop := ∀ i j, i < n → j < n → p i = p j → i = j

theorem winv_claim (hp : Distinct p n) {g : G F R} (h : WInv p n threads orig g) (t : Nat) (c : Curve F R) (ht : t < threads)
    (hw : g.workers t = .inClaim c) (ho : g.owner = .worker t) :
    WInv p n threads orig
        { g with
          owner := .nobody
          states := (claimLoop p c.order n g.states []).1
          workers := upd g.workers t
            (if (claimLoop p c.order n g.states []).2.length > 0 then .points c (claimLoop p c.order n g.states []).2
             else .wantCheck) } := by
  rw [claimLoop_eq]
  simp only [List.nil_append]
  generalize hW : (if ((claims p c.order g.states n).map p).length > 0 then
    Worker.points c ((claims p c.order g.states n).map p) else .wantCheck) = w
  have hheld : ∀ d l, held w = some (d, l) → d = c ∧ l = (claims p c.order g.states n).map p := by
    intro d l hd
    rw [← hW] at hd
    split at hd
    · simp only [held, Option.some.injEq, Prod.mk.injEq] at hd
      exact ⟨hd.1.symm, hd.2.symm⟩
    · cases hd
  have hnone : ∀ d l, held (g.workers t) ≠ some (d, l) := by intro d l; rw [hw]; simp [held]
  obtain ⟨hr1, hr2⟩ := owner_release h ho
  have hgen : ∀ i, (if i < n ∧ c.order % p i = 0 ∧ g.states i = .free then PState.generating else g.states i) = .generated ↔
      g.states i = .generated := by
    intro i
    split
    · rename_i hh; rw [hh.2.2]; constructor <;> (intro x; cases x)
    · exact Iff.rfl
  constructor
  · intro t' ht'
    simp only [upd, if_neg (show t' ≠ t by omega)]
    exact h.idle t' ht'
  · intro t'
    by_cases hh : t' = t
    · subst hh
      simp only [upd, if_true]
      rw [← hW]
      constructor
      · intro hx; split at hx <;> cases hx
      · intro hx; cases hx
    · simp only [upd, if_neg hh]
      rw [h.mutex t']
      exact hr1 t' hh
  · exact hr2
  · intro i
    simp only [hgen]
    exact h.curveSome i
  · exact h.curve
  · intro t' d hcl
    by_cases hh : t' = t
    · subst hh
      simp only [upd, if_true] at hcl
      rw [← hW] at hcl
      split at hcl <;> cases hcl
    · simp only [upd, if_neg hh] at hcl; exact h.claiming t' d hcl
  · intro t' d l hl
    by_cases hh : t' = t
    · subst hh
      simp only [upd, if_true] at hl
      obtain ⟨rfl, rfl⟩ := hheld d l hl
      refine ⟨_, rfl, claims_pairwise _ _ _ _, ?_⟩
      intro i hi
      obtain ⟨a, b, e⟩ := mem_claims.1 hi
      have hcf := h.claiming t' d (by rw [hw]; rfl)
      exact ⟨a, by simp only; rw [if_pos ⟨a, b, e⟩], Nat.dvd_of_mod_eq_zero b, hcf.1, hcf.2⟩
    · simp only [upd, if_neg hh] at hl
      obtain ⟨idx, hi, hs, hg⟩ := h.held t' d l hl
      refine ⟨idx, hi, hs, fun i hm => ?_⟩
      obtain ⟨a, b, e⟩ := hg i hm
      refine ⟨a, ?_, e⟩
      simp only
      rw [if_neg]
      · exact b
      · rintro ⟨-, -, hf⟩; rw [hf] at b; cases b
  · have key : ∀ t' c' l', t' ≠ t → held (g.workers t') = some (c', l') →
        ∀ q, q ∈ (claims p c.order g.states n).map p → q ∉ l' := by
      intro t' c' l' hne hl' q hq hq'
      obtain ⟨i, hi, rfl⟩ := List.mem_map.1 hq
      obtain ⟨a, -, e⟩ := mem_claims.1 hi
      obtain ⟨idx, rfl, -, hg⟩ := h.held t' c' l' hl'
      obtain ⟨j, hj, hpj⟩ := List.mem_map.1 hq'
      obtain ⟨b, f, -⟩ := hg j hj
      have := hp j i b a hpj
      subst this
      rw [e] at f
      cases f
    intro t1 t2 c1 c2 l1 l2 hne ha hb q hq hq2
    by_cases hh1 : t1 = t
    · subst hh1
      have hh2 : ¬ t2 = t1 := fun e => hne e.symm
      simp only [upd, if_true, if_neg hh2] at ha hb
      obtain ⟨rfl, rfl⟩ := hheld c1 l1 ha
      exact key t2 c2 l2 hh2 hb q hq hq2
    · by_cases hh2 : t2 = t
      · subst hh2
        simp only [upd, if_true, if_neg hh1] at ha hb
        obtain ⟨rfl, rfl⟩ := hheld c2 l2 hb
        exact key t1 c1 l1 hh1 ha q hq2 hq
      · simp only [upd, if_neg hh1, if_neg hh2] at ha hb
        exact h.disjoint t1 t2 c1 c2 l1 l2 hne ha hb q hq hq2
  · intro i hi
    by_cases hcl : i < n ∧ c.order % p i = 0 ∧ g.states i = .free
    · have hm : i ∈ claims p c.order g.states n := mem_claims.2 hcl
      refine ⟨t, c, (claims p c.order g.states n).map p, ht, ?_, hcl.1, List.mem_map.2 ⟨i, hm, rfl⟩⟩
      simp only [upd, if_true]
      rw [← hW, if_pos]
      · rfl
      · rw [List.length_map]
        exact List.length_pos_of_mem hm
    · simp only [if_neg hcl] at hi
      obtain ⟨t', d, l, a, b, e, f⟩ := h.cover i hi
      have hne : t' ≠ t := by rintro rfl; exact hnone d l b
      exact ⟨t', d, l, a, by simpa [upd, hne] using b, e, f⟩
  · rw [h.count]
    congr 1
    ext i
    rw [mem_stored, mem_stored, hgen]
  · intro t' hx
    by_cases hh : t' = t
    · subst hh
      simp only [upd, if_true] at hx
      rw [← hW] at hx
      split at hx <;> cases hx
    · simp only [upd, if_neg hh] at hx; exact h.exited t' hx

theorem winv_store (hp : Distinct p n) {g : G F R} (h : WInv p n threads orig g) (t : Nat) (c : Curve F R) (l : List Nat)
    (hw : g.workers t = .inStore c l) (ht : t < threads) (ho : g.owner = .worker t) :
    WInv p n threads orig
        { g with
          owner := .nobody
          states := (storeLoop p c n g.states g.curves l 0).1
          curves := (storeLoop p c n g.states g.curves l 0).2.1
          generated := g.generated + (storeLoop p c n g.states g.curves l 0).2.2
          workers := upd g.workers t .wantCheck
          main := if g.main = .blocked then .woken else g.main } := by
  have hself : held (g.workers t) = some (c, l) := by rw [hw]; rfl
  obtain ⟨idx, rfl, hs, hg⟩ := h.held t c l hself
  rw [storeLoop_eq p c n hp n _ _ idx 0 (Nat.le_refl n) hs (fun j hj => (hg j hj).1)]
  simp only [Nat.zero_add]
  obtain ⟨hr1, hr2⟩ := owner_release h ho
  have hcard : g.generated + idx.length =
      (stored (fun j => if j ∈ idx then PState.generated else g.states j) n).card := by
    have e : stored (fun j => if j ∈ idx then PState.generated else g.states j) n = stored g.states n ∪ idx.toFinset := by
      ext i
      rw [mem_stored, Finset.mem_union, mem_stored, List.mem_toFinset]
      by_cases hi : i ∈ idx
      · simp [hi, (hg i hi).1]
      · simp [hi]
    rw [e, Finset.card_union_of_disjoint, ← h.count, List.toFinset_card_of_nodup (hs.imp (fun hh => Nat.ne_of_gt hh))]
    rw [Finset.disjoint_left]
    intro i hi hi'
    have a := (mem_stored.1 hi).2
    have b := (hg i (List.mem_toFinset.1 hi')).2.1
    rw [a] at b
    cases b
  constructor
  · intro t' ht'
    simp only [upd, if_neg (show t' ≠ t by omega)]
    exact h.idle t' ht'
  · intro t'
    by_cases hh : t' = t
    · subst hh
      simp only [upd, if_true, inside]
      constructor <;> (intro hx; cases hx)
    · simp only [upd, if_neg hh]
      rw [h.mutex t']
      exact hr1 t' hh
  · simp only
    rw [← hr2]
    split
    · rename_i hb; rw [hb]; constructor <;> (intro hx; cases hx)
    · exact Iff.rfl
  · intro i
    simp only
    by_cases hi : i ∈ idx
    · simp [hi]
    · simp only [if_neg hi]; exact h.curveSome i
  · intro i d hd
    simp only at hd
    by_cases hi : i ∈ idx
    · rw [if_pos hi] at hd
      cases hd
      exact ⟨(hg i hi).1, (hg i hi).2.2⟩
    · rw [if_neg hi] at hd
      exact h.curve i d hd
  · intro t' d hcl
    by_cases hh : t' = t
    · subst hh; simp only [upd, if_true] at hcl; cases hcl
    · simp only [upd, if_neg hh] at hcl; exact h.claiming t' d hcl
  · intro t' d l' hl
    by_cases hh : t' = t
    · subst hh; simp only [upd, if_true] at hl; cases hl
    · simp only [upd, if_neg hh] at hl
      obtain ⟨idx', hi, hs', hg'⟩ := h.held t' d l' hl
      refine ⟨idx', hi, hs', fun i hm => ?_⟩
      obtain ⟨a, b, e⟩ := hg' i hm
      refine ⟨a, ?_, e⟩
      simp only
      rw [if_neg]
      · exact b
      · intro hmi
        refine h.disjoint t t' c d _ l' (fun e => hh e.symm) hself hl (p i) (List.mem_map.2 ⟨i, hmi, rfl⟩) ?_
        rw [hi]
        exact List.mem_map.2 ⟨i, hm, rfl⟩
  · intro t1 t2 c1 c2 l1 l2 hne ha hb
    by_cases hh1 : t1 = t
    · subst hh1; simp only [upd, if_true] at ha; cases ha
    · by_cases hh2 : t2 = t
      · subst hh2; simp only [upd, if_true] at hb; cases hb
      · simp only [upd, if_neg hh1, if_neg hh2] at ha hb
        exact h.disjoint t1 t2 c1 c2 l1 l2 hne ha hb
  · intro i hi
    simp only at hi
    by_cases hm : i ∈ idx
    · rw [if_pos hm] at hi; cases hi
    · rw [if_neg hm] at hi
      obtain ⟨t', d, l', a, b, e, f⟩ := h.cover i hi
      have hne : t' ≠ t := by
        rintro rfl
        rw [hself] at b
        cases b
        obtain ⟨j, hj, hpj⟩ := List.mem_map.1 f
        have := hp j i (hg j hj).1 e hpj
        subst this
        exact hm hj
      exact ⟨t', d, l', a, by simpa [upd, hne] using b, e, f⟩
  · exact hcard
  · intro t' hx
    by_cases hh : t' = t
    · subst hh; simp only [upd, if_true] at hx; cases hx
    · simp only [upd, if_neg hh] at hx
      have h1 := h.exited t' hx
      have h2 := stored_le (fun j => if j ∈ idx then PState.generated else g.states j) n
      simp only
      omega

theorem winv_step (hp : Distinct p n) {g g' : G F R} (h : WInv p n threads orig g) (hs : Step p n threads orig g g') :
    WInv p n threads orig g' := by
  cases hs with
  | checkLock t ht hw ho =>
    obtain ⟨a, b⟩ := owner_free h ho t
    exact winv_move h t ht _ _ (by simp [inside]) a b (by intro c hc; cases hc) (by intro c l hc; cases hc)
      (by intro c l hc; rw [hw] at hc; cases hc) (by intro hc; cases hc)
  | check t ht hw ho =>
    obtain ⟨a, b⟩ := owner_release h ho
    refine winv_move h t ht _ _ ?_ a b ?_ ?_ (by intro c l hc; rw [hw] at hc; cases hc) ?_
    · constructor
      · intro hx; split at hx <;> cases hx
      · intro hx; cases hx
    · intro c hc; split at hc <;> cases hc
    · intro c l hc; split at hc <;> cases hc
    · intro hc
      split at hc
      · cases hc
      · have := stored_le g.states n
        have := h.count
        omega
  | searchFail t ht hw =>
    have hin : g.owner ≠ .worker t := by
      intro hx
      have := (h.mutex t).2 hx
      rw [hw] at this
      cases this
    have := winv_move h t ht .wantCheck g.owner (by simp [inside, hin]) (fun _ _ => Iff.rfl) h.mutexMain
      (by intro c hc; cases hc) (by intro c l hc; cases hc) (by intro c l hc; rw [hw] at hc; cases hc) (by intro hc; cases hc)
    exact this
  | searchFound t o r ht hw _ =>
    have hin : g.owner ≠ .worker t := by
      intro hx
      have := (h.mutex t).2 hx
      rw [hw] at this
      cases this
    have := winv_move h t ht (.wantClaim ⟨orig.field, orig.a, o, r⟩) g.owner (by simp [inside, hin]) (fun _ _ => Iff.rfl)
      h.mutexMain
      (by intro c hc; simp only [claiming, Option.some.injEq] at hc; subst hc; exact ⟨rfl, rfl⟩) (by intro c l hc; cases hc)
      (by intro c l hc; rw [hw] at hc; cases hc) (by intro hc; cases hc)
    exact this
  | claimLock t c ht hw ho =>
    obtain ⟨a, b⟩ := owner_free h ho t
    exact winv_move h t ht _ _ (by simp [inside]) a b
      (by intro d hd; exact h.claiming t d (by rw [hw]; exact hd)) (by intro c l hc; cases hc)
      (by intro c l hc; rw [hw] at hc; cases hc) (by intro hc; cases hc)
  | claim t c ht hw ho => exact winv_claim hp h t c ht hw ho
  | points t c l r ht hw =>
    have hin : g.owner ≠ .worker t := by
      intro hx
      have := (h.mutex t).2 hx
      rw [hw] at this
      cases this
    have := winv_move h t ht (.wantStore { c with rest := r } l) g.owner (by simp [inside, hin]) (fun _ _ => Iff.rfl)
      h.mutexMain (by intro c hc; cases hc)
      (by
        intro d l' hd
        simp only [held, Option.some.injEq, Prod.mk.injEq] at hd
        obtain ⟨rfl, rfl⟩ := hd
        exact ⟨c, by rw [hw]; rfl, rfl, rfl, rfl⟩)
      (by
        intro d l' hd
        rw [hw] at hd
        simp only [held, Option.some.injEq, Prod.mk.injEq] at hd
        obtain ⟨rfl, rfl⟩ := hd
        exact ⟨_, rfl⟩) (by intro hc; cases hc)
    exact this
  | storeLock t c l ht hw ho =>
    obtain ⟨a, b⟩ := owner_free h ho t
    exact winv_move h t ht _ _ (by simp [inside]) a b (by intro d hd; cases hd)
      (by
        intro d l' hd
        simp only [held, Option.some.injEq, Prod.mk.injEq] at hd
        obtain ⟨rfl, rfl⟩ := hd
        exact ⟨c, by rw [hw]; rfl, rfl, rfl, rfl⟩)
      (by
        intro d l' hd
        rw [hw] at hd
        simp only [held, Option.some.injEq, Prod.mk.injEq] at hd
        obtain ⟨rfl, rfl⟩ := hd
        exact ⟨_, rfl⟩) (by intro hc; cases hc)
  | store t c l ht hw ho => exact winv_store hp h t c l hw ht ho
  | spurious hm =>
    exact { h with
      mutexMain := by
        have := h.mutexMain
        rw [hm] at this
        rw [← this]
        constructor <;> (intro hx; cases hx) }
  | mainLock hm ho =>
    exact { h with
      mutex := fun t => by
        rw [h.mutex t, ho]
        constructor <;> (intro hx; cases hx)
      mutexMain := by simp }
  | scan hm ho =>
    exact { h with
      mutex := fun t => by
        rw [h.mutex t, ho]
        constructor <;> (intro hx; cases hx)
      mutexMain := by
        simp only
        constructor
        · intro hx; split at hx <;> cases hx
        · intro hx; cases hx }

/-! ## The printing thread -/

/-- the curves for a list of indices -/
def withCurves (cs : Nat → Option (Curve F R)) (l : List Nat) : List (Nat × Curve F R) :=
  l.filterMap fun i => (cs i).map fun c => (i, c)

theorem mem_withCurves {cs : Nat → Option (Curve F R)} {l : List Nat} {i : Nat} {c : Curve F R} :
    (i, c) ∈ withCurves cs l ↔ i ∈ l ∧ cs i = some c := by
  unfold withCurves
  rw [List.mem_filterMap]
  constructor
  · rintro ⟨j, hj, he⟩
    cases hc : cs j with
    | none => rw [hc] at he; cases he
    | some d =>
      rw [hc] at he
      simp only [Option.map_some, Option.some.injEq, Prod.mk.injEq] at he
      obtain ⟨rfl, rfl⟩ := he
      exact ⟨hj, hc⟩
  · rintro ⟨hi, hc⟩
    exact ⟨i, hi, by rw [hc]; rfl⟩

theorem withCurves_fst {cs : Nat → Option (Curve F R)} {l : List Nat} (h : ∀ i ∈ l, (cs i).isSome = true) :
    (withCurves cs l).map Prod.fst = l := by
  induction l with
  | nil => rfl
  | cons i l ih =>
    obtain ⟨c, hc⟩ := Option.isSome_iff_exists.1 (h i List.mem_cons_self)
    have := ih (fun j hj => h j (List.mem_cons_of_mem _ hj))
    unfold withCurves at this ⊢
    rw [List.filterMap_cons, hc]
    simp [this]

theorem printed_eq (g : G F R) (n : Nat) {l : List Nat} (h : ∀ i ∈ l, (g.curves i).isSome = true) :
    l.flatMap (printed g n) = if g.generated ≠ n then sepd ((withCurves g.curves l).map entry)
      else (withCurves g.curves l).map fun e => .obj (entry e) := by
  induction l with
  | nil => split <;> rfl
  | cons i l ih =>
    obtain ⟨c, hc⟩ := Option.isSome_iff_exists.1 (h i List.mem_cons_self)
    have := ih (fun j hj => h j (List.mem_cons_of_mem _ hj))
    rw [List.flatMap_cons, this]
    have e : withCurves g.curves (i :: l) = (i, c) :: withCurves g.curves l := by
      unfold withCurves
      rw [List.filterMap_cons, hc]
      rfl
    rw [e]
    unfold printed
    split
    · simp [sepd, entry, hc]
    · simp [entry, hc]

/-- nothing relevant to the printing thread changes -/
theorem pinv_same {g g' : G F R} {es : List (Nat × Curve F R)} (h : PInv n orig g es) (h1 : g'.old = g.old)
    (h2 : ∀ i, g'.states i = .generated ↔ g.states i = .generated) (h3 : g'.curves = g.curves)
    (h4 : g'.generated = g.generated) (h5 : g'.main = g.main) (h6 : g'.out = g.out) : PInv n orig g' es := by
  constructor
  · rw [h1]; exact h.old
  · intro i hi; rw [h1] at hi; exact (h2 i).2 (h.oldStored i hi)
  · rw [h1, h3]; exact h.mem
  · exact h.nodup
  · rw [h1, h4, h5]
    intro hb
    obtain ⟨a, b⟩ := h.blocked hb
    exact ⟨fun i hi => a i ((h2 i).1 hi), b⟩
  · rw [h1, h5, h6]; exact h.open_
  · rw [h1, h4, h5, h6]; exact h.finished

theorem pinv_step (hp : Distinct p n) {g g' : G F R} {es : List (Nat × Curve F R)} (hw : WInv p n threads orig g)
    (h : PInv n orig g es) (hs : Step p n threads orig g g') : ∃ es', PInv n orig g' es' := by
  have hw' := winv_step hp hw hs
  cases hs with
  | checkLock t _ _ _ => exact ⟨es, pinv_same h rfl (fun _ => Iff.rfl) rfl rfl rfl rfl⟩
  | check t _ _ _ => exact ⟨es, pinv_same h rfl (fun _ => Iff.rfl) rfl rfl rfl rfl⟩
  | searchFail t _ _ => exact ⟨es, pinv_same h rfl (fun _ => Iff.rfl) rfl rfl rfl rfl⟩
  | searchFound t o r _ _ _ => exact ⟨es, pinv_same h rfl (fun _ => Iff.rfl) rfl rfl rfl rfl⟩
  | claimLock t c _ _ _ => exact ⟨es, pinv_same h rfl (fun _ => Iff.rfl) rfl rfl rfl rfl⟩
  | claim t c _ _ _ =>
    refine ⟨es, pinv_same h rfl (fun i => ?_) rfl rfl rfl rfl⟩
    rw [claimLoop_eq]
    simp only
    split
    · rename_i hh; rw [hh.2.2]; constructor <;> (intro x; cases x)
    · exact Iff.rfl
  | points t c l r _ _ => exact ⟨es, pinv_same h rfl (fun _ => Iff.rfl) rfl rfl rfl rfl⟩
  | storeLock t c l _ _ _ => exact ⟨es, pinv_same h rfl (fun _ => Iff.rfl) rfl rfl rfl rfl⟩
  | store t c l ht hws ho =>
    refine ⟨es, ?_⟩
    have hcount := hw'.count
    obtain ⟨idx, rfl, hs, hg⟩ := hw.held t c l (by rw [hws]; rfl)
    rw [storeLoop_eq p c n hp n _ _ idx 0 (Nat.le_refl n) hs (fun j hj => (hg j hj).1)] at hcount ⊢
    simp only at hcount ⊢
    have hold : ∀ i, g.old i = .generated → i ∉ idx := by
      intro i hi hm
      have a := h.oldStored i hi
      have b := (hg i hm).2.1
      rw [a] at b
      cases b
    constructor
    · exact h.old
    · intro i hi
      simp only [if_neg (hold i hi)]
      exact h.oldStored i hi
    · intro i d
      rw [h.mem]
      constructor
      · rintro ⟨a, b⟩
        exact ⟨a, by simp only [if_neg (hold i a)]; exact b⟩
      · rintro ⟨a, b⟩
        simp only [if_neg (hold i a)] at b
        exact ⟨a, b⟩
    · exact h.nodup
    · intro hb
      simp only at hb
      split at hb
      · cases hb
      · rename_i hx; exact absurd hb hx
    · intro hb
      simp only at hb
      apply h.open_
      intro hf
      rw [hf] at hb
      simp at hb
    · intro hb
      simp only at hb
      have hf : g.main = .finished := by
        split at hb
        · cases hb
        · exact hb
      obtain ⟨a, b, d⟩ := h.finished hf
      refine ⟨?_, b, d⟩
      have := stored_le (fun j => if j ∈ idx then PState.generated else g.states j) n
      simp only
      omega
  | spurious hm =>
    refine ⟨es, ?_⟩
    exact { old := h.old, oldStored := h.oldStored, mem := h.mem, nodup := h.nodup
            blocked := by intro hb; cases hb
            open_ := by intro _; exact h.open_ (by rw [hm]; intro hx; cases hx)
            finished := by intro hb; cases hb }
  | mainLock hm ho =>
    refine ⟨es, ?_⟩
    exact { old := h.old, oldStored := h.oldStored, mem := h.mem, nodup := h.nodup
            blocked := by intro hb; cases hb
            open_ := by intro _; exact h.open_ (by rw [hm]; intro hx; cases hx)
            finished := by intro hb; cases hb }
  | scan hm ho =>
    obtain ⟨hout, i0, hi0, hi0'⟩ := h.open_ (by rw [hm]; intro hx; cases hx)
    rw [scanLoop_eq n g n g.old g.out (Nat.le_refl n) (fun _ _ => rfl)]
    have hsome : ∀ i ∈ news g n n, (g.curves i).isSome = true := fun i hi => (hw.curveSome i).1 (mem_news.1 hi).2.2
    rw [printed_eq g n hsome]
    refine ⟨es ++ withCurves g.curves (news g n n), ?_⟩
    constructor
    · intro i
      simp only
      split
      · exact Or.inl rfl
      · exact h.old i
    · intro i hi
      simp only at hi ⊢
      split at hi
      · rename_i hh; exact (mem_news.1 hh).2.2
      · exact h.oldStored i hi
    · intro i d
      rw [List.mem_append, h.mem, mem_withCurves]
      simp only
      constructor
      · rintro (⟨a, b⟩ | ⟨a, b⟩)
        · exact ⟨by split <;> first | rfl | exact a, b⟩
        · exact ⟨by rw [if_pos a], b⟩
      · rintro ⟨a, b⟩
        by_cases hn : i ∈ news g n n
        · exact Or.inr ⟨hn, b⟩
        · rw [if_neg hn] at a
          exact Or.inl ⟨a, b⟩
    · rw [List.map_append, withCurves_fst hsome, List.nodup_append]
      refine ⟨h.nodup, news_nodup g n n, ?_⟩
      intro a ha b hb hab
      subst hab
      obtain ⟨⟨i, d⟩, he, rfl⟩ := List.mem_map.1 ha
      exact (mem_news.1 hb).2.1 ((h.mem i d).1 he).1
    · intro hb
      simp only at hb
      have hne : g.generated ≠ n := by
        intro hx; rw [if_pos hx] at hb; cases hb
      refine ⟨?_, hne⟩
      intro i hi
      simp only at hi ⊢
      split
      · rfl
      · rename_i hn
        by_contra hc
        obtain ⟨d, hd⟩ := Option.isSome_iff_exists.1 ((hw.curveSome i).1 hi)
        exact hn (mem_news.2 ⟨(hw.curve i d hd).1, hc, hi⟩)
    · intro hb
      simp only at hb
      have hne : g.generated ≠ n := by
        intro hx; rw [if_pos hx] at hb; exact hb rfl
      rw [if_pos hne]
      constructor
      · simp only [hout, List.map_append]
        rw [← List.cons_append, sepd_append]
        rfl
      · obtain ⟨i, hi, hi'⟩ := stored_not_full (s := g.states) (n := n) (by rw [← hw.count]; exact hne)
        refine ⟨i, hi, ?_⟩
        simp only
        rw [if_neg (fun hn => hi' (mem_news.1 hn).2.2)]
        exact fun hx => hi' (h.oldStored i hx)
    · intro hb
      simp only at hb
      have he : g.generated = n := by
        by_contra hx; rw [if_neg hx] at hb; cases hb
      have hall := stored_full (s := g.states) (n := n) (by rw [← hw.count]; exact he)
      refine ⟨he, ?_, es, withCurves g.curves (news g n n), rfl, ?_, ?_⟩
      · intro i hi
        simp only
        split
        · rfl
        · rename_i hn
          by_contra hc
          exact hn (mem_news.2 ⟨hi, hc, hall i hi⟩)
      · intro hnil
        have hm : i0 ∈ news g n n := mem_news.2 ⟨hi0, hi0', hall i0 hi0⟩
        rw [← withCurves_fst hsome, hnil] at hm
        cases hm
      · simp only [hout]
        rw [if_neg (by simpa using he)]

theorem inv_initial (hn : 0 < n) : WInv p n threads orig (initial orig) ∧ PInv n orig (initial orig) [] := by
  constructor
  · constructor
    · intro t _; rfl
    · intro t; simp [initial, inside]
    · simp [initial]
    · intro i; simp [initial]
    · intro i c hc; simp [initial] at hc
    · intro t c hc; simp [initial, claiming] at hc
    · intro t c l hc; simp [initial, held] at hc
    · intro t t' c c' l l' _ hc; simp [initial, held] at hc
    · intro i hi; simp [initial] at hi
    · simp [initial, stored]
    · intro t ht; simp [initial] at ht
  · constructor
    · intro i; exact Or.inr rfl
    · intro i hi; simp [initial] at hi
    · intro i c; simp [initial]
    · simp
    · intro _
      refine ⟨fun i hi => by simp [initial] at hi, ?_⟩
      simp only [initial]
      omega
    · intro _; exact ⟨by simp [initial, sepd], 0, hn, by simp [initial]⟩
    · intro hf; simp [initial] at hf

theorem inv_reachable (hp : Distinct p n) (hn : 0 < n) {g : G F R} (hr : Reachable p n threads orig g) :
    WInv p n threads orig g ∧ ∃ es, PInv n orig g es := by
  induction hr with
  | initial =>
    have := inv_initial (p := p) (threads := threads) (orig := orig) hn
    exact ⟨this.1, [], this.2⟩
  | step _ hs ih =>
    obtain ⟨hw, es, he⟩ := ih
    exact ⟨winv_step hp hw hs, pinv_step hp hw he hs⟩

end Ecgen.Invalid
