import Verif.Invalid.CurvesProps

/-!
# Generation of invalid curves with several threads: loops and invariant
-/

namespace Ecgen.Invalid

open Json

variable {F R : Type}

/-! ## The loops -/

/-- the indices claimed for order `o`, descending -/
def claims (p : Nat → Nat) (o : Nat) (s : Nat → PState) (n : Nat) : List Nat :=
  (List.range n).reverse.filter fun j => decide (o % p j = 0 ∧ s j = .free)

theorem claims_succ (p : Nat → Nat) (o : Nat) (s : Nat → PState) (n : Nat) :
    claims p o s (n + 1) = if o % p n = 0 ∧ s n = .free then n :: claims p o s n else claims p o s n := by
  unfold claims
  rw [List.range_succ, List.reverse_append, List.reverse_singleton, List.singleton_append, List.filter_cons]
  by_cases h : o % p n = 0 ∧ s n = .free
  · rw [if_pos h, if_pos (by simpa using h)]
  · rw [if_neg h, if_neg (by simpa using h)]

theorem mem_claims {p : Nat → Nat} {o : Nat} {s : Nat → PState} {n j : Nat} :
    j ∈ claims p o s n ↔ j < n ∧ o % p j = 0 ∧ s j = .free := by
  unfold claims
  rw [List.mem_filter, List.mem_reverse, List.mem_range, decide_eq_true_iff]

theorem claims_pairwise (p : Nat → Nat) (o : Nat) (s : Nat → PState) (n : Nat) : (claims p o s n).Pairwise (· > ·) := by
  unfold claims
  apply List.Pairwise.filter
  rw [List.pairwise_reverse]
  exact List.pairwise_lt_range

theorem claimLoop_eq (p : Nat → Nat) (o : Nat) (i : Nat) : ∀ (s : Nat → PState) (l : List Nat),
    claimLoop p o i s l =
      ((fun j => if j < i ∧ o % p j = 0 ∧ s j = .free then .generating else s j), l ++ (claims p o s i).map p) := by
  induction i with
  | zero => intro s l; simp [claimLoop, claims]
  | succ i ih =>
    intro s l
    unfold claimLoop
    rw [claims_succ]
    split
    · rename_i h
      rw [ih]
      congr 1
      · funext j
        by_cases hj : j = i
        · subst hj
          simp [upd, h]
        · simp only [upd, if_neg hj]
          by_cases h2 : j < i
          · simp [h2, Nat.lt_succ_of_lt h2]
          · have : ¬ j < i + 1 := by omega
            simp [h2, this]
      · have e : claims p o (upd s i .generating) i = claims p o s i := by
          unfold claims
          apply List.filter_congr
          intro j hj
          rw [List.mem_reverse, List.mem_range] at hj
          simp [upd, Nat.ne_of_lt hj]
        rw [e]
        simp
    · rename_i h
      rw [ih]
      congr 1
      funext j
      by_cases hj : j = i
      · subst hj
        simp only [Nat.lt_irrefl, false_and, if_false, Nat.lt_succ_self, true_and]
        rw [if_neg h]
      · by_cases h2 : j < i
        · simp [h2, Nat.lt_succ_of_lt h2]
        · have : ¬ j < i + 1 := by omega
          simp [h2, this]

theorem storeLoop_eq (p : Nat → Nat) (c : Curve F R) (n : Nat) (hp : ∀ i j, i < n → j < n → p i = p j → i = j) (i : Nat) :
    ∀ (s : Nat → PState) (cs : Nat → Option (Curve F R)) (idx : List Nat) (count : Nat), i ≤ n → idx.Pairwise (· > ·) →
    (∀ j ∈ idx, j < i) →
    storeLoop p c i s cs (idx.map p) count =
      ((fun j => if j ∈ idx then .generated else s j), (fun j => if j ∈ idx then some c else cs j), count + idx.length) := by
  induction i with
  | zero =>
    intro s cs idx count _ _ hlt
    cases idx with
    | nil => simp [storeLoop]
    | cons k ks => exact absurd (hlt k List.mem_cons_self) (by omega)
  | succ i ih =>
    intro s cs idx count hi hs hlt
    cases idx with
    | nil =>
      rw [List.map_nil, storeLoop]
      exact ih s cs [] count (by omega) hs (by simp)
    | cons k ks =>
      rw [List.map_cons, storeLoop]
      have hk := hlt k List.mem_cons_self
      rw [List.pairwise_cons] at hs
      by_cases he : p k = p i
      · rw [if_pos he]
        have hki : k = i := hp k i (by omega) (by omega) he
        subst hki
        rw [ih _ _ ks _ (by omega) hs.2 (fun j hj => hs.1 j hj)]
        refine Prod.ext ?_ (Prod.ext ?_ ?_)
        · funext j
          by_cases hj : j ∈ ks
          · simp [hj]
          · simp only [hj, if_false, upd, List.mem_cons, or_false]
        · funext j
          by_cases hj : j ∈ ks
          · simp [hj]
          · simp only [hj, if_false, upd, List.mem_cons, or_false]
        · simp; omega
      · rw [if_neg he]
        have hne : k ≠ i := fun h => he (by rw [h])
        have := ih s cs (k :: ks) count (by omega) (List.pairwise_cons.2 hs) (by
          intro j hj
          rcases List.mem_cons.1 hj with rfl | hj
          · omega
          · have := hs.1 j hj; omega)
        rw [List.map_cons] at this
        exact this

/-- the indices with something new to print, from `n - left` on -/
def news (g : G F R) (n left : Nat) : List Nat :=
  (List.range' (n - left) left).filter fun i => decide (g.old i ≠ g.states i ∧ g.states i = .generated)

/-- what is printed for an index -/
def printed (g : G F R) (n i : Nat) : List (Tok (Entry F R)) :=
  .obj (some i, g.curves i) :: (if g.generated ≠ n then [.comma] else [])

theorem mem_news {g : G F R} {n i : Nat} : i ∈ news g n n ↔ i < n ∧ g.old i ≠ .generated ∧ g.states i = .generated := by
  unfold news
  rw [List.mem_filter, List.mem_range', decide_eq_true_iff]
  constructor
  · rintro ⟨⟨a, h, rfl⟩, h1, h2⟩
    exact ⟨by omega, by rw [← h2]; exact h1, h2⟩
  · rintro ⟨h, h1, h2⟩
    exact ⟨⟨i, h, by omega⟩, by rw [h2]; exact h1, h2⟩

theorem news_nodup (g : G F R) (n left : Nat) : (news g n left).Nodup := List.Nodup.filter _ List.nodup_range'

theorem scanLoop_eq (n : Nat) (g : G F R) (left : Nat) : ∀ (old : Nat → PState) (out : List (Tok (Entry F R))), left ≤ n →
    (∀ i, n - left ≤ i → old i = g.old i) →
    scanLoop n g left old out =
      ((fun i => if i ∈ news g n left then .generated else old i), out ++ (news g n left).flatMap (printed g n)) := by
  induction left with
  | zero => intro old out _ _; simp [scanLoop, news]
  | succ left ih =>
    intro old out hl ho
    have hr : List.range' (n - (left + 1)) (left + 1) = (n - (left + 1)) :: List.range' (n - left) left := by
      rw [List.range'_succ]
      congr 2
      omega
    have hn : news g n (left + 1) =
        if g.old (n - (left + 1)) ≠ g.states (n - (left + 1)) ∧ g.states (n - (left + 1)) = .generated
        then (n - (left + 1)) :: news g n left else news g n left := by
      unfold news
      rw [hr, List.filter_cons]
      by_cases h : g.old (n - (left + 1)) ≠ g.states (n - (left + 1)) ∧ g.states (n - (left + 1)) = .generated
      · rw [if_pos h, if_pos (by simpa using h)]
      · rw [if_neg h, if_neg (by simpa using h)]
    unfold scanLoop
    simp only [ho (n - (left + 1)) (Nat.le_refl _)]
    rw [hn]
    split
    · rename_i h
      rw [ih _ _ (by omega) (by
        intro i hi
        unfold upd
        rw [if_neg (by omega)]
        exact ho i (by omega))]
      refine Prod.ext ?_ ?_
      · funext j
        by_cases hj : j ∈ news g n left
        · simp [hj]
        · simp only [hj, if_false, upd, List.mem_cons, or_false, h.2]
      · simp [printed]
    · exact ih old out (by omega) (fun i hi => ho i (by omega))

/-! ## The invariant -/

/-- the curve and the primes a worker has claimed -/
def held : Worker F R → Option (Curve F R × List Nat)
  | .points c l => some (c, l)
  | .wantStore c l => some (c, l)
  | .inStore c l => some (c, l)
  | _ => none

/-- the curve a worker is about to claim primes for -/
def claiming : Worker F R → Option (Curve F R)
  | .wantClaim c => some c
  | .inClaim c => some c
  | _ => none

/-- inside a critical section -/
def inside : Worker F R → Bool
  | .inCheck => true
  | .inClaim _ => true
  | .inStore _ _ => true
  | _ => false

open Classical in
/-- indices with a stored curve -/
noncomputable def stored (s : Nat → PState) (n : Nat) : Finset Nat := (Finset.range n).filter fun i => s i = .generated

/-- invariant of the shared data and the workers -/
structure WInv (p : Nat → Nat) (n threads : Nat) (orig : Curve F R) (g : G F R) : Prop where
  idle : ∀ t, threads ≤ t → g.workers t = .wantCheck
  mutex : ∀ t, inside (g.workers t) = true ↔ g.owner = .worker t
  mutexMain : g.main = .scanning ↔ g.owner = .main
  curveSome : ∀ i, g.states i = .generated ↔ (g.curves i).isSome = true
  curve : ∀ i c, g.curves i = some c → i < n ∧ Serves orig (p i) c
  claiming : ∀ t c, claiming (g.workers t) = some c → c.field = orig.field ∧ c.a = orig.a
  held : ∀ t c l, held (g.workers t) = some (c, l) → ∃ idx : List Nat, l = idx.map p ∧ idx.Pairwise (· > ·) ∧
    (∀ i ∈ idx, i < n ∧ g.states i = .generating ∧ Serves orig (p i) c)
  disjoint : ∀ t t' c c' l l', t ≠ t' → Invalid.held (g.workers t) = some (c, l) → Invalid.held (g.workers t') = some (c', l') →
    ∀ q ∈ l, q ∉ l'
  cover : ∀ i, g.states i = .generating → ∃ t c l, t < threads ∧ Invalid.held (g.workers t) = some (c, l) ∧ i < n ∧ p i ∈ l
  count : g.generated = (stored g.states n).card
  exited : ∀ t, g.workers t = .exited → g.generated = n

/-- invariant of the printing thread; `es` are the printed curves -/
structure PInv (n : Nat) (orig : Curve F R) (g : G F R) (es : List (Nat × Curve F R)) : Prop where
  old : ∀ i, g.old i = .generated ∨ g.old i = .free
  oldStored : ∀ i, g.old i = .generated → g.states i = .generated
  mem : ∀ i c, (i, c) ∈ es ↔ g.old i = .generated ∧ g.curves i = some c
  nodup : (es.map Prod.fst).Nodup
  blocked : g.main = .blocked → (∀ i, g.states i = .generated → g.old i = .generated) ∧ g.generated ≠ n
  open_ : g.main ≠ .finished → g.out = .open :: sepd ((none, some orig) :: es.map entry) ∧ ∃ i, i < n ∧ g.old i ≠ .generated
  finished : g.main = .finished → g.generated = n ∧ (∀ i, i < n → g.old i = .generated) ∧
    ∃ es1 es2, es = es1 ++ es2 ∧ es2 ≠ [] ∧
      g.out = .open :: sepd ((none, some orig) :: es1.map entry) ++ es2.map fun e => .obj (entry e)

end Ecgen.Invalid
