import Verif.InvalidRun.Curves
import Verif.InvalidRun.Primes
import Verif.Invalid.CurvesProps

/-!
# The loop over the primes
-/

namespace Ecgen.InvalidRun

open Output Output.Spec Cli Whole Json

/-! ## The primes wanted -/

theorem map_getD (primes : List Nat) : (List.range primes.length).map (fun i => primes.getD i 0) = primes := by
  apply List.ext_getElem
  · simp
  · intro i h1 h2
    simp [List.getD, h2]

theorem wanted_sublist (primes : List Nat) (got : Nat → Bool) (o : Nat) : (wantedPrimes primes got o).Sublist primes := by
  conv => rhs; rw [← map_getD primes]
  exact (List.filter_sublist).map _

theorem mem_wanted (primes : List Nat) (got : Nat → Bool) (o i : Nat) (hi : i < primes.length) (hw : wanted primes got o i = true) :
    primes.getD i 0 ∈ wantedPrimes primes got o :=
  List.mem_map.2 ⟨i, List.mem_filter.2 ⟨List.mem_range.2 hi, hw⟩, rfl⟩

theorem wanted_divides (primes : List Nat) (got : Nat → Bool) (o q : Nat) (h : q ∈ wantedPrimes primes got o) : divides q o = true := by
  obtain ⟨i, hi, rfl⟩ := List.mem_map.1 h
  have := (List.mem_filter.1 hi).2
  unfold wanted at this
  rw [Bool.and_eq_true] at this
  exact this.2

theorem divides_small {q o : Nat} (h : q < 2 ^ 63) (hd : divides q o = true) : q ∣ o := by
  unfold divides Invalid.toS at hd
  rw [if_pos h, Int.natAbs_natCast, decide_eq_true_eq] at hd
  exact Nat.dvd_of_mod_eq_zero hd

/-- no prime is read as 1 or -1 -/
theorem divides_one {q : Nat} (h : q.Prime) : divides q 1 = false := by
  unfold divides
  rw [decide_eq_false_iff_not]
  intro h1
  have h2 : (Invalid.toS q).natAbs = 1 := by
    have := Nat.dvd_of_mod_eq_zero h1
    exact Nat.dvd_one.1 this
  unfold Invalid.toS at h2
  split at h2
  · rw [Int.natAbs_natCast] at h2
    exact Nat.not_prime_one (h2 ▸ h)
  · have : q = 2 ^ 64 - 1 ∨ q = 2 ^ 64 + 1 := by omega
    rcases this with rfl | rfl
    · revert h; norm_num
    · revert h; norm_num

/-! ## One round -/

/-- a curve that was found -/
structure Found (c : Config) (T : Nat → Pick) (f : Fld) (a : Elt) (primes ws : List Nat) (o : Nat) (v : Output.Curve) : Prop where
  curve : ∃ x, Inv (invalid c) T 9 x ∧ outCurve x = some v ∧ x.field = some f ∧ x.a = some a ∧ x.order = some o ∧ OnePoint x
  listed : ∀ q ∈ ws, q ∣ o → ∃ r ∈ primes, r ≤ q ∧ HasPoint (curveV v) r

theorem round_cases {P : Pari} (hP : P.Ok) {c : Config} {T : Nat → Pick} (hT : TapeOk (original c) T) {f : Fld} {a : Elt} (hb : Base c T f a)
    {primes : List Nat} (hs : primes.Pairwise (· < ·)) (hp : ∀ q ∈ primes, q.Prime) (fuel : Nat) (st : St) (hw : Ready T f a st.w) :
    round P c primes f a fuel st = .running ∨
    (∃ w, Ready T f a w ∧ round P c primes f a fuel st = .done { st with w := w }) ∨
    ∃ w o v, Ready T f a w ∧ Found c T f a primes (wantedPrimes primes st.got o) o v ∧
      round P c primes f a fuel st = .done (save primes o v primes.length { st with w := w }) := by
  unfold round
  have hdrop : ∀ w, Ready T f a w → Ready T f a (dropped w) := fun w h => ready_same h ⟨rfl, rfl, rfl, rfl⟩ h.2.2.2.2.1 rfl
  rcases phase_order hP hT hb fuel st.w hw with h1 | ⟨r1, w1, h1, hw1⟩
  · simp only [h1]
    exact Or.inl trivial
  · obtain ⟨E, hE, ho, -⟩ := hw1.2.1.order (by omega)
    simp only [h1, ho]
    by_cases hl : (wantedPrimes primes st.got (Nat.card E.Pt)).length > 0
    · rw [if_pos hl]
      rcases phase_gens hP hT fuel w1 hw1 with h2 | ⟨r2, w2, h2, hw2, h3⟩
      · simp only [h2]
        exact Or.inl trivial
      · simp only [h2]
        by_cases hr : r2 = 0
        · rw [if_pos hr]
          exact Or.inr (Or.inl ⟨_, hdrop _ hw2, rfl⟩)
        · rw [if_neg hr]
          obtain ⟨-, h3, h4⟩ := h3.resolve_left hr
          obtain ⟨E', l, h5, h6, -⟩ := h3.gens (by omega)
          obtain ⟨E'', h7, h8, -⟩ := h3.order (by omega)
          rw [h5] at h7
          cases h7
          have hcard : Nat.card E'.Pt = Nat.card E.Pt := by
            rw [h4, ho] at h8
            exact (Option.some.inj h8).symm
          obtain ⟨q, hq⟩ := List.exists_mem_of_length_pos hl
          have hne : l ≠ [] := by
            refine gens_ne h3 (fun E0 h0 h1 => ?_) h6
            rw [h5] at h0
            cases h0
            have hd := wanted_divides _ _ _ _ hq
            rw [← hcard, h1, divides_one (hp q ((wanted_sublist _ _ _).subset hq))] at hd
            cases hd
          have hwp : ∀ q ∈ wantedPrimes primes st.got (Nat.card E.Pt), q.Prime := fun q hq => hp q ((wanted_sublist _ _ _).subset hq)
          rcases phase_points (P := P) (c := c) (wantedPrimes primes st.got (Nat.card E.Pt)) fuel w2 hw2.2.2.2.2.2 E' l h5 h6 hne
            with h9 | ⟨r3, w3, h9, e1, e2, e3⟩
          · simp only [h9]
            exact Or.inl trivial
          · obtain ⟨v, hv⟩ := invalid_printed h3 h6 _ hwp
            have ho3 : w3.cur.order = some (Nat.card E.Pt) := by rw [e1]; exact h4.trans ho
            have hv3 : outCurve w3.cur = some v := by rw [e1]; exact hv
            simp only [h9, ho3, hv3]
            refine Or.inr (Or.inr ⟨{ w3 with cur := { field := some f, a := some a } }, Nat.card E.Pt, v, ⟨rfl, rfl, rfl, rfl, e2.trans hw2.2.2.2.2.1, e3⟩, ⟨⟨w3.cur, ?_, hv3, ?_, ?_, ho3, ?_⟩, ?_⟩, rfl⟩)
            · rw [e1]; exact invalid_complete h3 h6 _
            · rw [e1]; exact hw2.2.2.1
            · rw [e1]; exact hw2.2.2.2.1
            · rw [e1]; exact invalid_one h3 h6 _
            · intro q hq hd
              obtain ⟨r, h10, h11⟩ := trial_listed h3 h6 _ (hs.sublist (wanted_sublist _ _ _)) hv hq (hwp q hq) (hcard ▸ hd)
              exact ⟨r, (wanted_sublist _ _ _).subset h10, h11⟩
    · rw [if_neg hl]
      exact Or.inr (Or.inl ⟨_, hdrop _ hw1.2.2, rfl⟩)

/-! ## The loop -/

/-- a curve stored for a prime -/
structure Stored (c : Config) (T : Nat → Pick) (f : Fld) (a : Elt) (primes : List Nat) (q : Nat) (v : Output.Curve) : Prop where
  curve : ∃ x o, Inv (invalid c) T 9 x ∧ outCurve x = some v ∧ x.field = some f ∧ x.a = some a ∧ x.order = some o ∧ divides q o = true ∧
    (q ∣ o → ∃ r ∈ primes, r ≤ q ∧ HasPoint (curveV v) r) ∧ OnePoint x

/-- what is stored and printed so far -/
structure SInv (c : Config) (T : Nat → Pick) (f : Fld) (a : Elt) (primes : List Nat) (v0 : Output.Curve) (st : St) (es : List (Nat × Output.Curve)) : Prop where
  count : st.count = es.length
  mem : ∀ i, st.got i = true ↔ i ∈ es.map Prod.fst
  nodup : (es.map Prod.fst).Nodup
  good : ∀ e ∈ es, e.1 < primes.length ∧ Stored c T f a primes (primes.getD e.1 0) e.2
  out : st.out = .open :: (if es.length < primes.length then Invalid.sepd (v0 :: es.map Prod.snd)
    else Invalid.sepd ((v0 :: es.map Prod.snd).dropLast) ++ [.obj ((v0 :: es.map Prod.snd).getLast (by simp))])

theorem index_room {es : List (Nat × Output.Curve)} {n i : Nat} (hnd : (es.map Prod.fst).Nodup) (hlt : ∀ e ∈ es, e.1 < n)
    (hi : i < n) (hni : i ∉ es.map Prod.fst) : es.length < n := by
  have hnd' : (i :: es.map Prod.fst).Nodup := List.nodup_cons.2 ⟨hni, hnd⟩
  have hsub : (i :: es.map Prod.fst) ⊆ List.range n := by
    intro x hx
    rw [List.mem_range]
    rcases List.mem_cons.1 hx with rfl | hx
    · exact hi
    · obtain ⟨e, he, rfl⟩ := List.mem_map.1 hx
      exact hlt e he
  have := (List.subperm_of_subset hnd' hsub).length_le
  simp at this
  omega

theorem sinv_add {c : Config} {T : Nat → Pick} {f : Fld} {a : Elt} {primes : List Nat} {v0 : Output.Curve} {st : St} {es : List (Nat × Output.Curve)}
    (h : SInv c T f a primes v0 st es) {i : Nat} {v : Output.Curve} (hi : i < primes.length) (hn : st.got i = false)
    (hg : Stored c T f a primes (primes.getD i 0) v) :
    SInv c T f a primes v0
      { st with
        got := fun j => if j = i then true else st.got j
        count := st.count + 1
        out := st.out ++ .obj v :: (if st.count ≠ primes.length - 1 then [.comma] else []) } (es ++ [(i, v)]) := by
  have hni : i ∉ es.map Prod.fst := by
    intro hm
    rw [(h.mem i).2 hm] at hn
    cases hn
  have hroom := index_room h.nodup (fun e he => (h.good e he).1) hi hni
  constructor
  · simp [h.count]
  · intro j
    rw [List.map_append, List.mem_append, ← h.mem]
    by_cases hj : j = i <;> simp [hj]
  · rw [List.map_append, List.nodup_append]
    refine ⟨h.nodup, by simp, ?_⟩
    intro a ha b hb
    simp only [List.map_cons, List.map_nil, List.mem_singleton] at hb
    subst hb
    rintro rfl
    exact hni ha
  · intro e he
    rcases List.mem_append.1 he with he | he
    · exact h.good e he
    · rw [List.mem_singleton] at he
      subst he
      exact ⟨hi, hg⟩
  · simp only [h.out, if_pos hroom, h.count]
    by_cases hl : es.length = primes.length - 1
    · rw [if_neg (by simpa using hl), if_neg (by simp; omega)]
      have e : (v0 :: (es ++ [(i, v)]).map Prod.snd) = (v0 :: es.map Prod.snd) ++ [v] := by simp
      simp only [e, List.dropLast_concat, List.getLast_append_singleton]
      simp
    · rw [if_pos hl, if_pos (by simp; omega)]
      simp [Invalid.sepd]

theorem sinv_save {c : Config} {T : Nat → Pick} {f : Fld} {a : Elt} {primes : List Nat} {v0 : Output.Curve} {o : Nat} {v : Output.Curve} (i : Nat) :
    ∀ {st : St} {es : List (Nat × Output.Curve)}, SInv c T f a primes v0 st es → i ≤ primes.length →
    Found c T f a primes (wantedPrimes primes st.got o) o v → (save primes o v i st).w = st.w ∧ ∃ es', SInv c T f a primes v0 (save primes o v i st) es' := by
  induction i with
  | zero => intro st es h _ _; exact ⟨rfl, es, h⟩
  | succ i ih =>
    intro st es h hi hf
    unfold save
    split
    · rename_i hw
      have hw' := hw
      unfold wanted at hw'
      rw [Bool.and_eq_true, Bool.not_eq_true'] at hw'
      have hst : Stored c T f a primes (primes.getD i 0) v := by
        obtain ⟨x, h1, h2, h3, h4, h5, h6⟩ := hf.curve
        exact ⟨x, o, h1, h2, h3, h4, h5, hw'.2, fun hd => hf.listed _ (mem_wanted primes st.got o i (by omega) hw) hd, h6⟩
      have := ih (sinv_add h (by omega) hw'.1 hst) (by omega) ⟨hf.curve, fun q hq => hf.listed q ?_⟩
      · exact this
      · obtain ⟨j, hj, rfl⟩ := List.mem_map.1 hq
        obtain ⟨h1, h2⟩ := List.mem_filter.1 hj
        refine mem_wanted _ _ _ _ (List.mem_range.1 h1) ?_
        unfold wanted at h2 ⊢
        by_cases hji : j = i
        · simp [hji] at h2
        · simpa [hji] using h2
    · exact ih h (by omega) hf

theorem search_cases {P : Pari} (hP : P.Ok) {c : Config} {T : Nat → Pick} (hT : TapeOk (original c) T) {f : Fld} {a : Elt} (hb : Base c T f a)
    {primes : List Nat} (hs : primes.Pairwise (· < ·)) (hp : ∀ q ∈ primes, q.Prime) (v0 : Output.Curve) (fuel : Nat) : ∀ (k : Nat) (st : St) (es : List (Nat × Output.Curve)),
    Ready T f a st.w → SInv c T f a primes v0 st es →
    search P c primes f a fuel k st = .running ∨
    ∃ st' es', search P c primes f a fuel k st = .done st' ∧ SInv c T f a primes v0 st' es' ∧ primes.length ≤ es'.length := by
  intro k
  induction k with
  | zero =>
    intro st es _ h
    unfold search
    by_cases hc : st.count < primes.length
    · rw [if_pos hc]; exact Or.inl rfl
    · rw [if_neg hc]; exact Or.inr ⟨st, es, rfl, h, by rw [← h.count]; omega⟩
  | succ k ih =>
    intro st es hw h
    unfold search
    by_cases hc : st.count < primes.length
    · rw [if_pos hc]
      rcases round_cases hP hT hb hs hp fuel st hw with h1 | ⟨w, h1, h2⟩ | ⟨w, o, v, h1, h2, h3⟩
      · simp only [h1]; exact Or.inl trivial
      · simp only [h2]
        exact ih _ es h1 ⟨h.count, h.mem, h.nodup, h.good, h.out⟩
      · simp only [h3]
        obtain ⟨e, es', h4⟩ := sinv_save (o := o) (v := v) primes.length (st := { st with w := w }) (es := es) ⟨h.count, h.mem, h.nodup, h.good, h.out⟩
          (Nat.le_refl _) h2
        exact ih _ es' (by rw [e]; exact h1) h4
    · rw [if_neg hc]; exact Or.inr ⟨st, es, rfl, h, by rw [← h.count]; omega⟩

end Ecgen.InvalidRun
