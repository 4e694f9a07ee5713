import Verif.InvalidRun.ThreadedInv
import Verif.InvalidRun.Small
import Verif.InvalidRun.Short

/-!
# What a run of `--invalid` with several threads prints (C95) and that nothing undefined happens (C96)
-/

namespace Ecgen.InvalidRun

open Output Output.Spec Cli Whole Json

/-- an invalid curve for the prime `q` of `qs` and the curve `v0`, from one of several threads: as `Serves`, but the point listed has the order `q` or
that of a larger prime of `qs`, since a worker goes through the primes downwards -/
def ServesThreaded (c : Config) (v0 : CurveV) (qs : List Nat) (q : Nat) (v : CurveV) : Prop :=
  Asked (invalid c) v ∧ v.field = v0.field ∧ v.a = v0.a ∧ q ∣ v.order ∧ ∃ r ∈ qs, q ≤ r ∧ r ∣ v.order ∧ HasPoint v r

/-- everything a run with threads starts from -/
theorem run_sound {P : Pari} (hP : P.Ok) {np : Nat → Nat} (hnp : Invalid.NextSpec np) {c : Config} (hr : Meant c.bits c.invalidPrimes) {w : W}
    (hT : TapeOk (original c) w.tape) (hu : w.ub = false) {w0 : W} {qs : List Nat} {s : TSt} (h : ThreadedRun P np c w w0 qs s)
    (hsm : ∀ t, c.invalidPrimes = some t → Number t → Invalid.value t ≤ 2 ^ 63 - 25) :
    ∃ v0 f a d, outCurve w0.cur = some v0 ∧ FirstCurve c w.tape v0 d.order f a ∧ Selected c.invalidPrimes d.order qs ∧ Sound P c w.tape f a qs d ∧ d.rest = w0 ∧
      Invalid.Reachable (fun i => qs.getD i 0) qs.length c.threads d s.g ∧ TInv c w.tape f a qs s ∧ taken w0 = some d := by
  obtain ⟨fuel, r, _, v0, d, f, a, _, _, h1, hr0, hv0, htk, hf, ha, hq, hne, hre⟩ := h
  rcases phase_original hP hT fuel w rfl hu with h2 | ⟨r', w', h2, h3⟩
  · rw [h1] at h2; cases h2
  · rw [h1] at h2
    cases h2
    obtain ⟨-, -, hi, ht, hub⟩ := h3.resolve_right hr0
    obtain ⟨f1, a1, b, e1, e2, e3, e4, -⟩ := hi.crv (by omega)
    rw [hf] at e1
    cases e1
    rw [ha] at e2
    cases e2
    obtain ⟨E, e5, ho, -⟩ := hi.order (by omega)
    rw [e4] at e5
    cases e5
    obtain ⟨f', e6, hfa, hcf⟩ := hi.field (by omega)
    rw [hf] at e6
    cases e6
    obtain ⟨f', a', e6, e7, hca⟩ := hi.a (by omega) rfl
    rw [hf] at e6
    cases e6
    rw [ha] at e7
    cases e7
    rw [taken_of hf ha ho] at htk
    cases htk
    obtain ⟨hb1, -, hb2⟩ := order_bound hfa (Crv.mk f a b).eqn
    have hsel := selected hnp hr hb1 hb2 hq
    obtain ⟨hs, hp⟩ := selected_primes hr hsel
    have h63 := selected_small hr hb1 hb2 hsm hsel
    have hS : Sound P c w.tape f a qs ⟨.inl f, .inr a, Nat.card (Crv.mk f a b).Pt, w0⟩ := ⟨hP, hT, ⟨hfa, hcf, hca⟩, hs, hp, h63, by omega, rfl, rfl⟩
    exact ⟨v0, f, a, _, hv0, ⟨w0.cur, original_complete hi, hv0, ho, hf, ha⟩, hsel, hS, rfl, (treach_inv hS ht hub hre).1, (treach_inv hS ht hub hre).2, taken_of hf ha ho⟩

theorem finished_printed {c : Config} {T : Nat → Pick} {f : Fld} {a : Elt} {d : TCurve} {l : List Nat} (h : Finished c T f a d l) (hp : ∀ q ∈ l, q.Prime) :
    ∃ v, outCurve d.rest.cur = some v := by
  obtain ⟨x, E, gs, h1, h2, -, h3, -⟩ := h.curve
  rw [h3]
  exact invalid_printed h1 h2 l hp

/-- **C96** In a run of `--invalid` with any number of threads, whatever the schedule, no thread does anything undefined: no member of a curve is used before
it is set, no array of length zero is declared, and every curve that is stored can be printed. -/
theorem threaded_run_defined (P : Pari) (hP : P.Ok) (np : Nat → Nat) (hnp : Invalid.NextSpec np) (c : Config) (hr : Meant c.bits c.invalidPrimes) (w : W)
    (hT : TapeOk (original c) w.tape) (hu : w.ub = false) (w0 : W) (qs : List Nat) (s : TSt) (h : ThreadedRun P np c w w0 qs s)
    (hsm : ∀ t, c.invalidPrimes = some t → Number t → Invalid.value t ≤ 2 ^ 63 - 25) : ¬ Undefined P c qs s := by
  obtain ⟨v0, f, a, d, -, -, -, hS, -, -, hi, -⟩ := run_sound hP hnp hr hT hu h hsm
  rintro (⟨t, pos, fuel, -, -, hx⟩ | ⟨t, pos, fuel, e, l, -, hwk, hx⟩ | ⟨i, e, he, hx⟩)
  · rcases hunt_cases hP hT hS.base hS.small fuel _ (ready_unrolled (hi.ready t) pos) with h1 | ⟨_, -, h1⟩ | ⟨_, _, h1, -⟩ <;> rw [hx] at h1 <;> cases h1
  · have hc := worker_at (hi.worker t) hwk
    rcases trial_cases (P := P) hS.prime l fuel hc pos with h1 | ⟨_, _, h1, -⟩ <;> rw [hx] at h1 <;> cases h1
  · obtain ⟨l, hl, -, -, hm⟩ := hi.stored i e he
    obtain ⟨v, hv⟩ := finished_printed hl fun q hq => hS.prime q (hm q hq).1
    rw [hx] at hv
    cases hv

/-! ## What is printed -/

theorem stored_value {P : Pari} {c : Config} {T : Nat → Pick} {f : Fld} {a : Elt} {qs : List Nat} {orig : TCurve} (hS : Sound P c T f a qs orig)
    {s : TSt} (hi : TInv c T f a qs s) {i : Nat} {d : TCurve} (hd : s.g.curves i = some d) {v0 : Output.Curve} {o : Nat} (h0 : FirstCurve c T v0 o f a) :
    ∃ v, outCurve d.rest.cur = some v ∧ Inv (invalid c) T 9 d.rest.cur ∧ OnePoint d.rest.cur ∧ ServesThreaded c (curveV v0) qs (qs.getD i 0) (curveV v) := by
  obtain ⟨l, hl, hm, hpw, hall⟩ := hi.stored i d hd
  have hp : ∀ q ∈ l, q.Prime := fun q hq => hS.prime q (hall q hq).1
  obtain ⟨v, hv⟩ := finished_printed hl hp
  obtain ⟨x, E, gs, h1, h2, hE, h3, hf, ha, ho, hcard⟩ := hl.curve
  have h9 : Inv (invalid c) T 9 d.rest.cur := by rw [h3]; exact invalid_complete h1 h2 l
  refine ⟨v, hv, h9, by rw [h3]; exact invalid_one h1 h2 l, ?_⟩
  have hasked := curve_asked (invalid c) (covered_invalid c) T (coeffs_fine (tape_invalid hS.tape)) _ h9 v hv
  obtain ⟨x0, -, hv0, -, hf0, ha0⟩ := h0
  obtain ⟨f2, a2, b2, n2, E2, l2, g2, k1, k2, -, -, -, -, rfl⟩ := printed_values hv0
  rw [hf0] at k1; cases k1
  rw [ha0] at k2; cases k2
  have hv' := hv
  rw [h3] at hv'
  obtain ⟨pre, r, post, e, hmem, hpt⟩ := trial_first h1 h2 l hv' hm (hp _ hm) (hcard ▸ (hall _ hm).2)
  obtain ⟨f1, a1, b1, n1, E1, l1, g1, e1, e2, -, e4, -, -, rfl⟩ := printed_values hv
  rw [h3] at e1 e2 e4
  rw [show (withTrial l x E gs).field = some f from hf] at e1
  rw [show (withTrial l x E gs).a = some a from ha] at e2
  rw [show (withTrial l x E gs).order = some d.order from ho] at e4
  cases e1
  cases e2
  cases e4
  refine ⟨hasked, rfl, rfl, (hall _ hm).2, r, (hall r (by rw [e]; simp)).1, ?_, (hall r (by rw [e]; simp)).2, hpt⟩
  rw [e] at hpw
  rcases List.mem_cons.1 hmem with h | h
  · rw [h]
  · exact Nat.le_of_lt ((List.pairwise_cons.1 (List.pairwise_append.1 hpw).2.1).1 _ h)

/-- the values of the curves printed, in this order -/
noncomputable def printedValues (s : TSt) : List CurveV := (objects s.g.out).map fun e => curveV (shown e)

/-- **C95** In every state of a run of `--invalid` with any number of threads, whatever the schedule: what has been printed begins with the curve to
invalidate, a right curve as the default method would print it. The others belong to different primes that the option selects; each is right, over the same
field with the same first coefficient, of an order divisible by its prime, and with a point listed. When the main thread is behind its loop there is
one for each prime. -/
theorem threaded_run_prints (P : Pari) (hP : P.Ok) (np : Nat → Nat) (hnp : Invalid.NextSpec np) (c : Config) (hr : Meant c.bits c.invalidPrimes) (w : W)
    (hT : TapeOk (original c) w.tape) (hu : w.ub = false) (w0 : W) (qs : List Nat) (s : TSt) (h : ThreadedRun P np c w w0 qs s)
    (hsm : ∀ t, c.invalidPrimes = some t → Number t → Invalid.value t ≤ 2 ^ 63 - 25) :
    ∃ (v0 : CurveV) (vs : List (Nat × CurveV)), printedValues s = v0 :: vs.map Prod.snd ∧ Asked (original c) v0 ∧ Selected c.invalidPrimes v0.order qs ∧
      qs ≠ [] ∧ (vs.map Prod.fst).Nodup ∧ (∀ e ∈ vs, e.1 ∈ qs ∧ ServesThreaded c v0 qs e.1 e.2) ∧
      (s.g.main = .finished → (vs.map Prod.fst).Perm qs) := by
  obtain ⟨v0, f, a, d, hv0, hfirst, hsel, hS, hd, hre, hi, -⟩ := run_sound hP hnp hr hT hu h hsm
  obtain ⟨x, hx1, hx2, hx3, -⟩ := id hfirst
  have ho : (curveV v0).order = d.order := by
    obtain ⟨f2, a2, b2, n2, E2, l2, g2, -, -, -, k4, -, -, rfl⟩ := printed_values hx2
    rw [hx3] at k4
    cases k4
    rfl
  have hask := curve_asked (original c) (covered_original c) w.tape (coeffs_fine hT) x hx1 v0 hx2
  have hne : qs ≠ [] := fun e => by have := hS.some; rw [e] at this; exact absurd this (by simp)
  have main : ∀ es : List (Nat × TCurve), objects s.g.out = (none, some d) :: es.map Invalid.entry → (es.map Prod.fst).Nodup →
      (∀ e ∈ es, e.1 < qs.length ∧ s.g.curves e.1 = some e.2) →
      ∃ vs : List (Nat × CurveV), printedValues s = curveV v0 :: vs.map Prod.snd ∧ vs.map Prod.fst = (es.map Prod.fst).map (fun i => qs.getD i 0) ∧
        (vs.map Prod.fst).Nodup ∧ ∀ e ∈ vs, e.1 ∈ qs ∧ ServesThreaded c (curveV v0) qs e.1 e.2 := by
    intro es he hnd hall
    refine ⟨es.map fun e => (qs.getD e.1 0, curveV (shown (Invalid.entry e))), ?_, ?_, ?_, ?_⟩
    · unfold printedValues
      rw [he, List.map_cons, List.map_map, List.map_map]
      congr 1
      · show curveV ((outCurve d.rest.cur).getD _) = _
        rw [hd, hv0]
        rfl
    · rw [List.map_map, List.map_map]
      rfl
    · rw [List.map_map]
      have : (es.map Prod.fst).Pairwise (fun i j => qs.getD i 0 ≠ qs.getD j 0) := by
        refine hnd.imp_of_mem fun {i j} hi hj hij hq => hij ?_
        obtain ⟨e, he1, rfl⟩ := List.mem_map.1 hi
        obtain ⟨e', he2, rfl⟩ := List.mem_map.1 hj
        exact distinct hS.sorted _ _ (hall e he1).1 (hall e' he2).1 hq
      rw [List.pairwise_map] at this
      exact List.pairwise_map.2 this
    · intro e he1
      obtain ⟨e', he', rfl⟩ := List.mem_map.1 he1
      obtain ⟨hlt, hc⟩ := hall e' he'
      obtain ⟨v, h1, -, -, h4⟩ := stored_value hS hi hc hfirst
      refine ⟨getD_mem hlt, ?_⟩
      show ServesThreaded c (curveV v0) qs (qs.getD e'.1 0) (curveV ((outCurve e'.2.rest.cur).getD _))
      rw [h1]
      exact h4
  by_cases hf : s.g.main = .finished
  · obtain ⟨-, es, h1, h2, h3⟩ := Invalid.threaded_complete (distinct hS.sorted) hS.some hre hf
    have hnd : (es.map Prod.fst).Nodup := h2.nodup_iff.2 List.nodup_range
    obtain ⟨vs, k1, k2, k3, k4⟩ := main es h1 hnd fun e he => ⟨List.mem_range.1 (h2.subset (List.mem_map_of_mem he)), (h3 e he).1⟩
    refine ⟨curveV v0, vs, k1, hask, by rw [ho]; exact hsel, hne, k3, k4, fun _ => ?_⟩
    rw [k2]
    have := h2.map fun i => qs.getD i 0
    rwa [map_getD] at this
  · obtain ⟨es, h1, h2, h3⟩ := Invalid.threaded_printed_once (distinct hS.sorted) hS.some hre
    obtain ⟨vs, k1, k2, k3, k4⟩ := main es h1 h2 fun e he => ⟨(h3 e he).1, (h3 e he).2.1⟩
    exact ⟨curveV v0, vs, k1, hask, by rw [ho]; exact hsel, hne, k3, k4, fun h => absurd h hf⟩

end Ecgen.InvalidRun
