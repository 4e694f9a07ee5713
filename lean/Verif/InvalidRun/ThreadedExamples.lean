import Verif.InvalidRun.ThreadedBytes
import Verif.InvalidRun.Examples

/-!
# Runs of `--invalid` with several threads (C95, C96): the hypotheses are met, and a run that prints no JSON document
-/

namespace Ecgen.InvalidRun

open Output Output.Spec Cli Whole Json
open Invalid (upd)

/-! ### A schedule in which one worker does everything -/

theorem quiet_same {g g' : Invalid.G Member W} (h : g'.workers = g.workers) : Quiet g g' := by
  intro t
  rw [h]
  exact ⟨id, fun _ _ => id⟩

theorem quiet_upd {g g' : Invalid.G Member W} (t : Nat) (v : Invalid.Worker Member W) (h : g'.workers = upd g.workers t v)
    (h1 : g.workers t ≠ .search) (h2 : ∀ d l, g.workers t ≠ .points d l) : Quiet g g' := by
  intro t'
  rw [h]
  unfold upd
  by_cases e : t' = t
  · subst e
    exact ⟨(fun h => absurd h h1), fun d l h => absurd h (h2 d l)⟩
  · rw [if_neg e]
    exact ⟨id, fun _ _ => id⟩

theorem path {P : Pari} {c : Config} {qs : List Nat} {orig : TCurve} {f : Fld} {a : Elt} {w0 w1 w2 : W} {d1 d2 : TCurve} {l : List Nat}
    {st st' : Nat → Invalid.PState} {cs : Nat → Option TCurve} (ht : 0 < c.threads) (hn : 0 < qs.length) (pos pos' fuel : Nat)
    (h1 : hunt P c qs fuel { unrolled ((begin w0 orig f a).ws 0) with pos := pos } = .done (some d1, w1))
    (h2 : Invalid.claimLoop (fun i => qs.getD i 0) d1.order qs.length (fun _ => .free) [] = (st, l)) (hl : 0 < l.length)
    (h3 : trial P c l fuel { w1 with pos := pos' } = .done (d2, w2))
    (h4 : Invalid.storeLoop (fun i => qs.getD i 0) d2 qs.length st (fun _ => none) l 0 = (st', cs, qs.length)) :
    ∃ s s' : TSt, TReach P c qs orig (begin w0 orig f a) s ∧ TStep P c qs orig s s' ∧ s.g.main ≠ .finished ∧ s'.g.main = .finished ∧
      s.g.out = [.open, .obj (none, some orig), .comma] ∧ s.g.states = st' ∧ s.g.curves = cs ∧ s.g.generated = qs.length ∧
      s'.g.out = (Invalid.scanLoop qs.length s.g qs.length (fun _ => .free) [.open, .obj (none, some orig), .comma]).2 := by
  have r0 : TReach P c qs orig (begin w0 orig f a) _ := .refl
  have r1 := r0.step (.shared _ _ (.checkLock _ 0 ht rfl rfl) (quiet_upd 0 _ rfl (by simp [begin, Invalid.initial]) (by simp [begin, Invalid.initial])))
  have r2 := r1.step (.shared _ _ (.check _ 0 ht (by simp [upd]) rfl) (quiet_upd 0 _ rfl (by simp [upd]) (by simp [upd])))
  have r3 := r2.step (.found _ 0 pos fuel d1 w1 ht (by simp [upd, begin, Invalid.initial, hn]) h1)
  have r4 := r3.step (.shared _ _ (.claimLock _ 0 d1 ht (by simp [upd]) rfl) (quiet_upd 0 _ rfl (by simp [upd]) (by simp [upd])))
  have r5 := r4.step (.shared _ _ (.claim _ 0 d1 ht (by simp [upd]) rfl) (quiet_upd 0 _ rfl (by simp [upd]) (by simp [upd])))
  have hst : (begin w0 orig f a).g.states = fun _ => .free := rfl
  simp only [hst, h2, if_pos hl] at r5
  have r6 := r5.step (.points _ 0 pos' fuel d1 d2 l w2 ht (by simp [upd]) (by simpa [upd] using h3))
  have r7 := r6.step (.shared _ _ (.storeLock _ 0 d2 l ht (by simp [upd]) rfl) (quiet_upd 0 _ rfl (by simp [upd]) (by simp [upd])))
  have r8 := r7.step (.shared _ _ (.store _ 0 d2 l ht (by simp [upd]) rfl) (quiet_upd 0 _ rfl (by simp [upd]) (by simp [upd])))
  have hcs : (begin w0 orig f a).g.curves = fun _ => none := rfl
  have hg : (begin w0 orig f a).g.generated = 0 := rfl
  have hmn : (begin w0 orig f a).g.main = .blocked := rfl
  simp only [hcs, h4, hg, hmn, if_true] at r8
  have r9 := r8.step (.shared _ _ (.mainLock _ rfl rfl) (quiet_same rfl))
  exact ⟨_, _, r9, .shared _ _ (.scan _ rfl rfl) (quiet_same rfl), by simp, by simp, rfl, rfl, rfl, by simp, rfl⟩

/-! ### The searches of the worker -/

theorem hunt_good (c : Config) (hu : (invalidSetup c).gens.gens = some .gensAny) (qs : List Nat) (hq : 0 < qs.countP (divides · 6)) (ps) (fuel : Nat) (hf : 3 ≤ fuel) :
    hunt pari c qs fuel ⟨road ps 3, tape, 6, false⟩ =
      .done (some ⟨.inl F5, .inr (.intmod 0 5), 6, ⟨road ps 7, tape, 10, false⟩⟩, ⟨road ps 7, tape, 10, false⟩) := by
  have h1 : phase pari c.bits (invalidSetup c) [] 3 6 0 fuel ⟨road ps 3, tape, 6, false⟩ = .done (1, ⟨road ps 6, tape, 9, false⟩) := by
    refine phase_good pari c.bits (invalidSetup c) rfl [] 3 6 (by decide) (by decide) 0 tape (fun _ => rfl) (fun _ _ => rfl) 6 (road _) (fun s h1 h2 => ?_)
      ⟨E5, rfl, E5_delta⟩ _ (by omega)
    match s, h1, h2 with
    | 3, _, _ => exact ⟨_, rfl, call_early _ _ _ 3 _ (by simp)⟩
    | 4, _, _ => exact ⟨_, rfl, call_early _ _ _ 4 _ (by simp)⟩
    | 5, _, _ => exact ⟨_, rfl, call_early _ _ _ 5 _ (by simp)⟩
  have h2 : phase pari c.bits (invalidSetup c) [] 6 7 1 fuel ⟨road ps 6, tape, 9, false⟩ = .done (1, ⟨road ps 7, tape, 10, false⟩) := by
    refine phase_good pari c.bits (invalidSetup c) rfl [] 6 7 (by decide) (by decide) 1 tape (fun _ => rfl) (fun _ _ => rfl) 9 (road _) (fun s h1 h2 => ?_)
      ⟨E5, rfl, E5_delta⟩ _ (by omega)
    match s, h1, h2 with
    | 6, _, _ => exact ⟨_, by simp only [Whole.stageOf, hu]; rfl, call_early _ _ _ 6 _ (by simp)⟩
  unfold hunt
  rw [h1]
  simp only
  have ho : (road ps 6).order = some 6 := rfl
  simp only [ho, if_pos hq, h2]
  rw [if_neg (by decide)]
  rfl

theorem trial_good (c : Config) (l : List Nat) (hl : 0 < l.length) (ps)
    (ht : Group.pointsTrial l [(⟨G5, 6, 1⟩ : Group.Pt E5.Pt)] = [⟨⟨G5, 6, 1⟩, ps⟩]) (fuel : Nat) (hf : 2 ≤ fuel) :
    trial pari c l fuel ⟨road ps 7, tape, 10, false⟩ =
      .done (⟨.inl F5, .inr (.intmod 0 5), 6, ⟨road ps 9, tape, 12, false⟩⟩, ⟨road ps 9, tape, 12, false⟩) := by
  have h3 : phase pari c.bits (invalidSetup c) l 7 9 0 fuel ⟨road ps 7, tape, 10, false⟩ = .done (1, ⟨road ps 9, tape, 12, false⟩) := by
    refine phase_good pari c.bits (invalidSetup c) rfl l 7 9 (by decide) (by decide) 0 tape (fun _ => rfl) (fun _ _ => rfl) 10 (road _) (fun s h1 h2 => ?_)
      ⟨E5, rfl, E5_delta⟩ _ (by omega)
    match s, h1, h2 with
    | 7, _, _ =>
      refine ⟨.pointsTrial, rfl, ?_⟩
      simp only [road, call, course, List.length_cons, List.length_nil]
      rw [if_pos ⟨trivial, by omega⟩, List.map_cons, List.map_nil, ht]
    | 8, _, _ => exact ⟨.skip, rfl, rfl⟩
  unfold trial
  rw [h3]
  rfl

/-- `ecgen --fp --random --invalid=2-3 --threads=2 3` -/
def cT : Config := (commandLine 4 [.fp, .random none, .invalid (some "2-3".toList), .threads "2".toList, .arg "3".toList]).get (by decide +kernel)
/-- `ecgen --fp --random --invalid=2-2 --threads=2 3` -/
def cU : Config := (commandLine 4 [.fp, .random none, .invalid (some "2-2".toList), .threads "2".toList, .arg "3".toList]).get (by decide +kernel)

theorem cT_some : commandLine 4 [.fp, .random none, .invalid (some "2-3".toList), .threads "2".toList, .arg "3".toList] = some cT := (Option.some_get _).symm
theorem cU_some : commandLine 4 [.fp, .random none, .invalid (some "2-2".toList), .threads "2".toList, .arg "3".toList] = some cU := (Option.some_get _).symm

theorem cT_range : cT.invalidPrimes = some (['2'] ++ '-' :: ['3']) := by decide +kernel
theorem cU_range : cU.invalidPrimes = some (['2'] ++ '-' :: ['2']) := by decide +kernel

theorem cT_fields : cT.method = METHOD_INVALID ∧ cT.threads = 2 ∧ cT.bits = 3 := by decide +kernel
theorem cU_fields : cU.method = METHOD_INVALID ∧ cU.threads = 2 ∧ cU.bits = 3 := by decide +kernel

theorem tapeT : TapeOk (original cT) tape := tape_ok _ (by decide +kernel) (by decide +kernel)
  ⟨by decide +kernel, fun _ _ => by decide +kernel, by decide +kernel⟩ ⟨by decide +kernel, fun _ _ => by decide +kernel, by decide +kernel⟩
theorem tapeU : TapeOk (original cU) tape := tape_ok _ (by decide +kernel) (by decide +kernel)
  ⟨by decide +kernel, fun _ _ => by decide +kernel, by decide +kernel⟩ ⟨by decide +kernel, fun _ _ => by decide +kernel, by decide +kernel⟩

theorem cT_meant : Meant cT.bits cT.invalidPrimes := by
  rw [cT_range]
  exact Or.inr ⟨['2'], ['3'], rfl, number_digit _ (by decide), number_digit _ (by decide)⟩
theorem cU_meant : Meant cU.bits cU.invalidPrimes := by
  rw [cU_range]
  exact Or.inr ⟨['2'], ['2'], rfl, number_digit _ (by decide), number_digit _ (by decide)⟩

theorem cT_small : ∀ t, cT.invalidPrimes = some t → Number t → Invalid.value t ≤ 2 ^ 63 - 25 := by
  intro t h hn
  rw [cT_range] at h
  cases h
  exact absurd (hn.1.2 '-' (by simp)) (by decide)
theorem cU_small : ∀ t, cU.invalidPrimes = some t → Number t → Invalid.value t ≤ 2 ^ 63 - 25 := by
  intro t h hn
  rw [cU_range] at h
  cases h
  exact absurd (hn.1.2 '-' (by simp)) (by decide)

theorem primesU : Invalid.PrimesFromTo (Invalid.value ['2']) (Invalid.value ['2']) [2] := by
  refine ⟨by decide, fun p => ?_⟩
  change p ∈ [2] ↔ p.Prime ∧ 2 ≤ p ∧ p ≤ 2
  constructor
  · intro h
    obtain rfl := List.mem_singleton.1 h
    exact ⟨by decide, by decide, by decide⟩
  · rintro ⟨-, h1, h2⟩
    have : p = 2 := by omega
    rw [this]
    decide

/-- the world in which the curve to invalidate has been found -/
noncomputable def worldT : W := ⟨road [] 7, tape, 6, false⟩

/-- the curve to invalidate, as the threads see it -/
noncomputable def firstT : TCurve := ⟨.inl F5, .inr (.intmod 0 5), 6, worldT⟩

theorem started {c : Config} {l : List Nat} (hc : (originalSetup c).gens.field = some .fieldRandom ∧ (originalSetup c).gens.a = some .aRandom ∧
    (originalSetup c).gens.b = some .bRandom) (hl : l.length ≠ 0) {fuel : Nat} (hp : ∀ k, Invalid.invalidPrimes next 6 c.invalidPrimes (fuel + k) = some l) {s : TSt}
    (h : TReach pari c l firstT (begin worldT firstT F5 (.intmod 0 5)) s) : ThreadedRun pari next c ⟨{}, tape, 0, false⟩ worldT l s :=
  .run (fuel + 6) 1 worldT (printed []) firstT F5 (.intmod 0 5) l s (original_phase c hc [] (fuel + 6) (by omega)) (by decide) road_printed.1 rfl rfl rfl (hp 6) hl h

/-- the run for the primes 2 and 3, up to the step that ends it -/
theorem runT : ∃ s s', ThreadedRun pari next cT ⟨{}, tape, 0, false⟩ worldT [2, 3] s ∧ TStep pari cT [2, 3] firstT s s' ∧ s.g.main ≠ .finished ∧
    s'.g.main = .finished ∧ s.g.out = [.open, .obj (none, some firstT), .comma] ∧ ∃ d : TCurve, d.rest.cur = road [some ⟨2 • G5, 3, 0⟩] 9 ∧
      s'.g.out = [.open, .obj (none, some firstT), .comma, .obj (some 0, some d), .obj (some 1, some d)] := by
  obtain ⟨fuel, hp⟩ := primes_range 6 ['2'] ['3'] (number_digit _ (by decide)) (number_digit _ (by decide)) [2, 3] primesA
  obtain ⟨s, s', h1, h2, h3, h4, h5, h6, h7, h8, h9⟩ := path (P := pari) (c := cT) (qs := [2, 3]) (orig := firstT) (f := F5) (a := .intmod 0 5) (w0 := worldT)
    (by rw [cT_fields.2.1]; decide) (by decide) 6 10 5
    (hunt_good cT (by decide +kernel) [2, 3] (by decide +kernel) [some ⟨2 • G5, 3, 0⟩] 5 (by decide)) (l := [3, 2]) rfl (by decide)
    (trial_good cT [3, 2] (by decide) [some ⟨2 • G5, 3, 0⟩] rfl 5 (by decide)) rfl
  refine ⟨s, s', started (by decide +kernel) (by decide) (cT_range ▸ hp) h1, h2, h3, h4, h5, ⟨.inl F5, .inr (.intmod 0 5), 6, ⟨road [some ⟨2 • G5, 3, 0⟩] 9, tape, 12, false⟩⟩, rfl, ?_⟩
  rw [h9]
  simp only [List.length_cons, List.length_nil, Invalid.scanLoop, h6, h7, h8]
  simp [upd]

/-- the run for the prime 2 only -/
theorem runU : ∃ s s', ThreadedRun pari next cU ⟨{}, tape, 0, false⟩ worldT [2] s ∧ TStep pari cU [2] firstT s s' ∧ s.g.main ≠ .finished ∧
    s'.g.main = .finished ∧ s.g.out = [.open, .obj (none, some firstT), .comma] := by
  obtain ⟨fuel, hp⟩ := primes_range 6 ['2'] ['2'] (number_digit _ (by decide)) (number_digit _ (by decide)) [2] primesU
  obtain ⟨s, s', h1, h2, h3, h4, h5, -⟩ := path (P := pari) (c := cU) (qs := [2]) (orig := firstT) (f := F5) (a := .intmod 0 5) (w0 := worldT)
    (by rw [cU_fields.2.1]; decide) (by decide) 6 10 5
    (hunt_good cU (by decide +kernel) [2] (by decide +kernel) [some ⟨3 • G5, 2, 0⟩] 5 (by decide)) (l := [2]) rfl (by decide)
    (trial_good cU [2] (by decide) [some ⟨3 • G5, 2, 0⟩] rfl 5 (by decide)) rfl
  exact ⟨s, s', started (by decide +kernel) (by decide) (cU_range ▸ hp) h1, h2, h3, h4, h5⟩

/-- **C95 and C96, met**: a run of `ecgen --fp --random --invalid=2-2 --threads=2 3` that ends meets the hypotheses, and prints a JSON document -/
theorem threaded_run_met : ∃ (os : List Opt) (c : Config) (w w0 : W) (d : TCurve) (qs : List Nat) (s s' : TSt), commandLine 4 os = some c ∧
    c.method = METHOD_INVALID ∧ c.threads = 2 ∧ c.bits ≤ 2500 ∧ pari.Ok ∧ Invalid.NextSpec next ∧ Meant c.bits c.invalidPrimes ∧ TapeOk (original c) w.tape ∧
    w.ub = false ∧ ThreadedRun pari next c w w0 qs s ∧ (∀ t, c.invalidPrimes = some t → Number t → Invalid.value t ≤ 2 ^ 63 - 25) ∧ taken w0 = some d ∧ TStep pari c qs d s s' ∧ s.g.main ≠ .finished ∧
    s'.g.main = .finished ∧
    ∀ malloc, (∀ n, (malloc n).length = n) → ∃ v, Parson.Spec.Document (bytes malloc c ((Invalid.finalOutput s'.g).map shownTok)) v := by
  obtain ⟨s, s', h1, h2, h3, h4, h5⟩ := runU
  refine ⟨_, cU, _, worldT, firstT, [2], s, s', cU_some, cU_fields.1, cU_fields.2.1, by rw [cU_fields.2.2]; decide, pari_ok, next_spec, cU_meant, tapeU, rfl, h1,
    cU_small, rfl, h2, h3, h4, fun malloc hm => ?_⟩
  refine (threaded_run_document malloc hm pari pari_ok next next_spec 4 _ cU cU_some (by rw [cU_fields.2.2]; decide) cU_meant _ tapeU rfl worldT [2] s s' h1
    cU_small firstT rfl h2 h3 h4).1.2 ?_
  unfold printedValues
  rw [h5]
  rfl

/-- **C95, refuted in part**: a run of `ecgen --fp --random --invalid=2-3 --threads=2 3` that ends prints no JSON document: when one worker finds a curve for
both primes, the curves are printed without a comma between them. -/
theorem threaded_run_json_false : ∃ (os : List Opt) (c : Config) (w w0 : W) (qs : List Nat) (s : TSt), commandLine 4 os = some c ∧
    c.method = METHOD_INVALID ∧ c.threads = 2 ∧ c.invalidPrimes = some "2-3".toList ∧ TapeOk (original c) w.tape ∧
    w.ub = false ∧ ThreadedRun pari next c w w0 qs s ∧ s.g.main = .finished ∧
    ∀ malloc, (∀ n, (malloc n).length = n) → ∀ v, ¬ Parson.Spec.Document (bytes malloc c ((Invalid.finalOutput s.g).map shownTok)) v := by
  obtain ⟨s, s', h1, h2, h3, h4, h5, -⟩ := runT
  refine ⟨_, cT, ⟨{}, tape, 0, false⟩, worldT, [2, 3], s', cT_some, cT_fields.1, cT_fields.2.1, cT_range, tapeT, rfl, ?_, h4, fun malloc hm v hv => ?_⟩
  · obtain ⟨fuel, r, _, v0, d', f, a, _, _, k1, hr0, hv0, htk, hf, ha, hq, hne, hre⟩ := h1
    have : d' = firstT := (Option.some.inj htk).symm
    subst this
    exact ⟨fuel, r, _, v0, _, f, a, _, _, k1, hr0, hv0, htk, hf, ha, hq, hne, hre.step h2⟩
  · have := (threaded_run_document malloc hm pari pari_ok next next_spec 4 _ cT cT_some (by rw [cT_fields.2.2]; decide) cT_meant _ tapeT rfl worldT [2, 3] s s' h1
      cT_small firstT rfl h2 h3 h4).1.1 ⟨v, hv⟩
    unfold printedValues at this
    rw [h5] at this
    cases this

theorem E5_third : E5.eqn.Nonsingular (elem F5 3) (elem F5 3) := E5_nonsingular ((3 : Nat) : ZMod 5) ((3 : Nat) : ZMod 5) (by decide)

/-- a point of order 3 -/
noncomputable def K5 : E5.Pt := .some _ _ E5_third

theorem G5_two : 2 • G5 = K5 := by
  have h := G5_mul 2 _ rfl
  have h2 : Invalid.coords (W := Invalid.primeCurve (0 : ZMod 5) 2) K5 = some (((3 : Nat) : ZMod 5), ((3 : Nat) : ZMod 5)) := rfl
  refine Invalid.coords_injective (W := Invalid.primeCurve (0 : ZMod 5) 2) (h.symm.trans ?_)
  rw [h2]
  decide +kernel

theorem road_third : outCurve (road [some ⟨2 • G5, 3, 0⟩] 9) = some (printed [⟨.intmod 3 5, .intmod 3 5, 3, none⟩]) := by
  have h1 : num F5 (elem F5 1) = 1 := num_elem F5 1 (by decide)
  have h3 : num F5 (elem F5 3) = 3 := num_elem F5 3 (by decide)
  have h4 : num F5 (elem F5 4) = 4 := num_elem F5 4 (by decide)
  have hG : ∀ k n m, outPoint E5 k ⟨G5, n, m⟩ = some ⟨.intmod 4 5, .intmod 1 5, n, k⟩ := by
    intro k n m
    change (match ielement (out F5.1) (num F5 (elem F5 4)), ielement (out F5.1) (num F5 (elem F5 1)) with
      | some x, some y => some (Output.Point.mk x y n k)
      | _, _ => none) = _
    rw [h4, h1]
    rfl
  have hK : ∀ k n m, outPoint E5 k ⟨K5, n, m⟩ = some ⟨.intmod 3 5, .intmod 3 5, n, k⟩ := by
    intro k n m
    change (match ielement (out F5.1) (num F5 (elem F5 3)), ielement (out F5.1) (num F5 (elem F5 3)) with
      | some x, some y => some (Output.Point.mk x y n k)
      | _, _ => none) = _
    rw [h3]
    rfl
  rw [G5_two]
  simp only [road, course, outCurve, List.map_cons, List.map_nil, outSub, hG, hK, Option.bind_some, allSome, Option.map_some]
  rfl

/-- **C95, refuted in part**: a run of `ecgen --fp --random --invalid=2-3 --threads=2 3` that ends and prints no point of order 2 -/
theorem threaded_run_point_false : ∃ (os : List Opt) (c : Config) (w w0 : W) (s : TSt), commandLine 4 os = some c ∧
    c.method = METHOD_INVALID ∧ c.threads = 2 ∧ c.invalidPrimes = some "2-3".toList ∧ TapeOk (original c) w.tape ∧
    w.ub = false ∧ ThreadedRun pari next c w w0 [2, 3] s ∧ s.g.main = .finished ∧ (printedValues s).length = 3 ∧ ∀ v ∈ printedValues s, ¬ HasPoint v 2 := by
  obtain ⟨s, s', h1, h2, h3, h4, h5, d, hd, h6⟩ := runT
  have hv : printedValues s' = [curveV (printed []), curveV (printed [⟨.intmod 3 5, .intmod 3 5, 3, none⟩]), curveV (printed [⟨.intmod 3 5, .intmod 3 5, 3, none⟩])] := by
    have e1 : shown (none, some firstT) = printed [] := by
      show (outCurve (road [] 7)).getD _ = _
      rw [road_printed.1]
      rfl
    have e2 : ∀ i, shown (some i, some d) = printed [⟨.intmod 3 5, .intmod 3 5, 3, none⟩] := fun i => by
      show (outCurve d.rest.cur).getD _ = _
      rw [hd, road_third]
      rfl
    unfold printedValues
    rw [h6]
    simp only [objects, List.map_cons, List.map_nil, e1, e2]
  refine ⟨_, cT, ⟨{}, tape, 0, false⟩, worldT, s', cT_some, cT_fields.1, cT_fields.2.1, cT_range, tapeT, rfl, ?_, h4, by rw [hv]; rfl, ?_⟩
  · obtain ⟨fuel, r, _, v0, d', f, a, _, _, k1, hr0, hv0, htk, hf, ha, hq, hne, hre⟩ := h1
    have : d' = firstT := (Option.some.inj htk).symm
    subst this
    exact ⟨fuel, r, _, v0, _, f, a, _, _, k1, hr0, hv0, htk, hf, ha, hq, hne, hre.step h2⟩
  · rw [hv]
    intro v hv
    have : v = curveV (printed []) ∨ v = curveV (printed [⟨.intmod 3 5, .intmod 3 5, 3, none⟩]) := by simpa using hv
    rcases this with rfl | rfl
    · rintro ⟨g, hg, p, hp, ho⟩
      obtain rfl := List.mem_singleton.1 hg
      cases hp
    · rintro ⟨g, hg, p, hp, ho⟩
      obtain rfl := List.mem_singleton.1 hg
      obtain rfl := List.mem_singleton.1 hp
      cases ho

end Ecgen.InvalidRun
