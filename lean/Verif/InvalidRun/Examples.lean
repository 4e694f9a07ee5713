import Verif.InvalidRun.Never
import Verif.Special.Examples
import Verif.Ordered.Examples

/-!
# Runs of the invalid curve method (C91, C92, C93)

Runs on the curve `y² = x³ + 2` over the field of five elements, which has six points.
-/

namespace Ecgen.InvalidRun

open Output Output.Spec Cli Whole Json

/-! ## Stages that succeed -/

open Engine Engine.Spec in
theorem step_good {σ : Type} (S : Engine.Setup σ) (start : Nat) (retry : Int) (st : Engine.St σ) (hs : start ≤ st.state) (w' : σ)
    (h : Succeeds S st.state st.w 1 w') : ∃ st', step S start retry st = .inl st' ∧ st'.state = st.state + 1 ∧ st'.w = w' := by
  obtain ⟨w1, h1, h2, h3⟩ := h
  have he : (execStage S start st.state st.w st.log).1 = w' ∧ (execStage S start st.state st.w st.log).2.1 = 1 := by
    unfold execStage
    rw [h1]
    simp only
    rw [if_pos h2]
    exact runChecks_passes _ _ _ _ _ _ _ h3
  unfold step
  simp only [he.1, he.2]
  rw [if_neg (by decide)]
  exact ⟨_, rfl, by simp only; omega, rfl⟩

open Engine Engine.Spec in
theorem loop_good {σ : Type} (S : Engine.Setup σ) (start stop : Nat) (retry : Int) (ws : Nat → σ)
    (h : ∀ s, start ≤ s → s < stop → Succeeds S s (ws s) 1 (ws (s + 1))) : ∀ (n : Nat) (st : Engine.St σ), stop ≤ n + st.state → start ≤ st.state →
      st.state ≤ stop → st.w = ws st.state → ∃ st', loop S start stop retry n st = some (1, st') ∧ st'.w = ws stop := by
  intro n
  induction n with
  | zero =>
    intro st h1 h2 h3 hw
    refine ⟨st, ?_, ?_⟩
    · unfold loop; rw [if_neg (by omega)]
    · rw [hw]; congr 1; omega
  | succ n ih =>
    intro st h1 h2 h3 hw
    unfold loop
    by_cases hlt : st.state < stop
    · rw [if_pos hlt]
      obtain ⟨st', k1, k2, k3⟩ := step_good S start retry st h2 _ (hw ▸ h st.state h2 hlt)
      rw [k1]
      exact ih st' (by omega) (by omega) (by omega) (by rw [k3, k2])
    · rw [if_neg hlt]
      exact ⟨st, rfl, by rw [hw]; congr 1; omega⟩

/-- the checks of both tables -/
def Nonzero (S : Cli.Setup) : Prop := S.checks = { Table.const [] with curve := [.curveNonzero] }

theorem phase_good (P : Pari) (bits : Nat) (S : Cli.Setup) (hS : Nonzero S) (primes : List Nat) (start stop : Nat) (hss : start < stop) (h9 : stop ≤ 9)
    (retry : Int) (T : Nat → Pick) (hcut : ∀ i, (T i).cut = none) (hfail : ∀ i s, (T i).fail s = none) (i : Nat) (xs : Nat → Cur)
    (hact : ∀ s, start ≤ s → s < stop → ∃ g, (Whole.stageOf S.gens s).bind id = some g ∧ call P bits (T (i + (s - start))) primes (xs s) g = some (xs (s + 1), 1))
    (hd : ∃ E, (xs 5).crv = some E ∧ E.eqn.Δ ≠ 0) (fuel : Nat) (hf : stop ≤ fuel + start) :
    phase P bits S primes start stop retry fuel ⟨xs start, T, i, false⟩ = .done (1, ⟨xs stop, T, i + (stop - start), false⟩) := by
  obtain ⟨st, h1, h2⟩ := loop_good (setup P bits S primes) start stop retry (fun s => (⟨xs s, T, i + (s - start), false⟩ : W)) (fun s h1 h2 => by
    obtain ⟨g, hg, hc⟩ := hact s h1 h2
    refine ⟨(⟨xs (s + 1), T, i + (s + 1 - start), false⟩ : W), ?_, by decide, ?_⟩
    · change gen P bits S primes s _ = _
      have hif : (if canFail g then (T (i + (s - start))).fail s else none) = none := by
        split
        · exact hfail _ _
        · rfl
      simp only [gen, W.pick, hcut, hg, hif, hc]
      have : i + (s + 1 - start) = i + (s - start) + 1 := by omega
      rw [this]
      rfl
    · change Engine.Spec.Passes (((Whole.stageOf S.checks s).getD []).map fun k w => check w k) _ _
      rw [hS]
      by_cases h4 : s = 4
      · subst h4
        obtain ⟨E, hE, hE'⟩ := hd
        have hck : check (⟨xs 5, T, i + (4 + 1 - start), false⟩ : W) .curveNonzero = ((⟨xs 5, T, i + (4 + 1 - start), false⟩ : W), 1) := by
          simp only [check, hE]
          rw [if_neg hE']
        refine .cons ?_ ?_
        · change 0 < (check (⟨xs 5, T, i + (4 + 1 - start), false⟩ : W) .curveNonzero).2
          rw [hck]; exact Int.one_pos
        · change Engine.Spec.Passes [] (check (⟨xs 5, T, i + (4 + 1 - start), false⟩ : W) .curveNonzero).1 _
          rw [hck]; exact .nil _
      · have : (Whole.stageOf ({ Table.const [] with curve := [.curveNonzero] } : Table (List Check)) s).getD [] = [] := by
          have : s < 9 := by omega
          match s, this with
          | 0, _ | 1, _ | 2, _ | 3, _ | 5, _ | 6, _ | 7, _ | 8, _ => rfl
          | 4, _ => exact absurd rfl h4
        rw [this]
        exact .nil _) fuel (Engine.init start ⟨xs start, T, i, false⟩) (by simp only [Engine.init]; omega) (Nat.le_refl _) (Nat.le_of_lt hss)
      (by simp only [Engine.init]; rw [Nat.sub_self]; rfl)
  unfold phase Engine.genRetry
  rw [if_neg (by omega), if_neg (by omega), h1]
  simp only [h2]
  rfl

/-! ## The curve -/

theorem p5 : Nat.Prime 5 := by decide

instance : Fact (Nat.Prime 5) := ⟨p5⟩

def F5 : Fld := ⟨.prime 5, p5⟩

/-- the curve `y² = x³ + 2` -/
def E5 : Crv := ⟨F5, .intmod 0 5, .intmod 2 5⟩

theorem E5_delta : E5.eqn.Δ ≠ 0 := by
  have : (Invalid.primeCurve (0 : ZMod 5) 2).Δ ≠ 0 := by
    have := Cm.Construct.elliptic (K := ZMod 5) (by decide) 0 2 (by decide)
    rw [WeierstrassCurve.isElliptic_iff, isUnit_iff_ne_zero] at this
    exact this
  exact this

theorem E5_card : Nat.card E5.Pt = 6 := by
  have : Nat.card (Invalid.primeCurve (0 : ZMod 5) 2).Point = 6 := by
    rw [Cm.Construct.natCard_point (by decide) 0 2 (by decide)]
    decide +kernel
  exact this

theorem E5_nonsingular (x y : ZMod 5) (h : y ^ 2 = x ^ 3 + 0 * x + 2) : (Invalid.primeCurve (0 : ZMod 5) 2).Nonsingular x y := by
  have := Cm.Construct.elliptic (K := ZMod 5) (by decide) 0 2 (by decide)
  rw [← WeierstrassCurve.Affine.equation_iff_nonsingular, Cm.Construct.equation_prime]
  exact h

theorem E5_two : E5.eqn.Nonsingular (elem F5 2) (elem F5 0) := E5_nonsingular ((2 : Nat) : ZMod 5) ((0 : Nat) : ZMod 5) (by decide)
theorem E5_six : E5.eqn.Nonsingular (elem F5 4) (elem F5 1) := E5_nonsingular ((4 : Nat) : ZMod 5) ((1 : Nat) : ZMod 5) (by decide)

/-- the points (4, 1) and (2, 0) -/
noncomputable def G5 : E5.Pt := .some _ _ E5_six
noncomputable def H5 : E5.Pt := .some _ _ E5_two

theorem mul_any (inst : DecidableEq (ZMod 5)) (n : Nat) (P : (Invalid.primeCurve (0 : ZMod 5) 2).Point) :
    letI : AddCommGroup (Invalid.primeCurve (0 : ZMod 5) 2).Point := @WeierstrassCurve.Affine.Point.instAddCommGroup _ _ _ inst
    Invalid.coords (n • P) = @Cm.Construct.ellmul (ZMod 5) _ (ZMod.decidableEq 5) 0 n (Invalid.coords P) := by
  obtain rfl : inst = ZMod.decidableEq 5 := Subsingleton.elim _ _
  exact (Cm.Construct.ellmul_coords (0 : ZMod 5) 2 n P).symm

/-- multiples of the generator -/
theorem G5_mul (n : Nat) (Q : E5.Pt) (h : n • G5 = Q) :
    Cm.Construct.ellmul (0 : ZMod 5) n (some (4, 1)) = Invalid.coords (W := Invalid.primeCurve (0 : ZMod 5) 2) Q := by
  rw [← h]
  exact (mul_any (Classical.decEq _) n G5).symm

theorem G5_three : 3 • G5 = H5 := by
  have h := G5_mul 3 _ rfl
  have h2 : Invalid.coords (W := Invalid.primeCurve (0 : ZMod 5) 2) H5 = some (((2 : Nat) : ZMod 5), ((0 : Nat) : ZMod 5)) := rfl
  refine Invalid.coords_injective (W := Invalid.primeCurve (0 : ZMod 5) 2) (h.symm.trans ?_)
  rw [h2]
  decide +kernel

theorem G5_order : addOrderOf G5 = 6 := by
  have : Finite E5.Pt := Nat.finite_of_card_ne_zero (by rw [E5_card]; decide)
  have hd : addOrderOf G5 ∣ 6 := E5_card ▸ addOrderOf_dvd_natCard G5
  have h2 : ¬ addOrderOf G5 ∣ 2 := fun h => by
    have h := addOrderOf_dvd_iff_nsmul_eq_zero.1 h
    have e := G5_mul 2 0 h
    revert e
    change _ ≠ none
    decide +kernel
  have h3 : ¬ addOrderOf G5 ∣ 3 := fun h => by
    have h := addOrderOf_dvd_iff_nsmul_eq_zero.1 h
    have e := G5_mul 3 0 h
    revert e
    change _ ≠ none
    decide +kernel
  have hle := Nat.le_of_dvd (by decide) hd
  generalize addOrderOf G5 = n at *
  have : n = 0 ∨ n = 1 ∨ n = 2 ∨ n = 3 ∨ n = 4 ∨ n = 5 ∨ n = 6 := by omega
  rcases this with rfl | rfl | rfl | rfl | rfl | rfl | rfl <;> revert hd h2 h3 <;> decide

theorem G5_gens : Group.GensSpec E5.Pt [G5] := by
  have : Finite E5.Pt := Nat.finite_of_card_ne_zero (by rw [E5_card]; decide)
  exact Special.gens_of_order G5 (by rw [G5_order, E5_card]) (by rw [E5_card]; decide)

/-- the curve `y² = x³ + 2x`, with two points -/
def E50 : Crv := ⟨F5, .intmod 2 5, .intmod 0 5⟩

theorem E50_gens : ∃ l, Group.GensSpec E50.Pt l := by
  have hc : Nat.card E50.Pt = 2 := by
    have : Nat.card (Invalid.primeCurve (2 : ZMod 5) 0).Point = 2 := by
      rw [Cm.Construct.natCard_point (by decide) 2 0 (by decide)]
      decide +kernel
    exact this
  have : Finite E50.Pt := Nat.finite_of_card_ne_zero (by rw [hc]; decide)
  obtain ⟨g, hg⟩ := Special.cyclic_two 2 1 (by norm_num) (Or.inr rfl) (by decide) (show Nat.card E50.Pt = 2 * 1 by rw [hc])
  exact ⟨[g], Special.gens_of_order g hg (by rw [hc]; decide)⟩

/-! ## PARI and the user -/

open Classical in
/-- a function as `unextprime` is promised to be -/
noncomputable def next (n : Nat) : Nat := if h : ∃ p, p.Prime ∧ n ≤ p ∧ p < 2 ^ 64 then Nat.find h else 0

theorem next_spec : Invalid.NextSpec next := by
  classical
  intro n hn
  by_cases h : ∃ p, p.Prime ∧ n ≤ p ∧ p < 2 ^ 64
  · right
    have e : next n = Nat.find h := by unfold next; rw [dif_pos h]
    rw [e]
    obtain ⟨h1, h2, h3⟩ := Nat.find_spec h
    refine ⟨h1, h2, h3, fun p hp hnp => ?_⟩
    by_cases h4 : p < 2 ^ 64
    · exact Nat.find_min' h ⟨hp, hnp, h4⟩
    · omega
  · left
    refine ⟨by unfold next; rw [dif_neg h], fun p hp hnp => ?_⟩
    by_contra h4
    exact h ⟨p, hp, hnp, by omega⟩

open Classical in
/-- call number `i`: no failures, the field of five elements, the coefficient 0 in the second call and 2 in all others, and generators as promised -/
noncomputable def tape (i : Nat) : Pick :=
  { always E5 2 [G5] 1 with
    elt := fun f => (ielement (out f.1) (if f = F5 then (if i = 1 then 0 else 2) else 1)).getD (.int 0)
    gens := fun E => if h : E = E5 then h ▸ [G5] else Ordered.gensBy E }

theorem tape_elt (i : Nat) : (tape i).elt F5 = .intmod (if i = 1 then 0 else 2) 5 := by
  simp only [tape, if_true]
  split <;> rfl

theorem tape_gens (i : Nat) : (tape i).gens E5 = [G5] := by
  simp only [tape, dif_pos]

theorem tape_ok (c : Config) (hc : c.koblitz = false) (hn : c.seedAlgo = .none) (hf : FieldAsked c F5.1) (hp : FieldAsked { c with random := 0 } F5.1) :
    TapeOk c tape where
  picks i :=
    { always_ok c E5 hf hp 2 (by decide) [G5] 1 hn with
      elt := fun f => by
        have h : (if f = F5 then (if i = 1 then 0 else 2) else 1) < fieldSize f.1 := by
          split
          · rename_i h; subst h; split <;> decide
          · exact one_lt_size f
        obtain ⟨e, h1, h2, -⟩ := ielement_out f _ h
        simp only [tape]
        rw [h1]
        exact h2 }
  ansi h := by rw [hn] at h; cases h
  sea _ _ _ _ _ _ := Or.inl rfl
  gens i E h1 h2 h3 h4 := by
    have hF : E.field = F5 := by obtain ⟨_, h1 | h1⟩ := h1 <;> exact h1
    have hk : ¬ (c.koblitz = true ∧ c.seedAlgo = .none) := by rw [hc]; simp
    rw [ComesA, if_neg hk, if_pos hn] at h2
    rw [ComesB, if_neg hk, if_pos hn] at h3
    obtain ⟨j, h2⟩ := h2
    obtain ⟨k, h3⟩ := h3
    rw [hF, tape_elt] at h2 h3
    have hcases : ∀ l : Nat, Elt.intmod (if l = 1 then 0 else 2) 5 = .intmod 0 5 ∨ Elt.intmod (if l = 1 then 0 else 2) 5 = .intmod 2 5 := fun l => by
      by_cases hl : l = 1
      · rw [if_pos hl]; exact Or.inl rfl
      · rw [if_neg hl]; exact Or.inr rfl
    obtain ⟨f, a, b⟩ := E
    simp only at hF h2 h3
    have ha := hcases j
    have hb := hcases k
    rw [← h2] at ha
    rw [← h3] at hb
    clear h1 h2 h3
    subst hF
    rcases ha with rfl | rfl <;> rcases hb with rfl | rfl
    · exfalso
      apply h4
      have : (Invalid.primeCurve (0 : ZMod 5) 0).Δ = 0 := by decide +kernel
      exact this
    · change Group.GensSpec E5.Pt ((tape i).gens E5)
      rw [tape_gens]
      exact G5_gens
    · change Group.GensSpec E50.Pt ((tape i).gens E50)
      have hne : E50 ≠ E5 := fun h => by
        have := congrArg Crv.a h
        revert this
        decide
      simp only [tape, dif_neg hne]
      exact Ordered.gensBy_spec _ E50_gens
    · exfalso
      apply h4
      have : (Invalid.primeCurve (2 : ZMod 5) 2).Δ = 0 := by decide +kernel
      exact this

/-! ## The runs -/

/-- `--fp --random --invalid=2-3 3`, `--invalid=24-28`, `--invalid=2-19` and `--invalid` -/
def cA : Config := (commandLine 4 [.fp, .random none, .invalid (some "2-3".toList), .arg "3".toList]).get (by decide +kernel)
def cB : Config := (commandLine 4 [.fp, .random none, .invalid (some "24-28".toList), .arg "3".toList]).get (by decide +kernel)
def cC : Config := (commandLine 4 [.fp, .random none, .invalid (some "2-19".toList), .arg "3".toList]).get (by decide +kernel)
def cD : Config := (commandLine 4 [.fp, .random none, .invalid none, .arg "3".toList]).get (by decide +kernel)

/-- the course of the curve; the points `ps` at the end -/
noncomputable abbrev road (ps : List (Option (Group.Pt E5.Pt))) : Nat → Cur := course E5 6 ⟨G5, 6, 1⟩ ps

theorem call_early (bits i : Nat) (ps) (s : Nat) (g : Gen) (h : (s = 1 ∧ g = .fieldRandom) ∨ (s = 2 ∧ g = .aRandom ∧ i = 1) ∨ (s = 3 ∧ g = .bRandom ∧ i ≠ 1) ∨
    (s = 4 ∧ g = .curveAny) ∨ (s = 5 ∧ g = .orderAny) ∨ (s = 6 ∧ g = .gensAny)) : call pari bits (tape i) [] (road ps s) g = some (road ps (s + 1), 1) := by
  rcases h with ⟨rfl, rfl⟩ | ⟨rfl, rfl, h⟩ | ⟨rfl, rfl, h⟩ | ⟨rfl, rfl⟩ | ⟨rfl, rfl⟩ | ⟨rfl, rfl⟩
  · rfl
  · change some (({ field := some F5, a := some ((tape i).elt F5) } : Cur), (1 : Int)) = _
    rw [tape_elt, if_pos h]
    rfl
  · change some (({ field := some F5, a := some E5.a, b := some ((tape i).elt F5) } : Cur), (1 : Int)) = _
    rw [tape_elt, if_neg h]
    rfl
  · rfl
  · have : pari.card E5 = 6 := E5_card
    change some ({ road ps 5 with order := some (pari.card E5) }, (1 : Int)) = _
    rw [this]
    rfl
  · have ho : pari.ord E5 G5 = 6 := G5_order
    simp only [road, call, Whole.call, course, Option.bind_some, gensStage, tape_gens, found, Group.gensAny, List.map_cons, List.map_nil, Group.gensPoint, bare, ho]

theorem original_phase (c : Config) (hc : (originalSetup c).gens.field = some .fieldRandom ∧ (originalSetup c).gens.a = some .aRandom ∧
    (originalSetup c).gens.b = some .bRandom) (ps) (fuel : Nat) (hf : 6 ≤ fuel) :
    phase pari c.bits (originalSetup c) [] 1 7 0 fuel ⟨{}, tape, 0, false⟩ = .done (1, ⟨road ps 7, tape, 6, false⟩) := by
  obtain ⟨r1, r2, r3⟩ := hc
  refine phase_good pari c.bits (originalSetup c) rfl [] 1 7 (by decide) (by decide) 0 tape (fun _ => rfl) (fun _ _ => rfl) 0 (road ps) (fun s h1 h2 => ?_)
    ⟨E5, rfl, E5_delta⟩ fuel (by omega)
  match s, h1, h2 with
  | 1, _, _ => exact ⟨_, by simp only [Whole.stageOf, r1]; rfl, call_early _ _ ps 1 _ (by simp)⟩
  | 2, _, _ => exact ⟨_, by simp only [Whole.stageOf, r2]; rfl, call_early _ _ ps 2 _ (by simp)⟩
  | 3, _, _ => exact ⟨_, by simp only [Whole.stageOf, r3]; rfl, call_early _ _ ps 3 _ (by simp)⟩
  | 4, _, _ => exact ⟨_, rfl, call_early _ _ ps 4 _ (by simp)⟩
  | 5, _, _ => exact ⟨_, rfl, call_early _ _ ps 5 _ (by simp)⟩
  | 6, _, _ => exact ⟨_, rfl, call_early _ _ ps 6 _ (by simp)⟩

/-- what is printed of the curve; the points at the end -/
def printed (l : List Output.Point) : Output.Curve := ⟨none, .prime 5, .intmod 0 5, .intmod 2 5, 6, [⟨⟨.intmod 4 5, .intmod 1 5, 6, some 1⟩, l⟩], []⟩

theorem road_printed : outCurve (road [] 7) = some (printed []) ∧ outCurve (road [some ⟨H5, 2, 0⟩] 9) = some (printed [⟨.intmod 2 5, .intmod 0 5, 2, none⟩]) := by
  have h0 : num F5 (elem F5 0) = 0 := num_elem F5 0 (by decide)
  have h1 : num F5 (elem F5 1) = 1 := num_elem F5 1 (by decide)
  have h2 : num F5 (elem F5 2) = 2 := num_elem F5 2 (by decide)
  have h4 : num F5 (elem F5 4) = 4 := num_elem F5 4 (by decide)
  have hG : ∀ k n m, outPoint E5 k ⟨G5, n, m⟩ = some ⟨.intmod 4 5, .intmod 1 5, n, k⟩ := by
    intro k n m
    change (match ielement (out F5.1) (num F5 (elem F5 4)), ielement (out F5.1) (num F5 (elem F5 1)) with
      | some x, some y => some (Output.Point.mk x y n k)
      | _, _ => none) = _
    rw [h4, h1]
    rfl
  have hH : ∀ k n m, outPoint E5 k ⟨H5, n, m⟩ = some ⟨.intmod 2 5, .intmod 0 5, n, k⟩ := by
    intro k n m
    change (match ielement (out F5.1) (num F5 (elem F5 2)), ielement (out F5.1) (num F5 (elem F5 0)) with
      | some x, some y => some (Output.Point.mk x y n k)
      | _, _ => none) = _
    rw [h2, h0]
    rfl
  constructor
  · simp only [road, course, outCurve, List.map_cons, List.map_nil, outSub, hG, Option.bind_some, allSome, Option.map_some]
    rfl
  · simp only [road, course, outCurve, List.map_cons, List.map_nil, outSub, hG, hH, Option.bind_some, allSome, Option.map_some]
    rfl

theorem primes_range (order : Nat) (s t : List Char) (hs : Number s) (ht : Number t) (l : List Nat) (hl : Invalid.PrimesFromTo (Invalid.value s) (Invalid.value t) l) :
    ∃ fuel, ∀ k, Invalid.invalidPrimes next order (some (s ++ '-' :: t)) (fuel + k) = some l := by
  obtain ⟨fuel, l', h1, h2⟩ := Invalid.range_partial next next_spec order s t hs.1 ht.1 hs.2.1 hs.2.2 ht.2.1 ht.2.2
  have : l' = l := by
    have hn : ∀ {m : List Nat}, m.Pairwise (· < ·) → m.Nodup := fun h => h.imp Nat.ne_of_lt
    have hp : l'.Perm l := (List.perm_ext_iff_of_nodup (hn h2.1) (hn hl.1)).2 fun p => (h2.2 p).trans (hl.2 p).symm
    exact hp.eq_of_pairwise (fun a b _ _ h1 h2 => by omega) h2.1 hl.1
  subst this
  exact ⟨fuel, fun k => primesLoop_more _ _ _ k _ _ _ _ _ h1⟩

theorem number_digit (d : Char) (h : 49 ≤ d.toNat ∧ d.toNat ≤ 57) : Number [d] := by
  refine ⟨⟨by simp, fun c hc => ?_⟩, ?_, ?_⟩
  · rw [List.mem_singleton.1 hc]; omega
  · change 1 ≤ 10 * 0 + (d.toNat - 48); omega
  · change 10 * 0 + (d.toNat - 48) < 2 ^ 63; omega

theorem round_good (P : Pari) (c : Config) (primes : List Nat) (f : Fld) (a : Elt) (fuel : Nat) (st : St) (r : Int) (w1 w2 w3 : W) (o : Nat) (v : Output.Curve)
    (h1 : phase P c.bits (invalidSetup c) [] 3 6 0 fuel st.w = .done (r, w1)) (h2 : w1.cur.order = some o) (h3 : 0 < (wantedPrimes primes st.got o).length)
    (h4 : phase P c.bits (invalidSetup c) [] 6 7 1 fuel w1 = .done (1, w2))
    (h5 : phase P c.bits (invalidSetup c) (wantedPrimes primes st.got o) 7 9 0 fuel w2 = .done (r, w3)) (h6 : w3.cur.order = some o) (h7 : outCurve w3.cur = some v) :
    round P c primes f a fuel st = .done (save primes o v primes.length { st with w := { w3 with cur := { field := some f, a := some a } } }) := by
  unfold round
  simp only [h1, h2]
  rw [if_pos h3]
  simp only [h4, h5, h6, h7]
  rw [if_neg (by decide)]

theorem produce_good (P : Pari) (np : Nat → Nat) (c : Config) (fuel : Nat) (w w1 : W) (v : Output.Curve) (o : Nat) (f : Fld) (a : Elt) (primes : List Nat)
    (h1 : phase P c.bits (originalSetup c) [] 1 7 0 fuel { w with cur := {} } = .done (1, w1)) (h2 : outCurve w1.cur = some v) (h3 : w1.cur.order = some o)
    (h4 : w1.cur.field = some f) (h5 : w1.cur.a = some a) (h6 : Invalid.invalidPrimes np o c.invalidPrimes fuel = some primes) :
    (primes = [] → produce P np c fuel w = .done ([.open, .obj v, .comma], 1)) ∧ ∀ st, primes ≠ [] →
      search P c primes f a fuel fuel ⟨{ w1 with cur := { field := some f, a := some a } }, fun _ => false, 0, [.open, .obj v, .comma]⟩ = .done st →
      produce P np c fuel w = .done (st.out ++ [.close], 0) := by
  constructor
  · rintro rfl
    unfold produce
    simp only [h1, h2, h3, h4, h5, h6]
    rfl
  · intro st h7 h8
    unfold produce
    simp only [h1, h2, h3, h4, h5, h6, h8]
    rw [if_neg (by decide), if_neg (by simpa using h7)]

/-! ### Two and three -/

theorem primesA : Invalid.PrimesFromTo (Invalid.value ['2']) (Invalid.value ['3']) [2, 3] := by
  refine ⟨by decide, fun p => ?_⟩
  change p ∈ [2, 3] ↔ p.Prime ∧ 2 ≤ p ∧ p ≤ 3
  constructor
  · intro h
    rcases List.mem_cons.1 h with rfl | h
    · exact ⟨by decide, by decide, by decide⟩
    · obtain rfl := List.mem_singleton.1 h
      exact ⟨by decide, by decide, by decide⟩
  · rintro ⟨-, h1, h2⟩
    have : p = 2 ∨ p = 3 := by omega
    rcases this with rfl | rfl <;> decide

/-- the curve printed for both primes -/
def second : Output.Curve := printed [⟨.intmod 2 5, .intmod 0 5, 2, none⟩]

/-- the run of `ecgen --fp --random --invalid=2-3 3` that finds `y² = x³ + 2` over the field of five elements, twice -/
theorem runA : ∃ fuel, produce pari next cA fuel ⟨{}, tape, 0, false⟩ =
    .done ([.open, .obj (printed []), .comma, .obj second, .comma, .obj second, .close], 0) := by
  obtain ⟨fuel, hp⟩ := primes_range 6 ['2'] ['3'] (number_digit _ (by decide)) (number_digit _ (by decide)) [2, 3] primesA
  have hp := hp 20
  refine ⟨fuel + 20, ?_⟩
  have hr : cA.invalidPrimes = some (['2'] ++ '-' :: ['3']) := by decide +kernel
  have hw : wantedPrimes [2, 3] (fun _ => false) 6 = [2, 3] := by decide +kernel
  have hu : (invalidSetup cA).gens.gens = some .gensAny := by decide +kernel
  have h1 : phase pari cA.bits (invalidSetup cA) [] 3 6 0 (fuel + 20) ⟨road [some ⟨H5, 2, 0⟩] 3, tape, 6, false⟩ =
      .done (1, ⟨road [some ⟨H5, 2, 0⟩] 6, tape, 9, false⟩) := by
    refine phase_good pari cA.bits (invalidSetup cA) rfl [] 3 6 (by decide) (by decide) 0 tape (fun _ => rfl) (fun _ _ => rfl) 6 (road _) (fun s h1 h2 => ?_)
      ⟨E5, rfl, E5_delta⟩ _ (by omega)
    match s, h1, h2 with
    | 3, _, _ => exact ⟨_, rfl, call_early _ _ _ 3 _ (by simp)⟩
    | 4, _, _ => exact ⟨_, rfl, call_early _ _ _ 4 _ (by simp)⟩
    | 5, _, _ => exact ⟨_, rfl, call_early _ _ _ 5 _ (by simp)⟩
  have h2 : phase pari cA.bits (invalidSetup cA) [] 6 7 1 (fuel + 20) ⟨road [some ⟨H5, 2, 0⟩] 6, tape, 9, false⟩ =
      .done (1, ⟨road [some ⟨H5, 2, 0⟩] 7, tape, 10, false⟩) := by
    refine phase_good pari cA.bits (invalidSetup cA) rfl [] 6 7 (by decide) (by decide) 1 tape (fun _ => rfl) (fun _ _ => rfl) 9 (road _) (fun s h1 h2 => ?_)
      ⟨E5, rfl, E5_delta⟩ _ (by omega)
    match s, h1, h2 with
    | 6, _, _ => exact ⟨_, by simp only [Whole.stageOf, hu]; rfl, call_early _ _ _ 6 _ (by simp)⟩
  have h3 : phase pari cA.bits (invalidSetup cA) [2, 3] 7 9 0 (fuel + 20) ⟨road [some ⟨H5, 2, 0⟩] 7, tape, 10, false⟩ =
      .done (1, ⟨road [some ⟨H5, 2, 0⟩] 9, tape, 12, false⟩) := by
    refine phase_good pari cA.bits (invalidSetup cA) rfl [2, 3] 7 9 (by decide) (by decide) 0 tape (fun _ => rfl) (fun _ _ => rfl) 10 (road _) (fun s h1 h2 => ?_)
      ⟨E5, rfl, E5_delta⟩ _ (by omega)
    match s, h1, h2 with
    | 7, _, _ =>
      refine ⟨.pointsTrial, rfl, ?_⟩
      simp only [road, call, course, List.length_cons, List.length_nil]
      rw [if_pos ⟨trivial, by decide⟩]
      have ht : Group.pointsTrial [2, 3] [(⟨G5, 6, 1⟩ : Group.Pt E5.Pt)] = [⟨⟨G5, 6, 1⟩, [some ⟨3 • G5, 2, 0⟩]⟩] := rfl
      rw [List.map_cons, List.map_nil]
      rw [ht, G5_three]
    | 8, _, _ => exact ⟨.skip, rfl, rfl⟩
  have h0 := original_phase cA (by decide +kernel) [] (fuel + 20) (by omega)
  have hround := round_good pari cA [2, 3] F5 (.intmod 0 5) (fuel + 20) ⟨⟨road [] 3, tape, 6, false⟩, fun _ => false, 0, [.open, .obj (printed []), .comma]⟩
    1 _ _ _ 6 second h1 rfl (by rw [hw]; decide) h2 (by rw [hw]; exact h3) rfl road_printed.2
  have hsearch : search pari cA [2, 3] F5 (.intmod 0 5) (fuel + 20) (fuel + 20)
      ⟨⟨road [] 3, tape, 6, false⟩, fun _ => false, 0, [.open, .obj (printed []), .comma]⟩ = .done (save [2, 3] 6 second 2
        ⟨⟨road [] 3, tape, 12, false⟩, fun _ => false, 0, [.open, .obj (printed []), .comma]⟩) := by
    rw [show fuel + 20 = fuel + 18 + 1 + 1 by omega, search]
    rw [if_pos (by decide)]
    rw [show fuel + 18 + 1 + 1 = fuel + 20 by omega, hround]
    simp only
    rw [search, if_neg (by decide)]
    rfl
  exact (produce_good pari next cA (fuel + 20) ⟨{}, tape, 0, false⟩ _ _ _ _ _ _ h0 road_printed.1 rfl rfl rfl (hr ▸ hp)).2 _ (by decide) hsearch

theorem cA_fields : cA.koblitz = false ∧ cA.seedAlgo = .none ∧ cA.method = METHOD_INVALID ∧ cA.threads = 1 := by decide +kernel

/-- the tape is right for these command lines -/
theorem tapeA : TapeOk (original cA) tape := tape_ok _ (by decide +kernel) (by decide +kernel)
  ⟨by decide +kernel, fun _ _ => by decide +kernel, by decide +kernel⟩ ⟨by decide +kernel, fun _ _ => by decide +kernel, by decide +kernel⟩

theorem cA_some : commandLine 4 [.fp, .random none, .invalid (some "2-3".toList), .arg "3".toList] = some cA := (Option.some_get _).symm

theorem cA_range : cA.invalidPrimes = some (['2'] ++ '-' :: ['3']) := by decide +kernel

theorem cA_meant : Meant cA.bits cA.invalidPrimes := by
  rw [cA_range]
  exact Or.inr ⟨['2'], ['3'], rfl, number_digit _ (by decide), number_digit _ (by decide)⟩

theorem shortA : ∀ v, .obj v ∈ [Tok.open, .obj (printed []), .comma, .obj second, .comma, .obj second, .close] → ∀ j,
    Parson.outputJjson cA.hexDigits v = .ok j → (Parson.render true 0 j).length ≤ 2147483646 := by
  intro v hv
  have : v = printed [] ∨ v = second := by simpa using hv
  rcases this with rfl | rfl
  · exact short_spec (by decide +kernel)
  · exact short_spec (by decide +kernel)

/-- **C91 and C92, met**: the run of `ecgen --fp --random --invalid=2-3 3` that finds `y² = x³ + 2` over the field of five elements meets the hypotheses -/
theorem invalid_run_met : ∃ (os : List Opt) (c : Config) (fuel : Nat) (w : W) (ts : List (Tok Output.Curve)), commandLine 4 os = some c ∧
    c.method = METHOD_INVALID ∧ c.threads = 1 ∧ pari.Ok ∧ Invalid.NextSpec next ∧ Meant c.bits c.invalidPrimes ∧ TapeOk (original c) w.tape ∧ w.ub = false ∧
    produce pari next c fuel w = .done (ts, 0) ∧
    ∀ v, .obj v ∈ ts → ∀ j, Parson.outputJjson c.hexDigits v = .ok j → (Parson.render true 0 j).length ≤ 2147483646 := by
  obtain ⟨fuel, h⟩ := runA
  exact ⟨_, cA, fuel, _, _, cA_some, cA_fields.2.2.1, cA_fields.2.2.2, pari_ok, next_spec, cA_meant, tapeA, rfl, h, shortA⟩

/-- **C91, refuted in part**: no point of order 3 is printed by this run, although 3 is one of the primes asked for: each generator gets a point for the
first of the primes only. -/
theorem invalid_run_point_false : ∃ (os : List Opt) (c : Config) (fuel : Nat) (w : W) (ts : List (Tok Output.Curve)), commandLine 4 os = some c ∧
    c.method = METHOD_INVALID ∧ c.threads = 1 ∧ c.invalidPrimes = some "2-3".toList ∧ TapeOk (original c) w.tape ∧ w.ub = false ∧
    produce pari next c fuel w = .done (ts, 0) ∧
    ∀ malloc, (∀ n, (malloc n).length = n) → ∀ js, Parson.Spec.Document (bytes malloc c ts) (Parson.encode (.arr js)) →
      js.length = 3 ∧ ∀ j ∈ js, ∃ v, readCurve j = some v ∧ ¬ HasPoint v 3 := by
  obtain ⟨fuel, h⟩ := runA
  refine ⟨_, cA, fuel, _, _, cA_some, cA_fields.2.2.1, cA_fields.2.2.2, cA_range, tapeA, rfl, h, fun malloc hm js hj => ?_⟩
  have hpr : ∀ v ∈ [printed [], second, second], Parson.PrintableText cA.hexDigits v := by
    intro v hv
    have : v = printed [] ∨ v = second := by simpa using hv
    rcases this with rfl | rfl
    · exact ⟨⟨fun m h => (by cases h), fun s h => (by cases h)⟩, fun m h => (by cases h), fun x h => (nomatch h), List.nodup_nil, short_spec (by decide +kernel)⟩
    · exact ⟨⟨fun m h => (by cases h), fun s h => (by cases h)⟩, fun m h => (by cases h), fun x h => (nomatch h), List.nodup_nil, short_spec (by decide +kernel)⟩
  obtain ⟨h1, h2⟩ := array_reads malloc hm cA.hexDigits _ [printed [], second, second] (.items (.more _ (.more _ (.one _)))) hpr
  have e := (h1 _).1 hj
  cases e
  refine ⟨rfl, fun j hj => ?_⟩
  obtain ⟨v, hv, rfl⟩ := List.mem_map.1 hj
  refine ⟨_, h2 v hv, ?_⟩
  have : v = printed [] ∨ v = second := by simpa using hv
  rcases this with rfl | rfl
  · rintro ⟨g, hg, p, hp, ho⟩
    obtain rfl := List.mem_singleton.1 hg
    cases hp
  · rintro ⟨g, hg, p, hp, ho⟩
    obtain rfl := List.mem_singleton.1 hg
    obtain rfl := List.mem_singleton.1 hp
    cases ho

/-! ### Runs that cannot end well -/

theorem number_two (d e : Char) (h : 49 ≤ d.toNat ∧ d.toNat ≤ 57) (h' : 48 ≤ e.toNat ∧ e.toNat ≤ 57) : Number [d, e] := by
  refine ⟨⟨by simp, fun c hc => ?_⟩, ?_, ?_⟩
  · rcases List.mem_cons.1 hc with rfl | hc
    · omega
    · rw [List.mem_singleton.1 hc]; omega
  · change 1 ≤ 10 * (10 * 0 + (d.toNat - 48)) + (e.toNat - 48); omega
  · change 10 * (10 * 0 + (d.toNat - 48)) + (e.toNat - 48) < 2 ^ 63; omega

theorem no_primes (q : Nat) (hq : q.Prime) (h : 24 ≤ q) : 28 < q := by
  by_contra h'
  have : q = 24 ∨ q = 25 ∨ q = 26 ∨ q = 27 ∨ q = 28 := by omega
  rcases this with rfl | rfl | rfl | rfl | rfl <;> revert hq <;> decide

theorem cB_some : commandLine 4 [.fp, .random none, .invalid (some "24-28".toList), .arg "3".toList] = some cB := (Option.some_get _).symm

/-- **C93, met**: the run of `ecgen --fp --random --invalid=24-28 3` on the same curve -/
theorem invalid_run_empty_met : ∃ (os : List Opt) (c : Config) (fuel : Nat) (w : W) (s t : List Char) (v : Output.Curve), commandLine 4 os = some c ∧
    c.invalidPrimes = some (s ++ '-' :: t) ∧ Number s ∧ Number t ∧ (∀ q : Nat, q.Prime → Invalid.value s ≤ q → Invalid.value t < q) ∧
    TapeOk (original c) w.tape ∧ w.ub = false ∧ produce pari next c fuel w = .done ([.open, .obj v, .comma], 1) := by
  obtain ⟨fuel, hp⟩ := primes_range 6 ['2', '4'] ['2', '8'] (number_two _ _ (by decide) (by decide)) (number_two _ _ (by decide) (by decide)) []
    ⟨List.Pairwise.nil, fun p => ⟨fun h => (nomatch h), fun ⟨h1, h2, h3⟩ => by
      have := no_primes p h1 h2
      change p ≤ 28 at h3
      omega⟩⟩
  have hr : cB.invalidPrimes = some (['2', '4'] ++ '-' :: ['2', '8']) := by decide +kernel
  exact ⟨_, cB, fuel + 6, ⟨{}, tape, 0, false⟩, _, _, _, cB_some, hr, number_two _ _ (by decide) (by decide), number_two _ _ (by decide) (by decide), no_primes,
    tape_ok _ (by decide +kernel) (by decide +kernel) ⟨by decide +kernel, fun _ _ => by decide +kernel, by decide +kernel⟩
      ⟨by decide +kernel, fun _ _ => by decide +kernel, by decide +kernel⟩, rfl,
    (produce_good pari next cB (fuel + 6) ⟨{}, tape, 0, false⟩ _ _ _ _ _ _ (original_phase cB (by decide +kernel) [] _ (by omega)) road_printed.1 rfl rfl rfl (hr ▸ hp 6)).1 rfl⟩

theorem cC_some : commandLine 4 [.fp, .random none, .invalid (some "2-19".toList), .arg "3".toList] = some cC := (Option.some_get _).symm

/-- **C93, met**: `ecgen --fp --random --invalid=2-19 3`, whose fields have at most eight elements, so that 19 exceeds the orders of all curves -/
theorem invalid_run_large_met : ∃ (os : List Opt) (c : Config) (w : W) (s t : List Char) (q : Nat), commandLine 4 os = some c ∧
    c.invalidPrimes = some (s ++ '-' :: t) ∧ Number s ∧ Number t ∧ q.Prime ∧ Invalid.value s ≤ q ∧ q ≤ Invalid.value t ∧ 2 * 2 ^ c.bits + 1 < q ∧
    TapeOk (original c) w.tape ∧ w.ub = false := by
  exact ⟨_, cC, ⟨{}, tape, 0, false⟩, ['2'], ['1', '9'], 19, cC_some, by decide +kernel, number_digit _ (by decide), number_two _ _ (by decide) (by decide), by decide,
    by decide, by decide, by decide +kernel, tape_ok _ (by decide +kernel) (by decide +kernel) ⟨by decide +kernel, fun _ _ => by decide +kernel, by decide +kernel⟩
      ⟨by decide +kernel, fun _ _ => by decide +kernel, by decide +kernel⟩, rfl⟩

theorem cD_some : commandLine 4 [.fp, .random none, .invalid none, .arg "3".toList] = some cD := (Option.some_get _).symm

/-- **C93, met**: `ecgen --fp --random --invalid 3` on the same curve prints it and never ends with the status 0 -/
theorem invalid_run_zero_met : ∃ (os : List Opt) (c : Config) (w w' : W) (v : Output.Curve), commandLine 4 os = some c ∧ c.invalidPrimes = none ∧ c.bits < 2 ^ 59 ∧
    TapeOk (original c) w.tape ∧ w.ub = false ∧
    (∀ fuel, 6 ≤ fuel → phase pari c.bits (originalSetup c) [] 1 7 0 fuel { w with cur := {} } = .done (1, w')) ∧ outCurve w'.cur = some v ∧
    (curveV v).a = 0 ∧ (curveV v).field = .prime 5 := by
  exact ⟨_, cD, ⟨{}, tape, 0, false⟩, _, _, cD_some, by decide +kernel, by decide +kernel, tape_ok _ (by decide +kernel) (by decide +kernel)
    ⟨by decide +kernel, fun _ _ => by decide +kernel, by decide +kernel⟩ ⟨by decide +kernel, fun _ _ => by decide +kernel, by decide +kernel⟩, rfl,
    fun fuel hf => original_phase cD (by decide +kernel) [] fuel hf, road_printed.1, rfl, rfl⟩

end Ecgen.InvalidRun
