import Verif.Twisted.Koblitz
import Verif.Whole.Examples

/-!
# Runs of `--twist` (C86)

Over the field of seven elements, `y² = x³ + x + 1` has five points, and its twist `y² = x³ + 2x + 6` eleven.
-/

namespace Ecgen.Twisted

open Whole Output Output.Spec Cli

/-! ## The curves -/

/-- the curve `y² = x³ + 2x + 6` -/
noncomputable def T7 : WeierstrassCurve.Affine (Carrier F7) := equation F7 (elem F7 2) (elem F7 6)

theorem T7_card : Nat.card T7.Point = 11 := by
  have : Nat.card (Invalid.primeCurve (2 : ZMod 7) 6).Point = 11 := by
    rw [Cm.Construct.natCard_point (by decide) 2 6 (by decide)]
    decide +kernel
  exact this

theorem T7_delta : T7.Δ ≠ 0 := by
  have : (Invalid.primeCurve (2 : ZMod 7) 6).Δ ≠ 0 := by
    have := Cm.Construct.elliptic (K := ZMod 7) (by decide) 2 6 (by decide)
    rw [WeierstrassCurve.isElliptic_iff, isUnit_iff_ne_zero] at this
    exact this
  exact this

theorem T7_nonsingular : T7.Nonsingular (elem F7 1) (elem F7 3) := by
  have : (Invalid.primeCurve (2 : ZMod 7) 6).Nonsingular ((1 : Nat) : ZMod 7) ((3 : Nat) : ZMod 7) := by
    have := Cm.Construct.elliptic (K := ZMod 7) (by decide) 2 6 (by decide)
    rw [← WeierstrassCurve.Affine.equation_iff_nonsingular, Cm.Construct.equation_prime]
    decide
  exact this

/-- the curve object of the twist -/
def ET : Crv := ⟨F7, .intmod 2 7, .intmod 6 7⟩

/-- the point (1, 3) -/
noncomputable def GT : ET.Pt := (.some _ _ T7_nonsingular : T7.Point)

theorem GT_ne : GT ≠ 0 := WeierstrassCurve.Affine.Point.some_ne_zero _

theorem ET_card : Nat.card ET.Pt = 11 := T7_card

theorem GT_order : addOrderOf GT = 11 := by
  have hd : addOrderOf GT ∣ 11 := ET_card ▸ addOrderOf_dvd_natCard GT
  rcases (Nat.dvd_prime (by decide : Nat.Prime 11)).1 hd with h | h
  · exact absurd (AddMonoid.addOrderOf_eq_one_iff.1 h) GT_ne
  · exact h

theorem GT_gens : Group.GensSpec ET.Pt [GT] := by
  have : Fact (Nat.Prime 11) := ⟨by decide⟩
  exact ⟨GT_ne, fun x => mem_zmultiples_of_prime_card ET_card GT_ne⟩

/-- it is the twist with the element 3 -/
theorem ET_twist : TwistSpec E1 ET := by
  refine ⟨.intmod 2 7, .intmod 6 7, rfl, ⟨rfl, by decide⟩, ⟨rfl, by decide⟩, ?_⟩
  have : ∃ d : ZMod 7, ¬ IsSquare d ∧ ((2 : Nat) : ZMod 7) = ((1 : Nat) : ZMod 7) * d ^ 2 ∧ ((6 : Nat) : ZMod 7) = ((1 : Nat) : ZMod 7) * d ^ 3 :=
    ⟨3, by decide, by decide, by decide⟩
  exact this

/-! ## The calls -/

/-- every call -/
noncomputable def pick : Pick := always ET 1 [GT] 1

/-- the calls of a run, with the seventh cut off by the timer in the generators' stage, or not -/
noncomputable def tape (cut : Option Cur) (i : Nat) : Pick := if i = 6 then { pick with cut := cut } else pick

theorem pick_elt : pick.elt F7 = .intmod 1 7 := always_elt_self ET 1 [GT] 1 (.intmod 1 7) rfl

theorem tape_elt (cut : Option Cur) (i : Nat) : (tape cut i).elt F7 = .intmod 1 7 := by
  unfold tape
  split
  · exact pick_elt
  · exact pick_elt

theorem drawn (cut : Option Cur) (E : Crv) (h : Drawn (tape cut) E) : E = E1 := by
  obtain ⟨f, a, b⟩ := E
  obtain ⟨⟨i, h1⟩, ⟨j, h2⟩, ⟨k, h3⟩⟩ := h
  have hf : f = F7 := by
    have : ∀ i, (tape cut i).randomField = F7 ∧ (tape cut i).typedField = F7 := by
      intro i
      unfold tape
      split <;> exact ⟨rfl, rfl⟩
    rcases h1 with h1 | h1
    · exact h1.trans (this i).1
    · exact h1.trans (this i).2
  subst hf
  simp only at h2 h3
  rw [h2, h3, tape_elt, tape_elt]
  rfl

theorem tape_ok (c : Config) (hf : FieldAsked (plain c) (.prime 7)) (hp : FieldAsked { plain c with random := 0 } (.prime 7)) (cut : Option Cur)
    (hc : ∀ x, cut = some x → x.info = [] ∧ x.seed = none) (h0 : (plain c).seedAlgo = .none := by decide +kernel) : TapeOk c (tape cut) fun _ _ => ET := by
  have hok : pick.Ok (plain c) := always_ok (plain c) ET hf hp 1 (by decide) [GT] 1 h0
  have hgens : pick.gens ET = [GT] := by
    simp only [pick, always, dif_pos]
  refine ⟨fun i => ?_, fun j E h _ => ?_, fun i j E h _ => ?_, fun i j E h _ => ?_⟩
  · unfold tape
    split
    · exact ⟨fun x hx => ⟨fun _ => (hc x hx).1, fun _ => (hc x hx).2⟩, hok.fail, hok.seed, hok.randomField, hok.typedField, hok.elt, hok.ansiSeed, hok.which, hok.mul,
        hok.info, hok.verdict⟩
    · exact hok
  · rw [drawn cut E h]; exact ET_twist
  · have : (tape cut i).sea ET = Nat.card ET.Pt := by unfold tape; split <;> rfl
    rw [this]; exact Or.inl rfl
  · have : (tape cut i).gens ET = [GT] := by unfold tape; split <;> exact hgens
    rw [this]; exact GT_gens

/-! ## The stages -/

/-- the curve at the beginning of each stage: from `x` on, with the number `n` for the order of the twist -/
noncomputable def course (x : Cur) (n : Nat) : Nat → Cur
  | 0 | 1 => x
  | 2 => { x with field := some F7 }
  | 3 => { x with field := some F7, a := some (.intmod 1 7) }
  | 4 => { x with field := some F7, a := some (.intmod 1 7), b := some (.intmod 1 7) }
  | 5 => { x with seed := none, field := some F7, a := some ET.a, b := some ET.b, crv := some ET, order := x.order.map fun (m : Nat) => ((16 : Int) - m).toNat, gens := none }
  | 6 => { x with seed := none, field := some F7, a := some ET.a, b := some ET.b, crv := some ET, order := some n, gens := none }
  | 7 => { x with seed := none, field := some F7, a := some ET.a, b := some ET.b, crv := some ET, order := some n, gens := some ⟨ET, [⟨⟨GT, 11, n / 11⟩, []⟩]⟩ }
  | _ => { x with seed := none, field := some F7, a := some ET.a, b := some ET.b, crv := some ET, order := some n,
                  gens := some ⟨ET, [⟨⟨GT, 11, n / 11⟩, [some ⟨GT, 11, 0⟩]⟩]⟩ }

/-- the cardinality stored in the curve object -/
def store (x : Cur) (k : Option (Crv × Int)) (s : Nat) : Option (Crv × Int) := if s < 5 then k else x.order.map fun (m : Nat) => (ET, (16 : Int) - m)

/-- the world at the beginning of each stage -/
noncomputable def along (x : Cur) (n : Nat) (k : Option (Crv × Int)) (T : Nat → Pick) (i : Nat) (s : Nat) : W :=
  ⟨⟨course x n s, T, i + s, false⟩, fun _ _ => ET, store x k s⟩

/-- the tables of the runs -/
structure Tables (c : Config) : Prop where
  covered : Covered c
  hex : c.hexCheck = none
  seed : (exhaustiveSetup (plain c)).gens.seed = some .skip
  field : (exhaustiveSetup (plain c)).gens.field = some .fieldRandom
  a : (exhaustiveSetup (plain c)).gens.a = some .aRandom
  b : (exhaustiveSetup (plain c)).gens.b = some .bRandom
  gens : (exhaustiveSetup (plain c)).gens.gens = some .gensAny
  points : (exhaustiveSetup (plain c)).gens.points = some .pointsPrime
  metadata : (exhaustiveSetup (plain c)).gens.metadata = some .skip

/-- the stages other than those of the curve and the order -/
theorem stage_plain (c : Config) (t : Tables c) (x : Cur) (n : Nat) (s : Nat) (hs : s < 9) (h4 : s ≠ 4) (h5 : s ≠ 5) :
    act pari (plain c) pick s (course x n s) = some (course x n (s + 1), 1) := by
  match s, hs with
  | 0, _ => simp only [act, stageOf, t.seed, Option.bind_some, id, call, course]
  | 1, _ =>
    simp only [act, stageOf, t.field, Option.bind_some, id, call, course]
    rfl
  | 2, _ =>
    simp only [act, stageOf, t.a, Option.bind_some, id, call, course, Option.map_some, pick_elt]
  | 3, _ =>
    simp only [act, stageOf, t.b, Option.bind_some, id, call, course, Option.map_some, pick_elt]
  | 6, _ =>
    simp only [act, stageOf, t.gens, Option.bind_some, id, call, course, gensStage, pick, always, dif_pos, found, Group.gensAny, List.map_cons,
      List.map_nil, Group.gensPoint, bare, pari, GT_order]
  | 7, _ =>
    have h11 : Subgroup.primes pari.isprime pari.fac 11 = [11] := by
      have : pari.isprime 11 = true := (pari_ok.isprime 11).2 (by decide)
      simp [Subgroup.primes, this]
    simp only [act, stageOf, t.points, Option.bind_some, id, call, call.withPoints, course, pointsStage, if_true, Option.map_some, Group.pointsPrime,
      List.map_cons, List.map_nil, h11, Group.fromOrders, Group.fromOrder]
  | 8, _ => simp only [act, stageOf, t.metadata, Option.bind_some, id, call, course]

/-- the order stage -/
def OrderStage (c : Config) (x : Cur) (n : Nat) : Prop :=
  act (cached pari (x.order.map fun (m : Nat) => (ET, (16 : Int) - m))) (plain c) pick 5 (course x n 5) = some (course x n 6, 1)

open Engine Engine.Spec in
/-- a stage of a run -/
theorem stage_ok (c : Config) (t : Tables c) (x : Cur) (n : Nat) (hx : ∀ m, x.order = some m → m ≤ 16) (ho : OrderStage c x n) (k : Option (Crv × Int))
    (T : Nat → Pick) (i s : Nat) (hs : s < 9) (hT : T (i + s) = pick) :
    Succeeds (setup pari c) s (along x n k T i s) 1 (along x n k T i (s + 1)) := by
  refine ⟨along x n k T i (s + 1), ?_, by decide, ?_⟩
  · by_cases h4 : s = 4
    · subst h4
      change gen pari c.bits (exhaustiveSetup c) 4 _ = _
      have hp : (along x n k T i 4).base.pick = pick := hT
      unfold gen
      rw [if_pos rfl, hp]
      change Twisted.done (along x n k T i 4) (curveAct (exhaustiveSetup c) (fun _ => ET) (course x n 4) k) = _
      have : curveAct (exhaustiveSetup c) (fun _ => ET) (course x n 4) k =
          some ((course x n 5, x.order.map fun (m : Nat) => (ET, (16 : Int) - m)), 1) := by
        unfold curveAct
        rw [if_pos (table_twist c t.covered)]
        simp only [curveStage, course]
        rw [if_neg (show ¬ (Crv.mk F7 (.intmod 1 7) (.intmod 1 7)).eqn.Δ = 0 from E7_delta)]
        cases hxo : x.order with
        | none => simp only [replaced, Option.map_none]
        | some m =>
          simp only [replaced, Option.map_some]
          rfl
      rw [this]
      rfl
    · change gen pari c.bits (exhaustiveSetup c) s _ = _
      have hp : (along x n k T i s).base.pick = pick := hT
      unfold gen
      rw [if_neg h4, if_neg (by
        rintro ⟨rfl, -, -, h⟩
        simp only [along, store, unreadable] at h
        cases hxo : x.order with
        | none => simp [hxo] at h
        | some m =>
          have := hx m hxo
          simp [hxo] at h
          omega)]
      simp only [gen_same _ c t.covered s h4]
      have hact : act (if s = 5 then cached pari (along x n k T i s).cache else pari) (plain c) pick s (course x n s) = some (course x n (s + 1), 1) := by
        by_cases h5 : s = 5
        · subst h5
          rw [if_pos rfl]
          exact ho
        · rw [if_neg h5]
          exact stage_plain c t x n s hs h4 h5
      have hst : store x k s = store x k (s + 1) := by
        unfold store
        by_cases h5 : s < 5
        · rw [if_pos h5, if_pos (by omega)]
        · rw [if_neg h5, if_neg (by omega)]
      have hg : ∀ P, act P (plain c) pick s (course x n s) = some (course x n (s + 1), 1) →
          (Whole.setup P (plain c)).gen s (along x n k T i s).base = ((along x n k T i (s + 1)).base, .ret 1) := by
        intro P h
        change Whole.gen P c.bits (exhaustiveSetup (plain c)) s (along x n k T i s).base = _
        unfold Whole.gen
        rw [hp]
        change Whole.done (along x n k T i s).base (act P (plain c) pick s (course x n s)) = _
        rw [h]
        rfl
      rw [hg _ hact]
      simp only [along, hst]
  · rw [table_checks pari c t.covered]
    by_cases hs4 : s = 4
    · rw [if_pos hs4]
      subst hs4
      have hck : check .curveNonzero (along x n k T i (4 + 1)) = (along x n k T i (4 + 1), 1) := by
        simp only [check, Whole.check, along, course]
        rw [if_neg (show ¬ ET.eqn.Δ = 0 from T7_delta)]
      refine .cons ?_ ?_
      · rw [hck]; exact Int.one_pos
      · rw [hck]; exact .nil _
    · rw [if_neg hs4, if_neg (by rw [t.hex]; simp)]
      exact .nil _

open Engine in
theorem loop_next {σ : Type} (S : Engine.Setup σ) (n : Nat) (st st' : St σ) (hs : st.state < 9) (h : step S 0 0 st = .inl st') :
    loop S 0 9 0 (n + 1) st = loop S 0 9 0 n st' := by
  conv => lhs; unfold loop
  rw [if_pos hs, h]

open Engine Engine.Spec in
/-- stages that succeed -/
theorem loop_some {σ : Type} (S : Engine.Setup σ) (ws : Nat → σ) (m : Nat) (hm : m ≤ 9) (h : ∀ s, s < m → Succeeds S s (ws s) 1 (ws (s + 1))) (n : Nat) :
    ∀ (k : Nat) (st : St σ), k + st.state = m → st.w = ws st.state →
      ∃ st', loop S 0 9 0 (k + n) st = loop S 0 9 0 n st' ∧ st'.w = ws m ∧ st'.state = m := by
  intro k
  induction k with
  | zero => intro st hs hw; exact ⟨st, by rw [Nat.zero_add], by rw [hw]; congr 1; omega, by omega⟩
  | succ k ih =>
    intro st hs hw
    obtain ⟨st1, h1, h2, h3⟩ := step_succeeds S st _ (hw ▸ h st.state (by omega))
    obtain ⟨st', h4, h5, h6⟩ := ih st1 (by omega) (by rw [h3, h2])
    exact ⟨st', by rw [show k + 1 + n = (k + n) + 1 by omega, loop_next S _ st st1 (by omega) h1, h4], h5, h6⟩

open Engine Engine.Spec in
/-- a generator that is cut off -/
theorem step_cut {σ : Type} (S : Engine.Setup σ) (st : St σ) (w' : σ) (h : S.gen st.state st.w = (w', .timeout)) (hs : st.state < 9) :
    ∃ st', step S 0 0 st = .inl st' ∧ st'.state = 0 ∧ st'.w = cleaned S 0 st.state w' := by
  have he : execStage S 0 st.state st.w st.log = (w', ((0 : Nat) : Int) - (st.state : Int), Ev.gen st.state .timeout :: st.log) := by
    unfold execStage
    rw [h]
  unfold step
  simp only [he]
  rw [if_pos (by omega), if_neg (by simp only [INT_MIN]; omega), if_neg (by simp)]
  have e : (max ((st.state : Int) + (((0 : Nat) : Int) - (st.state : Int))) ((0 : Nat) : Int)).toNat = 0 := by omega
  refine ⟨_, rfl, e, ?_⟩
  simp only [e]
  exact unrollLoop_world S 0 _ _ _

/-! ## What is printed -/

/-- what is printed of the curve -/
def printed (n : Nat) : Output.Curve :=
  ⟨none, .prime 7, .intmod 2 7, .intmod 6 7, n, [⟨⟨.intmod 1 7, .intmod 3 7, 11, some (n / 11)⟩, [⟨.intmod 1 7, .intmod 3 7, 11, none⟩]⟩], []⟩

theorem course_printed (x : Cur) (n : Nat) (hx : x.info = []) : outCurve (course x n 9) = some (printed n) := by
  have h1 : num F7 (elem F7 1) = 1 := num_elem F7 1 (by decide)
  have h3 : num F7 (elem F7 3) = 3 := num_elem F7 3 (by decide)
  have hp : ∀ k n m, outPoint ET k ⟨GT, n, m⟩ = some ⟨.intmod 1 7, .intmod 3 7, n, k⟩ := by
    intro k n m
    change (match ielement (out F7.1) (num F7 (elem F7 1)), ielement (out F7.1) (num F7 (elem F7 3)) with
      | some x, some y => some (Output.Point.mk x y n k)
      | _, _ => none) = _
    rw [h1, h3]
    rfl
  simp only [course, outCurve, List.map_cons, List.map_nil, outSub, hp, Option.bind_some, allSome, Option.map_some, hx]
  rfl

/-! ## A run without failures -/

/-- `--fp --random --twist --prime 3` -/
def cp : Config := (commandLine 5 [.fp, .random none, .twist, .prime, .arg "3".toList]).get (by decide +kernel)

theorem cp_some : commandLine 5 [.fp, .random none, .twist, .prime, .arg "3".toList] = some cp := (Option.some_get _).symm

theorem cp_tables : Tables cp :=
  ⟨covered _ _ cp cp_some (by decide +kernel) (by decide +kernel), by decide +kernel, by decide +kernel, by decide +kernel, by decide +kernel,
    by decide +kernel, by decide +kernel, by decide +kernel, by decide +kernel⟩

theorem cp_order : OrderStage cp {} 11 := by
  unfold OrderStage
  rw [cached_prime pari cp cp_tables.covered (by decide +kernel)]
  have : (exhaustiveSetup (plain cp)).gens.order = some .orderPrime := by decide +kernel
  have h11 : Order.genPrime pari.isprime 11 = some 11 := by
    have : pari.isprime 11 = true := (pari_ok.isprime 11).2 (by decide)
    simp [Order.genPrime, this]
  simp only [act, stageOf, this, Option.bind_some, id, call, course, orderStage, pick, always, ET_card, h11, filtered]

/-- the world of a run -/
noncomputable def world (cut : Option Cur) : W := ⟨⟨{}, tape cut, 0, false⟩, fun _ _ => ET, none⟩

theorem tape_none (i : Nat) : tape none i = pick := by
  unfold tape
  split
  · rfl
  · rfl

theorem one_straight : ∃ w', one pari cp 9 (world none) = (some (printed 11), w') := by
  obtain ⟨st, h1, h2, h3⟩ := loop_some (setup pari cp) (along {} 11 none (tape none) 0) 9 (Nat.le_refl _)
    (fun s hs => stage_ok cp cp_tables {} 11 (fun m hm => by cases hm) cp_order none (tape none) 0 s hs (tape_none _)) 0 9
    (Engine.init 0 (world none)) rfl rfl
  have hg : Engine.gen (setup pari cp) 0 9 9 (fresh (world none)) = some (1, st) := by
    unfold Engine.gen Engine.genRetry
    rw [if_neg (by decide), if_neg (by decide)]
    refine h1.trans ?_
    unfold Engine.loop
    rw [if_neg (by omega)]
  refine ⟨st.w, ?_⟩
  simp only [one, hg]
  rw [if_neg (by decide), h2]
  simp only [along]
  rw [course_printed {} 11 rfl]

/-- one curve asked for and found -/
theorem generated_one (P : Pari) (c : Config) (fuel : Nat) (w w' : W) (v : Output.Curve) (h : one P c fuel w = (some v, w')) :
    Json.generated (one P c fuel) 1 w = [v] := by
  simp only [Json.generated, h]

theorem cp_tape (cut : Option Cur) (hc : ∀ x, cut = some x → x.info = [] ∧ x.seed = none) : TapeOk cp (tape cut) fun _ _ => ET :=
  tape_ok cp ⟨by decide +kernel, fun _ _ => by decide +kernel, by decide +kernel⟩ ⟨by decide +kernel, fun _ _ => by decide +kernel, by decide +kernel⟩ cut hc

/-- **C86, met**: the run of `ecgen --fp --random --twist --prime 3` that draws `y² = x³ + x + 1` over the field of seven elements meets the hypotheses,
and prints the twist -/
theorem run_met : ∃ (os : List Opt) (c : Config) (w : W), commandLine 5 os = some c ∧ c.method = METHOD_TWIST ∧ c.koblitz = false ∧ c.prime = true ∧
    TapeOk c w.base.tape w.tw ∧ toSize c.count = 1 ∧ (produce pari c 9 w).2 = 0 ∧ Json.generated (one pari c 9) (toSize c.count) w = [printed 11] ∧
    ∀ v ∈ Json.generated (one pari c 9) (toSize c.count) w, ∀ j, Parson.outputJjson c.hexDigits v = .ok j →
      (Parson.render true 0 j).length ≤ 2147483646 := by
  have hcount : toSize cp.count = 1 := by decide +kernel
  obtain ⟨w', hw'⟩ := one_straight
  have hgen := generated_one _ _ _ _ _ _ hw'
  refine ⟨_, cp, world none, cp_some, by decide +kernel, by decide +kernel, by decide +kernel, cp_tape none (fun x h => by cases h), hcount, ?_, ?_, ?_⟩
  · rw [produce, (Json.generate_objects _ _ _).2, hcount, hgen]
    rfl
  · rw [hcount, hgen]
  · rw [hcount, hgen]
    intro v hv
    rw [List.mem_singleton] at hv
    subst hv
    exact short_spec (by decide +kernel)

/-! ## An order that is left behind -/

/-- `--fp --random --twist --timeout=1 3` -/
def ct : Config := (commandLine 5 [.fp, .random none, .twist, .timeout "1".toList, .arg "3".toList]).get (by decide +kernel)

theorem ct_some : commandLine 5 [.fp, .random none, .twist, .timeout "1".toList, .arg "3".toList] = some ct := (Option.some_get _).symm

theorem ct_tables : Tables ct :=
  ⟨covered _ _ ct ct_some (by decide +kernel) (by decide +kernel), by decide +kernel, by decide +kernel, by decide +kernel, by decide +kernel,
    by decide +kernel, by decide +kernel, by decide +kernel, by decide +kernel⟩

/-- the curve when the timer cuts the search for generators off: nothing has been changed by it -/
noncomputable def halfway : Cur := course {} 11 6

/-- the curve after the cleanup -/
noncomputable def left : Cur := { halfway with crv := none }

theorem ct_order (x : Cur) (n : Nat) (h : (cached pari (x.order.map fun (m : Nat) => (ET, (16 : Int) - m))).card ET = n) : OrderStage ct x n := by
  unfold OrderStage
  have : (exhaustiveSetup (plain ct)).gens.order = some .orderAny := by decide +kernel
  simp only [act, stageOf, this, Option.bind_some, id, call, course, orderStage, h]

theorem one_stale : ∃ w', one pari ct 16 (world (some halfway)) = (some (printed 5), w') := by
  have hT : ∀ i, i ≠ 6 → tape (some halfway) i = pick := fun i hi => if_neg hi
  obtain ⟨st1, h1, h2, h3⟩ := loop_some (setup pari ct) (along {} 11 none (tape (some halfway)) 0) 6 (by omega)
    (fun s hs => stage_ok ct ct_tables {} 11 (fun m hm => by cases hm) (ct_order {} 11 ET_card) none _ 0 s (by omega) (hT _ (by omega))) 10 6
    (Engine.init 0 (world (some halfway))) rfl rfl
  have hcut : (setup pari ct).gen st1.state st1.w =
      (⟨⟨halfway, tape (some halfway), 7, false⟩, fun _ _ => ET, none⟩, .timeout) := by
    rw [h2, h3]
    change gen pari ct.bits (exhaustiveSetup ct) 6 _ = _
    unfold gen
    rw [if_neg (by decide)]
    rfl
  obtain ⟨st2, h4, h5, h6⟩ := step_cut _ st1 _ hcut (by omega)
  rw [h3] at h6
  have h6 : st2.w = along left 5 none (tape (some halfway)) 7 0 := h6
  obtain ⟨st3, h7, h8, h9⟩ := loop_some (setup pari ct) (along left 5 none (tape (some halfway)) 7) 9 (Nat.le_refl _)
    (fun s hs => stage_ok ct ct_tables left 5 (fun m hm => by cases hm; decide)
      (ct_order left 5 (by simp only [left, halfway, course, Option.map_some, cached, if_true]; rfl)) none _ 7 s hs (hT _ (by omega))) 0 9
    st2 (by omega) (by rw [h6, h5])
  have hg : Engine.gen (setup pari ct) 0 9 16 (fresh (world (some halfway))) = some (1, st3) := by
    unfold Engine.gen Engine.genRetry
    rw [if_neg (by decide), if_neg (by decide)]
    refine h1.trans ?_
    rw [loop_next _ 9 st1 st2 (by omega) h4]
    refine h7.trans ?_
    unfold Engine.loop
    rw [if_neg (by omega)]
  refine ⟨st3.w, ?_⟩
  simp only [one, hg]
  rw [if_neg (by decide), h8]
  simp only [along]
  rw [course_printed left 5 rfl]

/-- **the order of another curve is printed**: with `--twist` and `--timeout`, a curve is dropped when its generators take too long, but not its order.
The order of the next curve is not counted any more: what is printed for a curve of eleven points is `2q + 2` less the order that was left behind, with
the cofactor 0. All the calls behave. -/
theorem stale_order_printed : ∃ (os : List Opt) (c : Config) (w : W) (v : Output.Curve), commandLine 5 os = some c ∧ c.method = METHOD_TWIST ∧
    c.koblitz = false ∧ 0 < c.timeout ∧ TapeOk c w.base.tape w.tw ∧ (produce pari c 16 w).2 = 0 ∧
    Json.generated (one pari c 16) (toSize c.count) w = [v] ∧ Parson.PrintableText c.hexDigits v ∧ (curveV v).order = 5 ∧
    (∃ E : Crv, (curveV v).field = E.field.1 ∧ (curveV v).a = eltV E.a ∧ (curveV v).b = eltV E.b ∧ Nat.card E.Pt = 11) ∧
    ¬ Asked c (curveV v) := by
  have hcount : toSize ct.count = 1 := by decide +kernel
  obtain ⟨w', hw'⟩ := one_stale
  have hgen := generated_one _ _ _ _ _ _ hw'
  refine ⟨_, ct, world (some halfway), printed 5, ct_some, by decide +kernel, by decide +kernel, by decide +kernel,
    tape_ok ct ⟨by decide +kernel, fun _ _ => by decide +kernel, by decide +kernel⟩ ⟨by decide +kernel, fun _ _ => by decide +kernel, by decide +kernel⟩
      (some halfway) (fun x h => by cases h; exact ⟨rfl, rfl⟩), ?_, ?_, ?_, rfl, ⟨ET, rfl, rfl, rfl, ET_card⟩, ?_⟩
  · rw [produce, (Json.generate_objects _ _ _).2, hcount, hgen]
    rfl
  · rw [hcount, hgen]
  · refine ⟨⟨fun m hm => (nomatch hm), fun s hs => (nomatch hs)⟩, ?_, by decide, by decide, short_spec (by decide +kernel)⟩
    exact terms_out F7
  · rintro ⟨-, f, hf, -, -, -, -, -, ho, -⟩
    have hf' : F7 = f := Subtype.ext hf
    subst hf'
    have : (5 : Nat) = Nat.card T7.Point := ho
    rw [T7_card] at this
    omega

/-! ## Koblitz curves -/

/-- `--fp --random --twist --koblitz=1 3` -/
def ck : Config := (commandLine 5 [.fp, .random none, .twist, .koblitz (some "1".toList), .arg "3".toList]).get (by decide +kernel)

theorem ck_some : commandLine 5 [.fp, .random none, .twist, .koblitz (some "1".toList), .arg "3".toList] = some ck := (Option.some_get _).symm

theorem ck_both : Both ck := both _ _ ck ck_some (by decide +kernel) (by decide +kernel) (by decide +kernel) (by decide +kernel) (by decide +kernel)

/-- the curve at the beginning of each stage -/
noncomputable def courseK : Nat → Cur
  | 0 | 1 => {}
  | 2 => { field := some F7 }
  | 3 => { field := some F7, a := some (.int 1) }
  | 4 => { field := some F7, a := some (.int 1), b := some (.int 1) }
  | _ => { field := some F7, a := some ET.a, b := some ET.b, crv := some ET }

/-- the world at the beginning of each stage -/
noncomputable def alongK (s : Nat) : W := ⟨⟨courseK s, tape none, s, false⟩, fun _ _ => ET, none⟩

theorem stageK (s : Nat) (hs : s < 5) : Engine.Spec.Succeeds (setup pari ck) s (alongK s) 1 (alongK (s + 1)) := by
  have hp : ∀ s, (alongK s).base.pick = pick := fun s => tape_none s
  refine ⟨alongK (s + 1), ?_, by decide, ?_⟩
  · change gen pari ck.bits (exhaustiveSetup ck) s _ = _
    unfold gen
    by_cases h4 : s = 4
    · subst h4
      rw [if_pos rfl, hp]
      change Twisted.done (alongK 4) (curveAct (exhaustiveSetup ck) (fun _ => ET) (courseK 4) none) = _
      have : curveAct (exhaustiveSetup ck) (fun _ => ET) (courseK 4) none = some ((courseK 5, none), 1) := by
        unfold curveAct
        rw [if_pos (both_tables ck ck_both).2.2.2.2.1]
        simp only [curveStage, courseK]
        rw [if_neg (show ¬ (Crv.mk F7 (.int 1) (.int 1)).eqn.Δ = 0 from E7_delta)]
        rfl
      rw [this]
      rfl
    · rw [if_neg h4, if_neg (by omega)]
      have : Whole.gen (if s = 5 then cached pari (alongK s).cache else pari) ck.bits (exhaustiveSetup ck) s (alongK s).base =
          ((alongK (s + 1)).base, .ret 1) := by
        unfold Whole.gen
        rw [hp]
        change Whole.done (alongK s).base (act _ ck pick s (courseK s)) = _
        match s, (show s < 4 by omega) with
        | 0, _ =>
          have : (exhaustiveSetup ck).gens.seed = some .skip := by decide +kernel
          simp only [act, stageOf, this, Option.bind_some, id, call]
          rfl
        | 1, _ =>
          have : (exhaustiveSetup ck).gens.field = some .fieldRandom := by decide +kernel
          simp only [act, stageOf, this, Option.bind_some, id, call]
          rfl
        | 2, _ =>
          have : (exhaustiveSetup ck).gens.a = some .aOne := by decide +kernel
          simp only [act, stageOf, this, Option.bind_some, id, call]
          rfl
        | 3, _ =>
          have : (exhaustiveSetup ck).gens.b = some .bOne := by decide +kernel
          simp only [act, stageOf, this, Option.bind_some, id, call]
          rfl
      rw [this]
      rfl
  · rw [both_checks pari ck ck_both s (by omega)]
    by_cases h4 : s = 4
    · rw [if_pos h4]
      subst h4
      have hck : check .curveNonzero (alongK (4 + 1)) = (alongK (4 + 1), 1) := by
        simp only [check, Whole.check, alongK, courseK]
        rw [if_neg (show ¬ ET.eqn.Δ = 0 from T7_delta)]
      refine .cons ?_ ?_
      · rw [hck]; exact Int.one_pos
      · rw [hck]; exact .nil _
    · rw [if_neg h4]
      exact .nil _

/-- **C87, refuted for Koblitz curves**: a run of `ecgen --fp --random --twist --koblitz=1 3` in which all the calls behave does something undefined -/
theorem koblitz_run_undefined : ∃ (os : List Opt) (c : Config) (w : W), commandLine 5 os = some c ∧ c.method = METHOD_TWIST ∧ c.koblitz = true ∧
    (∀ i s d, (w.base.tape i).fail s = some d → d ∈ failures s) ∧ (∀ j E n, (w.tw j E).a ≠ .int n) ∧ w.base.ub = false ∧
    ∃ st st', Engine.Reaches (setup pari c) 0 9 0 (Engine.init 0 (fresh w)) st ∧ st.state < 9 ∧ Engine.step (setup pari c) 0 0 st = .inr st' ∧
      st'.w.base.ub = true := by
  obtain ⟨st, h1, h2, h3⟩ := Whole.reach_straight (setup pari ck) alongK 5 (by omega) stageK
  refine ⟨_, ck, alongK 0, ck_some, by decide +kernel, by decide +kernel, fun i s d h => ?_, fun _ _ n h => (nomatch h), rfl, st, ?_⟩
  · have : (tape none i).fail s = some d := h
    rw [tape_none] at this
    cases this
  · have hg := order_undefined pari ck ck_both (alongK 5) ⟨ET.a, rfl, fun n h => by cases h⟩ (by rw [show (alongK 5).base.pick = pick from tape_none 5]; rfl)
      (by rw [show (alongK 5).base.pick = pick from tape_none 5]; rfl)
    have he : Engine.execStage (setup pari ck) 0 st.state st.w st.log =
        ({ alongK 5 with base := { (alongK 5).base.next with ub := true } }, Engine.INT_MIN, .gen 5 (.ret Engine.INT_MIN) :: st.log) := by
      unfold Engine.execStage
      rw [h2, h3, hg]
      rfl
    have hs : Engine.step (setup pari ck) 0 0 st = .inr { st with w := { alongK 5 with base := { (alongK 5).base.next with ub := true } },
                                                                  log := .gen 5 (.ret Engine.INT_MIN) :: st.log } := by
      unfold Engine.step
      simp only [he]
      rw [if_pos (by decide), if_pos (Or.inl trivial)]
    exact ⟨_, h1, by omega, hs, rfl⟩

end Ecgen.Twisted
