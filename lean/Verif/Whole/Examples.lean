import Verif.Whole.Defined
import Verif.Cm.ConstructLemmas
import Verif.Koblitz.Props
import Mathlib.GroupTheory.SpecificGroups.Cyclic

/-!
# Runs (C75, C76)

Runs on the curve `y² = x³ + x + 1` over the field of seven elements, which has five points, and on the curve `y² = x³ + 2x + 2` over the field of
three elements, which has but one.
-/

namespace Ecgen.Whole

open Output Output.Spec Cli

/-! ## A run without failures -/

open Engine Engine.Spec in
theorem runChecks_passes {σ : Type} (s : Nat) : ∀ (cs : List (σ → σ × Int)) (i : Nat) (w w' : σ) (d : Int) (log : List Ev), Passes cs w w' →
    (runChecks s i cs w d log).1 = w' ∧ (runChecks s i cs w d log).2.1 = d := by
  intro cs
  induction cs with
  | nil => intro i w w' d log h; cases h; exact ⟨rfl, rfl⟩
  | cons c cs ih =>
    intro i w w' d log h
    cases h with
    | cons h1 h2 =>
      simp only [runChecks]
      rw [if_neg (by omega)]
      exact ih _ _ _ _ _ h2

open Engine Engine.Spec in
theorem step_succeeds {σ : Type} (S : Engine.Setup σ) (st : St σ) (w' : σ) (h : Succeeds S st.state st.w 1 w') :
    ∃ st', step S 0 0 st = .inl st' ∧ st'.state = st.state + 1 ∧ st'.w = w' := by
  obtain ⟨w1, h1, h2, h3⟩ := h
  have he : (execStage S 0 st.state st.w st.log).1 = w' ∧ (execStage S 0 st.state st.w st.log).2.1 = 1 := by
    unfold execStage
    rw [h1]
    simp only
    rw [if_pos h2]
    exact runChecks_passes _ _ _ _ _ _ _ h3
  unfold step
  simp only [he.1, he.2]
  rw [if_neg (by decide)]
  exact ⟨_, rfl, by simp only; omega, rfl⟩

open Engine Engine.Spec in
theorem loop_straight {σ : Type} (S : Engine.Setup σ) (ws : Nat → σ) (h : ∀ s, s < 9 → Succeeds S s (ws s) 1 (ws (s + 1))) :
    ∀ (n : Nat) (st : St σ), n + st.state = 9 → st.w = ws st.state → ∃ st', loop S 0 9 0 n st = some (1, st') ∧ st'.w = ws 9 := by
  intro n
  induction n with
  | zero =>
    intro st hs hw
    refine ⟨st, ?_, ?_⟩
    · unfold loop; rw [if_neg (by omega)]
    · rw [hw]; congr 1; omega
  | succ n ih =>
    intro st hs hw
    obtain ⟨st', h1, h2, h3⟩ := step_succeeds S st _ (hw ▸ h st.state (by omega))
    unfold loop
    rw [if_pos (by omega), h1]
    exact ih st' (by omega) (by rw [h3, h2])

/-- a generator that succeeds, and so do the checks -/
theorem succeeds_act (P : Pari) (c : Config) (hc : (c.seedAlgo = .none ∧ c.method = 0) ∨ (c.seedAlgo = .ansi ∧ c.method = METHOD_SEED))
    (hh : c.hexCheck = none) (p : Pick) (hcut : p.cut = none) (hfail : ∀ s, p.fail s = none) (s : Nat) (x x' : Cur)
    (hact : act P c p s x = some (x', 1)) (hd : s = 4 → ∃ E, x'.crv = some E ∧ E.eqn.Δ ≠ 0) (w : W) (hw : w.tape = fun _ => p) (i : Nat) :
    Engine.Spec.Succeeds (setup P c) s ({ w with cur := x, pos := i } : W) 1 ({ w with cur := x', pos := i + 1 } : W) := by
  refine ⟨({ w with cur := x', pos := i + 1 } : W), ?_, by decide, ?_⟩
  · change gen P c.bits (exhaustiveSetup c) s _ = _
    have hp : ({ w with cur := x, pos := i } : W).pick = p := by simp only [W.pick, hw]
    simp only [gen, hp, hcut, hfail]
    change done _ (act P c p s x) = _
    rw [hact]
    rfl
  · rw [table_checks P c hc]
    by_cases hs4 : s = 4
    · obtain ⟨E, hE, hE'⟩ := hd hs4
      rw [if_pos hs4]
      have hck : check ({ w with cur := x', pos := i + 1 } : W) .curveNonzero = (({ w with cur := x', pos := i + 1 } : W), 1) := by
        simp only [check, hE]
        rw [if_neg hE']
      refine .cons ?_ ?_
      · rw [hck]; exact Int.one_pos
      · rw [hck]; exact .nil _
    · rw [if_neg hs4, if_neg (by rw [hh]; simp)]
      exact .nil _

/-- nine stages that succeed -/
theorem straight (P : Pari) (c : Config) (hc : (c.seedAlgo = .none ∧ c.method = 0) ∨ (c.seedAlgo = .ansi ∧ c.method = METHOD_SEED))
    (hh : c.hexCheck = none) (p : Pick) (hcut : p.cut = none) (hfail : ∀ s, p.fail s = none) (xs : Nat → Cur) (h0 : xs 0 = {})
    (hact : ∀ s, s < 9 → act P c p s (xs s) = some (xs (s + 1), 1)) (hd : ∃ E, (xs 5).crv = some E ∧ E.eqn.Δ ≠ 0)
    (w : W) (hw : w.tape = fun _ => p) :
    ∃ st, Engine.gen (setup P c) 0 9 9 { w with cur := {} } = some (1, st) ∧ st.w.cur = xs 9 ∧ one P c 9 w = (outCurve (xs 9), st.w) := by
  obtain ⟨st, h1, h2⟩ := loop_straight (setup P c) (fun s => ({ w with cur := xs s, pos := w.pos + s } : W))
    (fun s hs => succeeds_act P c hc hh p hcut hfail s _ _ (hact s hs) (fun h => by subst h; exact hd) w hw (w.pos + s)) 9
    (Engine.init 0 { w with cur := {} }) rfl (by simp only [Engine.init, h0]; rfl)
  have hg : Engine.gen (setup P c) 0 9 9 { w with cur := {} } = some (1, st) := by
    unfold Engine.gen Engine.genRetry
    rw [if_neg (by decide), if_neg (by decide)]
    exact h1
  refine ⟨st, hg, by rw [h2], ?_⟩
  simp only [one, hg]
  rw [if_neg (by decide), h2]

/-- undefined behaviour of a generator -/
theorem gen_undefined (P : Pari) (c : Config) (p : Pick) (hcut : p.cut = none) (s : Nat) (hfail : p.fail s = none) (w : W) (hp : w.pick = p)
    (h : act P c p s w.cur = none) : (setup P c).gen s w = ({ w.next with ub := true }, .ret Engine.INT_MIN) := by
  change gen P c.bits (exhaustiveSetup c) s w = _
  simp only [gen, hp, hcut, hfail]
  change done w (act P c p s w.cur) = _
  rw [h]
  rfl

/-- the first stages succeed -/
theorem reach_straight {σ : Type} (S : Engine.Setup σ) (ws : Nat → σ) (n : Nat) (hn : n ≤ 9)
    (h : ∀ s, s < n → Engine.Spec.Succeeds S s (ws s) 1 (ws (s + 1))) :
    ∃ st, Engine.Reaches S 0 9 0 (Engine.init 0 (ws 0)) st ∧ st.state = n ∧ st.w = ws n := by
  induction n with
  | zero => exact ⟨_, .refl, rfl, rfl⟩
  | succ n ih =>
    obtain ⟨st, h1, h2, h3⟩ := ih (by omega) fun s hs => h s (by omega)
    obtain ⟨st', h4, h5, h6⟩ := step_succeeds S st (ws (n + 1)) (by rw [h2, h3]; exact h n (by omega))
    exact ⟨st', .next h1 (by omega) h4, by omega, h6⟩

/-! ## The curve -/

/-- the field of seven elements -/
def F7 : Fld := ⟨.prime 7, show Nat.Prime 7 by decide⟩

instance : Fact (Nat.Prime 7) := ⟨by decide⟩

/-- the curve `y² = x³ + x + 1` -/
noncomputable def E7 : WeierstrassCurve.Affine (Carrier F7) := equation F7 (elem F7 1) (elem F7 1)

theorem E7_delta : E7.Δ ≠ 0 := by
  have : (Invalid.primeCurve (1 : ZMod 7) 1).Δ ≠ 0 := by
    have := Cm.Construct.elliptic (K := ZMod 7) (by decide) 1 1 (by decide)
    rw [WeierstrassCurve.isElliptic_iff, isUnit_iff_ne_zero] at this
    exact this
  exact this

theorem E7_card : Nat.card E7.Point = 5 := by
  have : Nat.card (Invalid.primeCurve (1 : ZMod 7) 1).Point = 5 := by
    rw [Cm.Construct.natCard_point (by decide) 1 1 (by decide)]
    decide +kernel
  exact this

theorem E7_nonsingular : E7.Nonsingular (elem F7 0) (elem F7 1) := by
  have : (Invalid.primeCurve (1 : ZMod 7) 1).Nonsingular ((0 : Nat) : ZMod 7) ((1 : Nat) : ZMod 7) := by
    have := Cm.Construct.elliptic (K := ZMod 7) (by decide) 1 1 (by decide)
    rw [← WeierstrassCurve.Affine.equation_iff_nonsingular, Cm.Construct.equation_prime]
    decide
  exact this

/-- the point (0, 1) -/
noncomputable def G7 : E7.Point := .some _ _ E7_nonsingular

theorem G7_ne : G7 ≠ 0 := WeierstrassCurve.Affine.Point.some_ne_zero _

theorem G7_order : addOrderOf G7 = 5 := by
  have : Fact (Nat.Prime 5) := ⟨by decide⟩
  have hd : addOrderOf G7 ∣ 5 := E7_card ▸ addOrderOf_dvd_natCard G7
  rcases (Nat.dvd_prime (by decide : Nat.Prime 5)).1 hd with h | h
  · exact absurd (AddMonoid.addOrderOf_eq_one_iff.1 h) G7_ne
  · exact h

theorem G7_gens : Group.GensSpec E7.Point [G7] := by
  have : Fact (Nat.Prime 5) := ⟨by decide⟩
  exact ⟨G7_ne, fun x => mem_zmultiples_of_prime_card E7_card G7_ne⟩

/-! ## PARI and the user -/

/-- functions as PARI promises them -/
noncomputable def pari : Pari where
  isprime n := decide n.Prime
  fac := Classical.choose Subgroup.spec_inhabited
  card E := Nat.card E.Pt
  ord _ Q := addOrderOf Q

theorem pari_ok : pari.Ok where
  isprime n := by simp [pari]
  fac := Classical.choose_spec Subgroup.spec_inhabited
  card _ _ := rfl
  ord _ _ := rfl

open Classical in
/-- every call: no failures, the field of the curve at hand, coefficients of the number `k`, and for the curve at hand the generators given -/
noncomputable def always (E : Crv) (k : Nat) (l : List E.Pt) (mul0 : Nat) : Pick where
  cut := none
  fail _ := none
  seed := ⟨[0x5a], false, 8, 1⟩
  randomField := E.field
  typedField := E.field
  elt f := (ielement (out f.1) (if f = E.field then k else 1)).getD (.int 0)
  sea E := Nat.card E.Pt
  gens E' := if h : E' = E then h ▸ l else []
  which _ _ := 0
  mul _ _ _ := 1
  mul0 := mul0
  info := []
  verdict := none

theorem always_elt (E : Crv) (k : Nat) (hk : k < fieldSize E.field.1) (l : List E.Pt) (m : Nat) (f : Fld) :
    Elem (out f.1) ((always E k l m).elt f) := by
  have h : (if f = E.field then k else 1) < fieldSize f.1 := by
    split
    · rename_i h; rw [h]; exact hk
    · exact one_lt_size f
  obtain ⟨e, h1, h2, -⟩ := ielement_out f _ h
  simp only [always]
  rw [h1]
  exact h2

theorem always_elt_self (E : Crv) (k : Nat) (l : List E.Pt) (m : Nat) (e : Elt) (h : ielement (out E.field.1) k = some e) :
    (always E k l m).elt E.field = e := by
  simp only [always, if_true, h, Option.getD_some]

theorem always_ok (c : Config) (E : Crv) (hf : FieldAsked c E.field.1) (hp : FieldAsked { c with random := 0 } E.field.1) (k : Nat)
    (hk : k < fieldSize E.field.1) (l : List E.Pt) (m : Nat) (h0 : c.seedAlgo = .none := by decide +kernel) : (always E k l m).Ok c where
  cut x h := by cases h
  fail s d h := by cases h
  seed := show (Bits.Bits.mk [0x5a] false 8 1).WF ∧ (8 : Nat) ≠ 0 from ⟨⟨Nat.le_refl 1, by decide⟩, by decide⟩
  randomField := hf
  typedField := hp
  elt f := always_elt E k hk l m f
  ansiSeed h := by rw [h0] at h; cases h
  which n i h := h
  mul o i j h := ⟨Nat.le_refl 1, by simp only [always]; omega⟩
  info := ⟨fun x h => (nomatch h), List.nodup_nil⟩
  verdict d h := by cases h

/-- if only one curve comes up, its generators are all that is needed -/
theorem always_tape (c : Config) (E : Crv) (hf : FieldAsked c E.field.1) (hp : FieldAsked { c with random := 0 } E.field.1) (k : Nat)
    (hk : k < fieldSize E.field.1) (l : List E.Pt) (m : Nat) (hl : Group.GensSpec E.Pt l)
    (ha : ∀ e, ComesA c (fun _ => always E k l m) E.field e → e = E.a) (hb : ∀ e, ComesB c (fun _ => always E k l m) E.field e → e = E.b)
    (h0 : c.seedAlgo = .none := by decide +kernel) : TapeOk c fun _ => always E k l m where
  picks _ := always_ok c E hf hp k hk l m h0
  ansi h := by rw [h0] at h; cases h
  sea _ _ _ _ _ _ := Or.inl rfl
  gens i E' h1 h2 h3 _ := by
    have hF : E'.field = E.field := by obtain ⟨_, h1 | h1⟩ := h1 <;> exact h1
    have hA : E'.a = E.a := ha _ (hF ▸ h2)
    have hB : E'.b = E.b := hb _ (hF ▸ h3)
    have : E' = E := by
      obtain ⟨f, a, b⟩ := E
      obtain ⟨f', a', b'⟩ := E'
      simp only at hF hA hB
      subst hF hA hB
      rfl
    subst this
    simp only [always, dif_pos]
    exact hl

/-- without Koblitz coefficients, those of the number `k` come up -/
theorem always_comes (c : Config) (hc : ¬ (c.koblitz = true ∧ c.seedAlgo = .none)) (E : Crv) (k : Nat) (l : List E.Pt) (m : Nat)
    (h1 : ielement (out E.field.1) k = some E.a) (h2 : ielement (out E.field.1) k = some E.b) (e : Elt) (h0 : c.seedAlgo = .none := by decide +kernel) :
    (ComesA c (fun _ => always E k l m) E.field e → e = E.a) ∧ (ComesB c (fun _ => always E k l m) E.field e → e = E.b) := by
  constructor
  · intro h
    rw [ComesA, if_neg hc, if_pos h0] at h
    obtain ⟨_, rfl⟩ := h
    exact always_elt_self E k l m _ h1
  · intro h
    rw [ComesB, if_neg hc, if_pos h0] at h
    obtain ⟨_, rfl⟩ := h
    exact always_elt_self E k l m _ h2

/-! ## The runs -/

/-- the curve at the beginning of each stage, when the stages succeed with the curve `E`, the number `n` for its order and the one generator given -/
noncomputable def course (E : Crv) (n : Nat) (g : Group.Pt E.Pt) (ps : List (Option (Group.Pt E.Pt))) : Nat → Cur
  | 0 | 1 => {}
  | 2 => { field := some E.field }
  | 3 => { field := some E.field, a := some E.a }
  | 4 => { field := some E.field, a := some E.a, b := some E.b }
  | 5 => { field := some E.field, a := some E.a, b := some E.b, crv := some E }
  | 6 => { field := some E.field, a := some E.a, b := some E.b, crv := some E, order := some n }
  | 7 => { field := some E.field, a := some E.a, b := some E.b, crv := some E, order := some n, gens := some ⟨E, [⟨g, []⟩]⟩ }
  | _ => { field := some E.field, a := some E.a, b := some E.b, crv := some E, order := some n, gens := some ⟨E, [⟨g, ps⟩]⟩ }

/-- `--fp --random --prime 3` -/
def c1 : Config := (commandLine 4 [.fp, .random none, .prime, .arg "3".toList]).get (by decide +kernel)

/-- the curve object of the first run -/
def E1 : Crv := ⟨F7, .intmod 1 7, .intmod 1 7⟩

/-- its generator -/
noncomputable def G1 : E1.Pt := G7

theorem G1_order : addOrderOf G1 = 5 := G7_order
theorem E1_card : Nat.card E1.Pt = 5 := E7_card

theorem course1 (s : Nat) (hs : s < 9) : act pari c1 (always E1 1 [G1] 1) s (course E1 5 ⟨G1, 5, 1⟩ [some ⟨G1, 5, 0⟩] s) =
    some (course E1 5 ⟨G1, 5, 1⟩ [some ⟨G1, 5, 0⟩] (s + 1), 1) := by
  match s, hs with
  | 0, _ =>
    have : (exhaustiveSetup c1).gens.seed = some .skip := by decide +kernel
    simp only [act, stageOf, this, Option.bind_some, id, call, course]
  | 1, _ =>
    have : (exhaustiveSetup c1).gens.field = some .fieldRandom := by decide +kernel
    simp only [act, stageOf, this, Option.bind_some, id, call, course, always]
  | 2, _ =>
    have : (exhaustiveSetup c1).gens.a = some .aRandom := by decide +kernel
    simp only [act, stageOf, this, Option.bind_some, id, call, course, always, if_true, Option.map_some]
    rfl
  | 3, _ =>
    have : (exhaustiveSetup c1).gens.b = some .bRandom := by decide +kernel
    simp only [act, stageOf, this, Option.bind_some, id, call, course, always, if_true, Option.map_some]
    rfl
  | 4, _ =>
    have : (exhaustiveSetup c1).gens.curve = some .curveAny := by decide +kernel
    simp only [act, stageOf, this, Option.bind_some, id, call, course]
  | 5, _ =>
    have : (exhaustiveSetup c1).gens.order = some .orderPrime := by decide +kernel
    have h5 : Order.genPrime pari.isprime 5 = some 5 := by
      have : pari.isprime 5 = true := (pari_ok.isprime 5).2 (by decide)
      simp [Order.genPrime, this]
    simp only [act, stageOf, this, Option.bind_some, id, call, course, orderStage, always, E1_card, h5, filtered]
  | 6, _ =>
    have : (exhaustiveSetup c1).gens.gens = some .gensAny := by decide +kernel
    simp only [act, stageOf, this, Option.bind_some, id, call, course, gensStage, always, dif_pos, found, Group.gensAny, List.map_cons, List.map_nil,
      Group.gensPoint, bare, pari, G1_order]
  | 7, _ =>
    have : (exhaustiveSetup c1).gens.points = some .pointsPrime := by decide +kernel
    have h5 : Subgroup.primes pari.isprime pari.fac 5 = [5] := by
      have : pari.isprime 5 = true := (pari_ok.isprime 5).2 (by decide)
      simp [Subgroup.primes, this]
    simp only [act, stageOf, this, Option.bind_some, id, call, call.withPoints, course, pointsStage, if_true, Option.map_some, Group.pointsPrime,
      List.map_cons, List.map_nil, h5, Group.fromOrders, Group.fromOrder]
  | 8, _ =>
    have : (exhaustiveSetup c1).gens.metadata = some .skip := by decide +kernel
    simp only [act, stageOf, this, Option.bind_some, id, call, course]

/-- a number below the size of the field is the number of its element -/
theorem num_elem (f : Fld) (n : Nat) (h : n < fieldSize f.1) : num f (elem f n) = n :=
  elem_injective f _ _ (num_lt f _) h (elem_num f _)

/-- what is printed of the curve -/
def printed (a : Elt) (n : Nat) : Output.Curve :=
  ⟨none, .prime 7, a, a, n, [⟨⟨.intmod 0 7, .intmod 1 7, 5, some (n / 5)⟩, [⟨.intmod 0 7, .intmod 1 7, 5, none⟩]⟩], []⟩

theorem course1_printed : outCurve (course E1 5 ⟨G1, 5, 1⟩ [some ⟨G1, 5, 0⟩] 9) = some (printed (.intmod 1 7) 5) := by
  have h0 : num F7 (elem F7 0) = 0 := num_elem F7 0 (by decide)
  have h1 : num F7 (elem F7 1) = 1 := num_elem F7 1 (by decide)
  have hp : ∀ k n m, outPoint E1 k ⟨G1, n, m⟩ = some ⟨.intmod 0 7, .intmod 1 7, n, k⟩ := by
    intro k n m
    change (match ielement (out F7.1) (num F7 (elem F7 0)), ielement (out F7.1) (num F7 (elem F7 1)) with
      | some x, some y => some (Output.Point.mk x y n k)
      | _, _ => none) = _
    rw [h0, h1]
    rfl
  simp only [course, outCurve, List.map_cons, List.map_nil, outSub, hp, Option.bind_some, allSome, Option.map_some]
  rfl

/-- the text is short -/
def short (width : Nat) (v : Output.Curve) : Bool :=
  match Parson.outputJjson width v with
  | .ok j => decide ((Parson.render true 0 j).length ≤ 2147483646)
  | _ => true

theorem short_spec {width : Nat} {v : Output.Curve} (h : short width v = true) (j) (hj : Parson.outputJjson width v = .ok j) :
    (Parson.render true 0 j).length ≤ 2147483646 := by
  unfold short at h
  rw [hj] at h
  exact of_decide_eq_true h

/-- the world of a run -/
noncomputable def world (E : Crv) (k : Nat) (l : List E.Pt) (m : Nat) : W := ⟨{}, fun _ => always E k l m, 0, false⟩

/-- one curve asked for and found -/
theorem generated_one (P : Pari) (c : Config) (w w' : W) (v : Output.Curve) (h : one P c 9 w = (some v, w')) :
    Json.generated (one P c 9) 1 w = [v] := by
  simp only [Json.generated, h]

theorem c1_some : commandLine 4 [.fp, .random none, .prime, .arg "3".toList] = some c1 := (Option.some_get _).symm

/-- **C75, met**: the run of `ecgen --fp --random --prime 3` that finds `y² = x³ + x + 1` over the field of seven elements meets the hypotheses -/
theorem run_met : ∃ (os : List Opt) (c : Config) (w : W), commandLine 4 os = some c ∧ c.method = 0 ∧ c.koblitz = false ∧
    (c.unique = true ∨ c.cofactor = false) ∧ c.pointsType = .prime ∧ TapeOk c w.tape ∧ w.ub = false ∧ toSize c.count = 1 ∧
    (produce pari c 9 w).2 = 0 ∧ ∀ v ∈ Json.generated (one pari c 9) (toSize c.count) w, ∀ j, Parson.outputJjson c.hexDigits v = .ok j →
      (Parson.render true 0 j).length ≤ 2147483646 := by
  have hcount : toSize c1.count = 1 := by decide +kernel
  obtain ⟨st, -, -, hw'⟩ := straight pari c1 (by decide +kernel) (by decide +kernel) (always E1 1 [G1] 1) rfl (fun _ => rfl)
    (course E1 5 ⟨G1, 5, 1⟩ [some ⟨G1, 5, 0⟩]) rfl course1 ⟨E1, rfl, E7_delta⟩ (world E1 1 [G1] 1) rfl
  rw [course1_printed] at hw'
  have hgen := generated_one _ _ _ _ _ hw'
  refine ⟨_, c1, world E1 1 [G1] 1, c1_some, by decide +kernel, by decide +kernel, by decide +kernel, by decide +kernel,
    always_tape c1 E1 ⟨by decide +kernel, fun _ _ => by decide +kernel, by decide +kernel⟩
      ⟨by decide +kernel, fun _ _ => by decide +kernel, by decide +kernel⟩ 1 (by decide) [G1] 1 G7_gens
      (fun e => (always_comes c1 (by decide +kernel) E1 1 [G1] 1 rfl rfl e).1) (fun e => (always_comes c1 (by decide +kernel) E1 1 [G1] 1 rfl rfl e).2),
    rfl, hcount, ?_, ?_⟩
  · rw [produce, (Json.generate_objects _ _ _).2, hcount, hgen]
    rfl
  · rw [hcount, hgen]
    intro v hv
    rw [List.mem_singleton] at hv
    subst hv
    exact short_spec (by decide +kernel)

/-! ## Koblitz curves over prime fields -/

/-- `--fp --koblitz=1 163` -/
def c2 : Config := (commandLine 4 [.fp, .koblitz (some "1".toList), .arg "163".toList]).get (by decide +kernel)

/-- the curve object of the second run, over the field of seven elements that was typed -/
def E2 : Crv := ⟨F7, .int 1, .int 1⟩
noncomputable def G2 : E2.Pt := G7

/-- the order of the binary Koblitz curve of the same size -/
def n2 : Nat := (Koblitz.getOrder 163 1).getD 0

theorem G2_order : addOrderOf G2 = 5 := G7_order
theorem c2_bits : c2.bits = 163 := by decide +kernel

theorem course2 (s : Nat) (hs : s < 9) : act pari c2 (always E2 1 [G2] 1) s (course E2 n2 ⟨G2, 5, n2 / 5⟩ [some ⟨G2, 5, 0⟩] s) =
    some (course E2 n2 ⟨G2, 5, n2 / 5⟩ [some ⟨G2, 5, 0⟩] (s + 1), 1) := by
  match s, hs with
  | 0, _ =>
    have : (exhaustiveSetup c2).gens.seed = some .skip := by decide +kernel
    simp only [act, stageOf, this, Option.bind_some, id, call, course]
  | 1, _ =>
    have : (exhaustiveSetup c2).gens.field = some .fieldInput := by decide +kernel
    simp only [act, stageOf, this, Option.bind_some, id, call, course, always]
  | 2, _ =>
    have : (exhaustiveSetup c2).gens.a = some .aOne := by decide +kernel
    simp only [act, stageOf, this, Option.bind_some, id, call, course]
    rfl
  | 3, _ =>
    have : (exhaustiveSetup c2).gens.b = some .bOne := by decide +kernel
    simp only [act, stageOf, this, Option.bind_some, id, call, course]
    rfl
  | 4, _ =>
    have : (exhaustiveSetup c2).gens.curve = some .curveAny := by decide +kernel
    simp only [act, stageOf, this, Option.bind_some, id, call, course]
  | 5, _ =>
    have : (exhaustiveSetup c2).gens.order = some .orderKoblitz := by decide +kernel
    have h5 : ∀ k, Koblitz.genOrder 163 1 k = n2 := by
      intro k
      have : (Koblitz.getOrder 163 1).isSome := by decide +kernel
      obtain ⟨n, hn⟩ := Option.isSome_iff_exists.1 this
      simp [Koblitz.genOrder, n2, hn]
    simp only [act, stageOf, this, Option.bind_some, id, call, course, orderStage, E2, c2_bits, h5]
  | 6, _ =>
    have : (exhaustiveSetup c2).gens.gens = some .gensAny := by decide +kernel
    simp only [act, stageOf, this, Option.bind_some, id, call, course, gensStage, always, dif_pos, found, Group.gensAny, List.map_cons, List.map_nil,
      Group.gensPoint, bare, pari, G2_order]
  | 7, _ =>
    have : (exhaustiveSetup c2).gens.points = some .pointsPrime := by decide +kernel
    have h5 : Subgroup.primes pari.isprime pari.fac 5 = [5] := by
      have : pari.isprime 5 = true := (pari_ok.isprime 5).2 (by decide)
      simp [Subgroup.primes, this]
    simp only [act, stageOf, this, Option.bind_some, id, call, call.withPoints, course, pointsStage, if_true, Option.map_some, Group.pointsPrime,
      List.map_cons, List.map_nil, h5, Group.fromOrders, Group.fromOrder]
  | 8, _ =>
    have : (exhaustiveSetup c2).gens.metadata = some .skip := by decide +kernel
    simp only [act, stageOf, this, Option.bind_some, id, call, course]

theorem course2_printed : outCurve (course E2 n2 ⟨G2, 5, n2 / 5⟩ [some ⟨G2, 5, 0⟩] 9) = some (printed (.int 1) n2) := by
  have h0 : num F7 (elem F7 0) = 0 := num_elem F7 0 (by decide)
  have h1 : num F7 (elem F7 1) = 1 := num_elem F7 1 (by decide)
  have hp : ∀ k n m, outPoint E2 k ⟨G2, n, m⟩ = some ⟨.intmod 0 7, .intmod 1 7, n, k⟩ := by
    intro k n m
    change (match ielement (out F7.1) (num F7 (elem F7 0)), ielement (out F7.1) (num F7 (elem F7 1)) with
      | some x, some y => some (Output.Point.mk x y n k)
      | _, _ => none) = _
    rw [h0, h1]
    rfl
  simp only [course, outCurve, List.map_cons, List.map_nil, outSub, hp, Option.bind_some, allSome, Option.map_some]
  rfl

theorem c2_some : commandLine 4 [.fp, .koblitz (some "1".toList), .arg "163".toList] = some c2 := (Option.some_get _).symm

theorem comes2 (e : Elt) : (ComesA c2 (fun _ => always E2 1 [G2] 1) F7 e → e = E2.a) ∧ (ComesB c2 (fun _ => always E2 1 [G2] 1) F7 e → e = E2.b) := by
  have hk : c2.koblitz = true ∧ c2.seedAlgo = .none := by decide +kernel
  have hv : c2.koblitzValue.toNat = 1 := by decide +kernel
  constructor
  · intro h
    rw [ComesA, if_pos hk, hv] at h
    exact h
  · intro h
    rw [ComesB, if_pos hk] at h
    exact h

/-- the curve of the second run is not what was asked for: it has five points, and another number is printed -/
theorem printed_wrong : ¬ Asked c2 (curveV (printed (.int 1) n2)) := by
  rintro ⟨-, f, hf, -, -, -, -, -, ho, -⟩
  have hf : f = F7 := Subtype.ext hf.symm
  subst hf
  have ho : n2 = Nat.card E7.Point := ho
  rw [E7_card] at ho
  revert ho
  decide +kernel

/-- **C75, without the restriction on Koblitz curves, is false**: with `--fp --koblitz=1 163` and the prime 7 typed, the run ends with the status 0 and
prints a curve whose order is not the number of its points (C25) -/
theorem run_koblitz_prime_false : ∃ (os : List Opt) (c : Config) (w : W), commandLine 4 os = some c ∧ c.method = 0 ∧ TapeOk c w.tape ∧
    (produce pari c 9 w).2 = 0 ∧
    (∀ v ∈ Json.generated (one pari c 9) (toSize c.count) w, ∀ j, Parson.outputJjson c.hexDigits v = .ok j →
      (Parson.render true 0 j).length ≤ 2147483646) ∧
    ∀ malloc : Nat → List Parson.Byte, (∀ n, (malloc n).length = n) →
      ¬ ∃ js : List Output.Json, (∀ j, Parson.Spec.Document (bytes malloc pari c 9 w) (Parson.encode j) ↔ j = .arr js) ∧ js.length = toSize c.count ∧
        ∀ j ∈ js, ∃ v, readCurve j = some v ∧ Asked c v := by
  have hcount : toSize c2.count = 1 := by decide +kernel
  obtain ⟨st, -, -, hw'⟩ := straight pari c2 (by decide +kernel) (by decide +kernel) (always E2 1 [G2] 1) rfl (fun _ => rfl)
    (course E2 n2 ⟨G2, 5, n2 / 5⟩ [some ⟨G2, 5, 0⟩]) rfl course2 ⟨E2, rfl, E7_delta⟩ (world E2 1 [G2] 1) rfl
  rw [course2_printed] at hw'
  have hgen := generated_one _ _ _ _ _ hw'
  have hshort : short c2.hexDigits (printed (.int 1) n2) = true := by decide +kernel
  refine ⟨_, c2, world E2 1 [G2] 1, c2_some, by decide +kernel,
    always_tape c2 E2 ⟨by decide +kernel, fun h => absurd h (by decide +kernel), by decide +kernel⟩
      ⟨by decide +kernel, fun h => absurd (Nat.zero_and 2) h, by decide +kernel⟩ 1 (by decide) [G2] 1 G7_gens (fun e => (comes2 e).1)
      (fun e => (comes2 e).2), ?_, ?_, ?_⟩
  · rw [produce, (Json.generate_objects _ _ _).2, hcount, hgen]
    rfl
  · rw [hcount, hgen]
    intro v hv
    rw [List.mem_singleton] at hv
    subst hv
    exact short_spec hshort
  · rintro malloc hm ⟨js, h1, -, h3⟩
    obtain ⟨js', h4, h5⟩ := Parson.output_reads malloc hm c2.hexDigits (one pari c2 9) (toSize c2.count) (world E2 1 [G2] 1)
      (fun v hv => by
        rw [hcount, hgen, List.mem_singleton] at hv
        subst hv
        exact ⟨⟨fun m h => (by cases h), fun s h => (by cases h)⟩, fun m h => (by cases h), fun x h => (nomatch h), List.nodup_nil, short_spec hshort⟩)
      (by rw [hcount, hgen]; rfl)
    have : js' = js := by
      have := (h1 (.arr js')).1 ((h4 (.arr js')).2 rfl)
      cases this
      rfl
    subst this
    rw [hcount, hgen] at h5
    cases js' with
    | nil => cases h5
    | cons j l =>
      simp only [List.map_cons, List.cons.injEq] at h5
      obtain ⟨v, hv, hA⟩ := h3 j (by simp)
      rw [h5.1] at hv
      cases hv
      exact printed_wrong hA

/-! ## Undefined behaviour -/

/-- the field of three elements -/
def F3 : Fld := ⟨.prime 3, show Nat.Prime 3 by decide⟩

instance : Fact (Nat.Prime 3) := ⟨by decide⟩

/-- the curve `y² = x³ + 2x + 2` over it -/
def E3 : Crv := ⟨F3, .intmod 2 3, .intmod 2 3⟩

theorem E3_delta : E3.eqn.Δ ≠ 0 := by
  have : (Invalid.primeCurve (2 : ZMod 3) 2).Δ ≠ 0 := by
    have := Cm.Construct.elliptic (K := ZMod 3) (by decide) 2 2 (by decide)
    rw [WeierstrassCurve.isElliptic_iff, isUnit_iff_ne_zero] at this
    exact this
  exact this

theorem E3_card : Nat.card E3.Pt = 1 := by
  have : Nat.card (Invalid.primeCurve (2 : ZMod 3) 2).Point = 1 := by
    rw [Cm.Construct.natCard_point (by decide) 2 2 (by decide)]
    decide +kernel
  exact this

theorem E3_gens : Group.GensSpec E3.Pt [] := by
  intro x
  have := (Nat.card_eq_one_iff_unique.1 E3_card).1
  exact Subsingleton.elim x 0

/-- `--fp --random --points=random 2` -/
def c3 : Config := (commandLine 4 [.fp, .random none, .points "random".toList, .arg "2".toList]).get (by decide +kernel)

theorem c3_some : commandLine 4 [.fp, .random none, .points "random".toList, .arg "2".toList] = some c3 := (Option.some_get _).symm

/-- the course of the run up to the points -/
noncomputable def course3 : Nat → Cur
  | 0 | 1 => {}
  | 2 => { field := some F3 }
  | 3 => { field := some F3, a := some E3.a }
  | 4 => { field := some F3, a := some E3.a, b := some E3.b }
  | 5 => { field := some F3, a := some E3.a, b := some E3.b, crv := some E3 }
  | 6 => { field := some F3, a := some E3.a, b := some E3.b, crv := some E3, order := some 1 }
  | _ => { field := some F3, a := some E3.a, b := some E3.b, crv := some E3, order := some 1, gens := some ⟨E3, []⟩ }

theorem course3_act (s : Nat) (hs : s < 7) : act pari c3 (always E3 2 [] 1) s (course3 s) = some (course3 (s + 1), 1) := by
  match s, hs with
  | 0, _ =>
    have : (exhaustiveSetup c3).gens.seed = some .skip := by decide +kernel
    simp only [act, stageOf, this, Option.bind_some, id, call, course3]
  | 1, _ =>
    have : (exhaustiveSetup c3).gens.field = some .fieldRandom := by decide +kernel
    simp only [act, stageOf, this, Option.bind_some, id, call, course3, always]
    rfl
  | 2, _ =>
    have : (exhaustiveSetup c3).gens.a = some .aRandom := by decide +kernel
    have e := always_elt_self E3 2 [] 1 (.intmod 2 3) rfl
    simp only [act, stageOf, this, Option.bind_some, id, call, course3, Option.map_some]
    change some (({ field := some F3, a := some ((always E3 2 [] 1).elt E3.field) } : Cur), (1 : Int)) = _
    rw [e]
    rfl
  | 3, _ =>
    have : (exhaustiveSetup c3).gens.b = some .bRandom := by decide +kernel
    have e := always_elt_self E3 2 [] 1 (.intmod 2 3) rfl
    simp only [act, stageOf, this, Option.bind_some, id, call, course3, Option.map_some]
    change some (({ field := some F3, a := some E3.a, b := some ((always E3 2 [] 1).elt E3.field) } : Cur), (1 : Int)) = _
    rw [e]
    rfl
  | 4, _ =>
    have : (exhaustiveSetup c3).gens.curve = some .curveAny := by decide +kernel
    simp only [act, stageOf, this, Option.bind_some, id, call, course3]
    rfl
  | 5, _ =>
    have : (exhaustiveSetup c3).gens.order = some .orderAny := by decide +kernel
    simp only [act, stageOf, this, Option.bind_some, id, call, course3, orderStage, pari, E3_card]
  | 6, _ =>
    have : (exhaustiveSetup c3).gens.gens = some .gensAny := by decide +kernel
    simp only [act, stageOf, this, Option.bind_some, id, call, course3, gensStage, always, dif_pos, found, Group.gensAny, List.map_nil, bare]

/-- a random multiple of a generator is asked for where there is none -/
theorem course3_undefined : act pari c3 (always E3 2 [] 1) 7 (course3 7) = none := by
  have : (exhaustiveSetup c3).gens.points = some .pointRandom := by decide +kernel
  simp only [act, stageOf, this, Option.bind_some, id, call, call.withPoints, course3, if_true, pointsStage, Group.pointRandom, List.map_nil,
    List.length_nil, Nat.not_lt_zero, if_false, Option.map_none]

/-- **C76, for random points, is false**: with `--fp --random --points=random 2` and the curve `y² = x³ + 2x + 2` over the field of three elements,
whose only point is the point at infinity, `point_gen_random` reads a generator that does not exist -/
theorem search_undefined_false : ∃ (os : List Opt) (c : Config) (w : W) (st st' : Engine.St W), commandLine 4 os = some c ∧ c.method = 0 ∧
    c.koblitz = false ∧ TapeOk c w.tape ∧ w.ub = false ∧ Engine.Reaches (setup pari c) 0 9 0 (Engine.init 0 { w with cur := {} }) st ∧ st.state < 9 ∧
    Engine.step (setup pari c) 0 0 st = .inr st' ∧ st'.w.ub = true := by
  obtain ⟨st, h1, h2, h3⟩ := reach_straight (setup pari c3) (fun s => ({ world E3 2 [] 1 with cur := course3 s, pos := s } : W)) 7 (by omega)
    fun s hs => succeeds_act pari c3 (by decide +kernel) (by decide +kernel) (always E3 2 [] 1) rfl (fun _ => rfl) s _ _ (course3_act s hs)
      (fun h => by subst h; exact ⟨E3, rfl, E3_delta⟩) (world E3 2 [] 1) rfl s
  have hg : (setup pari c3).gen 7 st.w = ({ st.w.next with ub := true }, .ret Engine.INT_MIN) :=
    gen_undefined pari c3 (always E3 2 [] 1) rfl 7 rfl st.w (by rw [h3]; rfl) (by rw [h3]; exact course3_undefined)
  have hstep : ∃ st', Engine.step (setup pari c3) 0 0 st = .inr st' ∧ st'.w.ub = true := by
    have he : Engine.execStage (setup pari c3) 0 st.state st.w st.log =
        ({ st.w.next with ub := true }, Engine.INT_MIN, Engine.Ev.gen 7 (.ret Engine.INT_MIN) :: st.log) := by
      rw [h2]
      unfold Engine.execStage
      rw [hg]
      rfl
    unfold Engine.step
    rw [he]
    simp only
    rw [if_pos (by decide), if_pos (Or.inl trivial)]
    exact ⟨_, rfl, rfl⟩
  obtain ⟨st', h4, h5⟩ := hstep
  have hf : FieldAsked c3 E3.field.1 := ⟨by decide +kernel, fun _ _ => by decide +kernel, by decide +kernel⟩
  have hc : ¬ (c3.koblitz = true ∧ c3.seedAlgo = .none) := by decide +kernel
  exact ⟨_, c3, world E3 2 [] 1, st, st', c3_some, by decide +kernel, by decide +kernel,
    always_tape c3 E3 hf ⟨by decide +kernel, fun h => absurd (Nat.zero_and 2) h, by decide +kernel⟩ 2 (by decide) [] 1 E3_gens
      (fun e => (always_comes c3 hc E3 2 [] 1 rfl rfl e).1) (fun e => (always_comes c3 hc E3 2 [] 1 rfl rfl e).2),
    rfl, h1, by omega, h4, h5⟩

/-- `--fp --random --prime --points=random 3` -/
def c4 : Config := (commandLine 4 [.fp, .random none, .prime, .points "random".toList, .arg "3".toList]).get (by decide +kernel)

theorem c4_some : commandLine 4 [.fp, .random none, .prime, .points "random".toList, .arg "3".toList] = some c4 := (Option.some_get _).symm

theorem course4 (s : Nat) (hs : s < 9) :
    act pari c4 (always E1 1 [G1] 0) s (course E1 5 ⟨G1, 5, 1⟩ [some ⟨0 • G1, addOrderOf (0 • G1), 0⟩] s) =
      some (course E1 5 ⟨G1, 5, 1⟩ [some ⟨0 • G1, addOrderOf (0 • G1), 0⟩] (s + 1), 1) := by
  match s, hs with
  | 0, _ =>
    have : (exhaustiveSetup c4).gens.seed = some .skip := by decide +kernel
    simp only [act, stageOf, this, Option.bind_some, id, call, course]
  | 1, _ =>
    have : (exhaustiveSetup c4).gens.field = some .fieldRandom := by decide +kernel
    simp only [act, stageOf, this, Option.bind_some, id, call, course, always]
  | 2, _ =>
    have : (exhaustiveSetup c4).gens.a = some .aRandom := by decide +kernel
    simp only [act, stageOf, this, Option.bind_some, id, call, course, always, if_true, Option.map_some]
    rfl
  | 3, _ =>
    have : (exhaustiveSetup c4).gens.b = some .bRandom := by decide +kernel
    simp only [act, stageOf, this, Option.bind_some, id, call, course, always, if_true, Option.map_some]
    rfl
  | 4, _ =>
    have : (exhaustiveSetup c4).gens.curve = some .curveAny := by decide +kernel
    simp only [act, stageOf, this, Option.bind_some, id, call, course]
  | 5, _ =>
    have : (exhaustiveSetup c4).gens.order = some .orderPrime := by decide +kernel
    have h5 : Order.genPrime pari.isprime 5 = some 5 := by
      have : pari.isprime 5 = true := (pari_ok.isprime 5).2 (by decide)
      simp [Order.genPrime, this]
    simp only [act, stageOf, this, Option.bind_some, id, call, course, orderStage, always, E1_card, h5, filtered]
  | 6, _ =>
    have : (exhaustiveSetup c4).gens.gens = some .gensAny := by decide +kernel
    simp only [act, stageOf, this, Option.bind_some, id, call, course, gensStage, always, dif_pos, found, Group.gensAny, List.map_cons, List.map_nil,
      Group.gensPoint, bare, pari, G1_order]
  | 7, _ =>
    have : (exhaustiveSetup c4).gens.points = some .pointRandom := by decide +kernel
    simp only [act, stageOf, this, Option.bind_some, id, call, call.withPoints, course, pointsStage, if_true, Option.map_some, Group.pointRandom,
      List.map_cons, List.map_nil, always, List.length_cons, List.length_nil, Nat.zero_lt_succ, List.mapIdx_cons, List.mapIdx_nil, pari]
  | 8, _ =>
    have : (exhaustiveSetup c4).gens.metadata = some .skip := by decide +kernel
    simp only [act, stageOf, this, Option.bind_some, id, call, course]

/-- **C76, for random points, is false**: with `--fp --random --prime --points=random 3` the random multiple may be zero; the search succeeds, but
the point at infinity has no coordinates to print -/
theorem found_not_printed_false : ∃ (os : List Opt) (c : Config) (w : W) (st : Engine.St W), commandLine 4 os = some c ∧ c.method = 0 ∧
    c.koblitz = false ∧ (c.unique = true ∨ c.cofactor = false) ∧ TapeOk c w.tape ∧
    Engine.gen (setup pari c) 0 9 9 { w with cur := {} } = some (1, st) ∧ outCurve st.w.cur = none := by
  obtain ⟨st, h1, h2, -⟩ := straight pari c4 (by decide +kernel) (by decide +kernel) (always E1 1 [G1] 0) rfl (fun _ => rfl)
    (course E1 5 ⟨G1, 5, 1⟩ [some ⟨0 • G1, addOrderOf (0 • G1), 0⟩]) rfl course4 ⟨E1, rfl, E7_delta⟩ (world E1 1 [G1] 0) rfl
  have hf : FieldAsked c4 E1.field.1 := ⟨by decide +kernel, fun _ _ => by decide +kernel, by decide +kernel⟩
  have hc : ¬ (c4.koblitz = true ∧ c4.seedAlgo = .none) := by decide +kernel
  refine ⟨_, c4, world E1 1 [G1] 0, st, c4_some, by decide +kernel, by decide +kernel, by decide +kernel,
    always_tape c4 E1 hf ⟨by decide +kernel, fun h => absurd (Nat.zero_and 2) h, by decide +kernel⟩ 1 (by decide) [G1] 0 G7_gens
      (fun e => (always_comes c4 hc E1 1 [G1] 0 rfl rfl e).1) (fun e => (always_comes c4 hc E1 1 [G1] 0 rfl rfl e).2), h1, ?_⟩
  rw [h2]
  have hp : ∀ k n m, outPoint E1 k ⟨0 • G1, n, m⟩ = none := by
    intro k n m
    rw [zero_smul]
    rfl
  obtain ⟨g, hg⟩ := outPoint_some E1 (some 1) ⟨G1, 5, 1⟩ G7_ne
  simp only [course, outCurve, List.map_cons, List.map_nil, outSub, hg, hp, Option.bind_some, allSome, Option.map_none]

end Ecgen.Whole
