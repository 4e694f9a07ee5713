import Verif.Twisted.Props
import Verif.Whole.Defined

/-!
# Runs of `--twist` without undefined behaviour, and those with `--koblitz` (C87)
-/

namespace Ecgen.Twisted

open Whole Output Output.Spec Cli

/-- the points asked for can be computed: there are none, or the default, or random ones while each twist has a generator to take multiples of, or those
of all subgroups, while the orders have fewer than 63 prime factors (C28, C29) -/
def PointsFine (c : Config) (T : Nat → Pick) (tw : Nat → Crv → Crv) : Prop :=
  c.pointsType = .none ∨ c.pointsType = .prime ∨
  (c.pointsType = .random ∧ ∀ j E, Drawn T E → E.eqn.Δ ≠ 0 → Nat.card (tw j E).Pt ≠ 1) ∨
  (∀ j E, Drawn T E → E.eqn.Δ ≠ 0 → c.pointsType ≠ .random ∧ (Nat.card (tw j E).Pt).primeFactorsList.length < 63)

/-- all subgroups of twists of up to 61 bits can be listed -/
theorem points_fine {c : Config} {T : Nat → Pick} {tw : Nat → Crv → Crv} (hT : TapeOk c T tw)
    (hr : c.pointsType ≠ .random) (hb : c.bits ≤ 61) : PointsFine c T tw := by
  refine Or.inr (Or.inr (Or.inr fun j E hf hd => ⟨hr, few_factors_63 Nat.card_pos ?_⟩))
  have h1 : fieldSize (tw j E).field.1 ≤ 2 ^ c.bits := by
    obtain ⟨a, b, e, -⟩ := hT.twist j E hf hd
    rw [e]
    obtain ⟨i, e | e⟩ := hf.1
    · show fieldSize E.field.1 ≤ _
      rw [e]; exact size_asked (hT.picks i).randomField
    · show fieldSize E.field.1 ≤ _
      rw [e]; exact size_asked (c := { plain c with random := 0 }) (hT.picks i).typedField
  have h2 := order_le (tw j E).field (tw j E).eqn
  have h3 : 2 ^ c.bits ≤ 2 ^ 61 := Nat.pow_le_pow_right (by omega) hb
  change Nat.card (tw j E).eqn.Point < _
  omega

/-- the runs described here have no `--cofactor` -/
theorem no_cofactor {c : Config} (h : Covered c) {T : Nat → Pick} (hc : c.prime = true ∨ Calm c T) : c.cofactor = false := by
  rcases hc with hc | hc
  · cases hk : c.cofactor with
    | false => rfl
    | true => exact absurd ⟨hc, hk⟩ h.one.1
  · exact hc.cofactor

open Classical in
theorem curve_defined (c : Config) (h : Covered c) (T : Nat → Pick) (tw : Crv → Crv) (x : Cur) (k : Option (Crv × Int))
    (hi : Whole.Inv (plain c) T 4 x) : ∃ x' k' d, curveAct (exhaustiveSetup c) tw x k = some ((x', k'), d) := by
  obtain ⟨f, a, b, h1, h2, h3, -, -⟩ := hi.ab (by omega)
  unfold curveAct
  rw [if_pos (table_twist c h)]
  unfold curveStage
  simp only [h1, h2, h3]
  split
  · exact ⟨_, _, _, rfl⟩
  · cases x.order with
    | none => exact ⟨_, _, _, rfl⟩
    | some n => exact ⟨_, _, _, rfl⟩

/-- a negative cardinality is not read -/
theorem readable (c : Config) (h : Covered c) {T : Nat → Pick} {tw : Nat → Crv → Crv} {w : W} (hi : Inv c T tw 5 w) :
    unreadable (exhaustiveSetup c) w.cache = false := by
  rcases hi.clean with hc | ⟨-, -, hc⟩
  · have : (stageOf (exhaustiveSetup c).gens 5).bind id = some .orderPrime := by
      rw [table_same c h 5 (by decide)]
      rcases table_order (plain c) h.plain with ⟨-, t⟩ | ⟨t, -⟩ | ⟨t, -⟩ | ⟨t, -⟩
      · simp only [stageOf, t, Option.bind_some, id]
      all_goals exact (no t hc).elim
    cases w.cache with
    | none => rfl
    | some k =>
      simp only [unreadable, this, ne_eq, not_true_eq_false, decide_false, Bool.and_false]
  · rw [hc rfl]; rfl

open Engine (GenRes) in
theorem gen_defined (P : Pari) (hP : P.Ok) (c : Config) (h : Covered c) (T : Nat → Pick) (tw : Nat → Crv → Crv) (hq : PointsFine c T tw) (s : Nat) (hs : s < 9)
    (w w1 : W) (r : GenRes) (hi : Inv c T tw s w) (hb : Behaves c T tw w) (hg : (setup P c).gen s w = (w1, r)) :
    w1.base.ub = w.base.ub := by
  obtain ⟨rfl, rfl, hT⟩ := hb
  change gen P c.bits (exhaustiveSetup c) s w = _ at hg
  unfold gen at hg
  by_cases h4 : s = 4
  · subst h4
    rw [if_pos rfl] at hg
    obtain ⟨x', k', d, ha⟩ := curve_defined c h w.base.tape (w.tw w.base.pos) w.base.cur w.cache (hi.low (by omega))
    cases h1 : w.base.pick.cut with
    | some x => rw [h1] at hg; cases hg; rfl
    | none =>
      rw [h1] at hg
      cases h2 : w.base.pick.fail 4 with
      | some d => simp only [h2] at hg; cases hg; rfl
      | none => simp only [h2, ha] at hg; cases hg; rfl
  · rw [if_neg h4, if_neg (by
      rintro ⟨rfl, -, -, hu⟩
      rw [readable c h hi] at hu
      cases hu)] at hg
    simp only [gen_same _ c h s h4] at hg
    have hS : ∃ S, Whole.Inv (plain c) S s w.base.cur := by
      rcases Nat.lt_or_ge s 4 with h' | h'
      · exact ⟨_, hi.low (by omega)⟩
      · obtain ⟨S, -, h1⟩ := (hi.high (by omega)).inv
        exact ⟨S, h1⟩
    obtain ⟨S, hS⟩ := hS
    obtain ⟨x', d, ha⟩ := act_defined (if s = 5 then cached P w.cache else P) (plain c) h.plain S w.base.pick (hT.picks w.base.pos) s hs w.base.cur (by
      rcases hq with hq | hq | ⟨hq, hE⟩ | hE
      · exact Or.inl hq
      · exact Or.inr (Or.inl hq)
      · refine Or.inr (Or.inr (Or.inl ⟨hq, fun E h5 he => ?_⟩))
        obtain ⟨E', j, h1, h2, h3⟩ := (hi.high h5).of
        rw [h3] at he
        cases he
        exact hE j E' h1 h2
      · refine Or.inr (Or.inr (Or.inr ⟨fun h7 => by subst h7; exact hP, fun E h5 he => ?_⟩))
        obtain ⟨E', j, h1, h2, h3⟩ := (hi.high h5).of
        rw [h3] at he
        cases he
        exact ⟨Or.inr (Or.inl (show c.cofactor = false from no_cofactor h (hi.clean.imp_right And.left))), hE j E' h1 h2⟩)
      (fun _ h' => by rw [show (plain c).seedAlgo = .none from h.algo] at h'; cases h') hS
    have hub : ((Whole.setup (if s = 5 then cached P w.cache else P) (plain c)).gen s w.base).1.ub = w.base.ub := by
      change (Whole.gen _ c.bits (exhaustiveSetup (plain c)) s w.base).1.ub = _
      unfold Whole.gen
      cases h1 : w.base.pick.cut with
      | some x => rfl
      | none =>
        cases h2 : w.base.pick.fail s with
        | some d => rfl
        | none =>
          simp only
          change (Whole.done w.base (act _ (plain c) w.base.pick s w.base.cur)).1.ub = _
          rw [ha]
          rfl
    rw [← (Prod.mk.inj hg).1]
    exact hub

open Engine Engine.Spec in
theorem checks_defined (P : Pari) (c : Config) (h : Covered c) (s : Nat) (w1 : W) (hc : s = 4 → w1.base.cur.crv.isSome) :
    (∀ w', Passes ((setup P c).checks s) w1 w' → w'.base.ub = w1.base.ub) ∧ ∀ d w', Rejects ((setup P c).checks s) w1 d w' → w'.base.ub = w1.base.ub := by
  rw [table_checks P c h]
  by_cases hs4 : s = 4
  · obtain ⟨E, hE⟩ := Option.isSome_iff_exists.1 (hc hs4)
    rw [if_pos hs4]
    constructor
    · intro w' hp
      cases hp with
      | cons h8 h9 => cases h9; simp only [check, Whole.check, hE]
    · intro d w' hr
      cases hr with
      | here h10 => simp only [check, Whole.check, hE]
      | later _ h11 => cases h11
  · rw [if_neg hs4]
    by_cases hs7 : s = 7 ∧ c.hexCheck.isSome
    · rw [if_pos hs7]
      constructor
      · intro w' hp
        cases hp with
        | cons h8 h9 => cases h9; rfl
      · intro d w' hr
        cases hr with
        | here h10 => rfl
        | later _ h11 => cases h11
    · rw [if_neg hs7]
      exact ⟨fun w' hp => by cases hp; rfl, fun d w' hr => by cases hr⟩

theorem cleaned_ub (P : Pari) (c : Config) (lo : Nat) : ∀ (hi : Nat) (w : W), (Engine.Spec.cleaned (setup P c) lo hi w).base.ub = w.base.ub := by
  intro hi
  induction hi with
  | zero => intro w; rfl
  | succ i ih =>
    intro w
    unfold Engine.Spec.cleaned
    split
    · rw [ih]; rfl
    · rfl

/-- what holds at the beginning of a stage -/
def Sound (c : Config) (T : Nat → Pick) (tw : Nat → Crv → Crv) (s : Nat) (v : W) : Prop :=
  (s ≤ 9 ∧ Inv c T tw s v ∧ Behaves c T tw v) ∧ v.base.ub = false

section
variable (P : Pari) (hP : P.Ok) (c : Config) (h : Covered c) (T : Nat → Pick) (tw : Nat → Crv → Crv) (hq : PointsFine c T tw)
include hP h hq

open Engine Engine.Spec

omit hq in
/-- a generator that succeeds leaves a curve object to its check -/
theorem curve_there (s : Nat) (w w1 : W) (d : Int) (hs : s < 9) (hi : Inv c T tw s w) (hb : Behaves c T tw w) (hd : 0 < d)
    (h1 : (setup P c).gen s w = (w1, .ret d)) : s = 4 → w1.base.cur.crv.isSome := by
  rintro rfl
  obtain ⟨-, ⟨h4, -⟩ | ⟨d', h4, h5, -⟩ | ⟨-, h5⟩⟩ := gen_ok P hP c h T tw 4 hs w w1 hi hb _ h1
  · cases h4
  · cases h4; omega
  · obtain ⟨E, j, -, -, hE⟩ := (h5.high (by omega)).of
    rw [hE]; rfl

theorem sound_ok (s : Nat) (v : W) (d : Int) (v' : W) (hs : s < 9) (hv : Sound c T tw s v) (hsucc : Succeeds (setup P c) s v d v') :
    Sound c T tw (s + d.toNat) v' := by
  obtain ⟨⟨-, hi, hb⟩, hu⟩ := hv
  have hsucc' := hsucc
  obtain ⟨w1, h1, h2, h3⟩ := hsucc'
  have hu1 := gen_defined P hP c h T tw hq s hs v w1 _ hi hb h1
  have hu2 := (checks_defined P c h s w1 (curve_there P hP c h T tw s v w1 d hs hi hb h2 h1)).1 v' h3
  obtain ⟨rfl, h4, h5⟩ := keep_ok P hP c h T tw s v d v' hs hi hb hsucc
  exact ⟨⟨by simp only [Int.toNat_one]; omega, h4, h5⟩, by rw [hu2, hu1, hu]⟩

theorem sound_fail (s : Nat) (v : W) (d : Int) (v' : W) (hs : s < 9) (hv : Sound c T tw s v) (hf : Fails (setup P c) 0 s v d v') : v'.base.ub = false := by
  obtain ⟨⟨-, hi, hb⟩, hu⟩ := hv
  rw [← hu]
  rcases hf with ⟨h1, rfl⟩ | ⟨h1, h2⟩ | ⟨w1, g, h1, h2, h3⟩
  · exact gen_defined P hP c h T tw hq s hs v v' _ hi hb h1
  · exact gen_defined P hP c h T tw hq s hs v v' _ hi hb h1
  · rw [(checks_defined P c h s w1 (curve_there P hP c h T tw s v w1 g hs hi hb h2 h1)).2 d v' h3]
    exact gen_defined P hP c h T tw hq s hs v w1 _ hi hb h1

theorem sound_back (s : Nat) (v : W) (d : Int) (v' : W) (hs : s < 9) (hv : Sound c T tw s v) (hf : Fails (setup P c) 0 s v d v') (h0 : 0 ≤ (s : Int) + d) :
    Sound c T tw (max ((s : Int) + d).toNat 0) (cleaned (setup P c) (max ((s : Int) + d).toNat 0) s v') := by
  have hu' := sound_fail P hP c h T tw hq s v d v' hs hv hf
  obtain ⟨⟨-, hi, hb⟩, hu⟩ := hv
  refine ⟨?_, by rw [cleaned_ub]; exact hu'⟩
  exact back P hP c h T tw s v d v' hs hi hb hf h0

end

/-- **C87** whatever happens, no stage of the search for a twist does anything undefined: no member of the curve is read before it is set, no missing
argument is used, no negative order is taken for a number of points, and the points belong to the curve at hand. This holds after every call of a
generator and its checks, in searches that succeed, fail or never end. -/
theorem search_defined_partial (P : Pari) (hP : P.Ok) (n : Int) (os : List Opt) (c : Config) (hcl : commandLine n os = some c) (hd : c.method = METHOD_TWIST)
    (hk : c.koblitz = false) (w : W) (hT : TapeOk c w.base.tape w.tw) (hc : c.prime = true ∨ Calm c w.base.tape) (hq : PointsFine c w.base.tape w.tw)
    (hu : w.base.ub = false) (st : Engine.St W) (hr : Engine.Reaches (setup P c) 0 9 0 (Engine.init 0 (fresh w)) st) (hs : st.state < 9)
    (st' : Engine.St W) (hst : Engine.step (setup P c) 0 0 st = .inl st' ∨ Engine.step (setup P c) 0 0 st = .inr st') : st'.w.base.ub = false := by
  have h := covered n os c hcl hd hk
  have hok := fun s v d v' (_ : 0 ≤ s) => sound_ok P hP c h w.base.tape w.tw hq s v d v'
  have hback := fun s v d v' (_ : 0 ≤ s) => sound_back P hP c h w.base.tape w.tw hq s v d v'
  have hstart : Sound c w.base.tape w.tw 0 (fresh w) := ⟨⟨Nat.zero_le _, start_inv c h _ _ hc w, rfl, rfl, hT⟩, hu⟩
  obtain ⟨-, h1⟩ := Engine.reaches_inv (setup P c) 0 9 0 (Sound c w.base.tape w.tw) hok hback _ st (Nat.zero_le _) hstart hr
  obtain ⟨h2, h3⟩ := Engine.step_inv (setup P c) 0 9 0 (Sound c w.base.tape w.tw) (fun v => v.base.ub = false) hok hback
    (fun s v d v' _ => sound_fail P hP c h w.base.tape w.tw hq s v d v') st (Nat.zero_le _) hs h1
  rcases hst with hst | hst
  · exact (h2 st' hst).2.2
  · exact h3 st' hst

/-- **C87** a search that succeeds gives a twist to print -/
theorem found_is_printed_partial (P : Pari) (hP : P.Ok) (n : Int) (os : List Opt) (c : Config) (hcl : commandLine n os = some c) (hd : c.method = METHOD_TWIST)
    (hk : c.koblitz = false) (hq : c.pointsType = .random → c.pointsAmount ≠ 0) (fuel : Nat) (w : W)
    (hT : TapeOk c w.base.tape w.tw) (hc : c.prime = true ∨ Calm c w.base.tape) (r : Int) (st : Engine.St W)
    (hg : Engine.gen (setup P c) 0 9 fuel (fresh w) = some (r, st)) : r = 0 ∨ ∃ v, one P c fuel w = (some v, st.w) := by
  have h := covered n os c hcl hd hk
  obtain ⟨-, ⟨rfl, h2⟩ | h2⟩ := search P hP c h _ _ hc fuel w ⟨rfl, rfl, hT⟩ r st hg
  · obtain ⟨S, -, hi⟩ := h2.inv
    obtain ⟨v, hv⟩ := Whole.printed_defined (plain c) S _ hi (fun _ _ => Or.inr (Or.inl (show c.cofactor = false from no_cofactor h hc))) hq
    refine Or.inr ⟨v, ?_⟩
    simp only [one, hg, hv]
    rw [if_neg (by decide)]
  · exact Or.inl h2

end Ecgen.Twisted
