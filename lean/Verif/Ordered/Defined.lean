import Verif.Ordered.Props
import Verif.Special.Defined
import Verif.Whole.Defined
import Verif.Whole.Examples

/-!
# Runs of `--order` without undefined behaviour (C89)
-/

namespace Ecgen.Ordered

open Whole Output Output.Spec Cli Cm.Construct
open Seeded (Fp)
open Special (obj)

variable {P : Pari} {c : Config} {prime : Bool} {N : Nat} {T : Nat → Pick}

/-- the points asked for can be listed: those of prime order always; random ones, if there is a point but the one at infinity; all subgroups for
fewer than 63 prime factors (C28, C29) -/
def Fine (P : Pari) (c : Config) (prime : Bool) (N : Nat) (T : Nat → Pick) : Prop :=
  ∀ i r (hp : r.p.Prime), built P (T i) prime N = some r → (obj r.p hp r.a.val r.b.val).eqn.Δ ≠ 0 →
    ((cv c prime).pointsType = .random → Nat.card (obj r.p hp r.a.val r.b.val).Pt ≠ 1) ∧
    ((cv c prime).pointsType = .all ∨ (cv c prime).pointsType = .nonprime → (Nat.card (obj r.p hp r.a.val r.b.val).Pt).primeFactorsList.length < 63)

/-- the points of a generator -/
theorem points_some (hP : P.toPari.Ok) (c : Config) (p : Whole.Pick) (hwh : ∀ n i, 0 < n → p.which n i < n) (E : Crv) [Finite E.Pt] (l : List (Group.Pt E.Pt))
    (hord : ∀ g ∈ l, g.order = addOrderOf g.point) (hnz : ∀ g ∈ l, g.point ≠ 0) (hne : c.pointsType = .random → l ≠ [])
    (h63 : c.pointsType = .all ∨ c.pointsType = .nonprime → ∀ g ∈ l, g.order.primeFactorsList.length < 63) (hnone : c.pointsType ≠ .none) :
    ∃ r, pointsStage P.toPari p E l (ainit c).points (pointsChoice c) = some r := by
  have h2 : ∀ g ∈ l, 2 ≤ g.order := by
    intro g hg
    have h0 := hnz g hg
    have h1 : addOrderOf g.point ≠ 1 := fun e => h0 (AddMonoid.addOrderOf_eq_one_iff.1 e)
    have h3 : 0 < addOrderOf g.point := addOrderOf_pos _
    rw [hord g hg]
    omega
  unfold pointsChoice
  cases ht : c.pointsType with
  | none => exact absurd ht hnone
  | prime => exact ⟨_, rfl⟩
  | all =>
    refine mapM_of _ _ fun g hg => ?_
    obtain ⟨r, hr, -⟩ := Subgroup.all_spec_partial P.isprime hP.isprime P.fac hP.fac g.order (h2 g hg) (h63 (Or.inl ht) g hg)
    exact ⟨_, by simp only [Group.pointsAll1, hr, Option.bind_some, Option.map_some]; rfl⟩
  | nonprime =>
    refine mapM_of _ _ fun g hg => ?_
    rcases Subgroup.nonprime_spec_partial P.isprime hP.isprime P.fac hP.fac g.order (by have := h2 g hg; omega) (h63 (Or.inr ht) g hg) with ⟨hr, -⟩ | ⟨r, hr, -⟩ <;>
      exact ⟨_, by simp only [Group.pointsNonprime1, hr, Option.map_some]; rfl⟩
  | random =>
    have hw : ∀ k, p.which l.length k < l.length := fun k => hwh _ k (List.length_pos_iff.2 (hne ht))
    by_cases ha : c.pointsAmount ≠ 0
    · obtain ⟨counts, e, -⟩ := Group.distribute_spec (p.which l.length) l.length c.pointsAmount fun k _ => hw k
      exact ⟨_, by simp only [if_pos ha, pointsStage, (orderArg c).2.2.2 ht, Option.bind_some, argNat, Group.pointsRandom, e, Option.map_some]; rfl⟩
    · exact ⟨_, by simp only [if_neg ha, pointsStage, Group.pointRandom, hw, if_true]; rfl⟩


/-- the generator of every stage finds what it reads -/
theorem act_defined (hP : P.Ok) (h : c.method = METHOD_CM) (hacc : accepted P c = some (N, prime)) (hT : TapeOk P c prime N T) (hC : Calls.Ok P T)
    (hf : Fine P c prime N T) (i s : Nat) (hs : s < 9) (x : Cur) (hi : Inv P c prime N T s x) : ∃ x' d, act P c (T i) s x = some (x', d) := by
  obtain ⟨t0, t1, t2, t3, t4, t5, t6, t7, t8, a4, a5, a7⟩ := table hP h hacc
  match s, hs with
  | 0, _ => exact ⟨_, _, by simp only [act, stageOf, t0, Option.bind_some, id, call, Whole.call]; rfl⟩
  | 1, _ => exact ⟨_, _, by simp only [act, stageOf, t1, Option.bind_some, id, call, Whole.call]; rfl⟩
  | 2, _ => exact ⟨_, _, by simp only [act, stageOf, t2, Option.bind_some, id, call, Whole.call]; rfl⟩
  | 3, _ => exact ⟨_, _, by simp only [act, stageOf, t3, Option.bind_some, id, call, Whole.call]; rfl⟩
  | 4, _ =>
    rcases act_curve hP h hacc (T i) x with ⟨r, hb, e⟩ | ⟨-, e⟩ | ⟨-, -, e⟩
    · obtain ⟨-, hp, -⟩ := built_found hP hC hb
      rw [e, setResult, dif_pos hp]
      exact ⟨_, _, rfl⟩
    · exact ⟨_, _, e⟩
    · exact ⟨_, _, e⟩
  | 5, _ => exact ⟨_, _, by simp only [act, stageOf, t5, a5, Option.bind_some, id, call, textOf, Option.map_some]; rfl⟩
  | 6, _ =>
    obtain ⟨r, hp, hk⟩ := hi.known (by omega)
    cases hu : c.unique with
    | true =>
      rw [hu, if_pos rfl] at t6
      exact ⟨_, _, by simp only [act, stageOf, t6, Option.bind_some, id, call, Whole.call, hk.crv, hk.order (by omega), gensStage, Option.map_some]; rfl⟩
    | false =>
      rw [hu, if_neg (by decide)] at t6
      exact ⟨_, _, by simp only [act, stageOf, t6, Option.bind_some, id, call, Whole.call, hk.crv, hk.order (by omega), gensStage, Option.map_some]; rfl⟩
  | 7, _ =>
    obtain ⟨r, hp, hk⟩ := hi.known (by omega)
    obtain ⟨l, e7, hg, -⟩ := hk.gens (by omega)
    obtain ⟨j, hj⟩ := hk.built
    obtain ⟨f1, f2⟩ := hf j r hp hj hk.disc
    have hcall : ∀ a, call P c (T i) a x (pointsChoice (cv c prime)) = Whole.call P.toPari c.bits (T i).toPick a x (pointsChoice (cv c prime)) := by
      intro a
      unfold pointsChoice
      cases (cv c prime).pointsType with
      | random => simp only; split <;> rfl
      | _ => rfl
    by_cases hnone : (cv c prime).pointsType = .none
    · have : pointsChoice (cv c prime) = .skip := by simp only [pointsChoice, hnone]
      exact ⟨x, 1, by simp only [act, stageOf, t7, Option.bind_some, id]; rw [hcall, this]; rfl⟩
    have hcard : Nat.card (obj r.p hp r.a.val r.b.val).Pt ≠ 0 := Nat.card_pos.ne'
    obtain ⟨l', hl'⟩ := points_some hP.base (cv c prime) (T i).toPick (hT.picks i).which (obj r.p hp r.a.val r.b.val) (l.map Group.Sub.gen) hg.order hg.nonzero
      (fun hr h0 => by
        refine f1 hr ?_
        have := hg.all
        rw [h0] at this
        simp only [List.map_nil, List.not_mem_nil, Set.ofPred_false, AddSubgroup.closure_empty] at this
        rw [Nat.card_eq_one_iff_unique]
        refine ⟨⟨fun P Q => ?_⟩, ⟨0⟩⟩
        have hP : P ∈ (⊥ : AddSubgroup (obj r.p hp r.a.val r.b.val).Pt) := this ▸ AddSubgroup.mem_top P
        have hQ : Q ∈ (⊥ : AddSubgroup (obj r.p hp r.a.val r.b.val).Pt) := this ▸ AddSubgroup.mem_top Q
        rw [AddSubgroup.mem_bot] at hP hQ
        rw [hP, hQ])
      (fun ht g hgm => by
        have hdvd : g.order ∣ Nat.card (obj r.p hp r.a.val r.b.val).Pt := by rw [hg.order g hgm]; exact addOrderOf_dvd_natCard _
        exact Nat.lt_of_le_of_lt (Nat.primeFactorsList_sublist_of_dvd hdvd hcard).length_le (f2 ht)) hnone
    have p1 : pointsStage P.toPari (T i).toPick (obj r.p hp r.a.val r.b.val) (l.map Group.Sub.gen) ((stageOf (tables P c).genArgs 7).bind id)
        (pointsChoice (cv c prime)) = some l' := by
      cases prime with
      | true => exact hl'
      | false =>
        have : (stageOf (tables P c).genArgs 7).bind id = (ainit (cv c false)).points := by simp only [stageOf, a7 rfl]; rfl
        rw [this]; exact hl'
    refine ⟨{ x with gens := some ⟨obj r.p hp r.a.val r.b.val, l'⟩ }, 1, ?_⟩
    simp only [act]
    have e : (stageOf (tables P c).gens 7).bind id = some (pointsChoice (cv c prime)) := by simp only [stageOf, t7]; rfl
    rw [e, Option.bind_some, hcall, call_points _ _ _ _ _ _ hnone]
    simp only [call.withPoints, e7, hk.crv, if_true, p1, Option.map_some]
  | 8, _ =>
    cases hm : c.metadata <;> rw [hm] at t8 <;>
      exact ⟨_, _, by simp only [act, stageOf, t8, Bool.false_eq_true, if_false, if_true, Option.bind_some, id, call, Whole.call, Option.map_some]; rfl⟩

/-- the curve stage leaves a curve object to its check -/
def Ready (s : Nat) (x : Cur) : Prop := s = 4 → x.crv.isSome

theorem act_ready (hP : P.Ok) (h : c.method = METHOD_CM) (hacc : accepted P c = some (N, prime)) (p : Pick) (s : Nat) (x x' : Cur) (d : Int) (hd : 0 < d)
    (ha : act P c p s x = some (x', d)) : Ready s x' := by
  rintro rfl
  rcases act_curve hP h hacc p x with ⟨r, hb, e⟩ | ⟨-, e⟩ | ⟨-, -, e⟩
  · rw [e] at ha
    unfold setResult at ha
    split at ha
    · cases ha; rfl
    · cases ha
  · rw [e] at ha
    cases ha
    simp only [Engine.INT_MIN] at hd
    omega
  · rw [e] at ha
    cases ha
    omega

/-- a check whose members are set does nothing undefined -/
theorem check_defined (h : c.method = METHOD_CM) (s : Nat) (w : W) (hr : Ready s w.cur) (k : Check) (hk : k ∈ checksOf P c s) : (check w k).1.ub = w.ub := by
  by_cases hne : k = .hexParam
  · subst hne; rfl
  have : ∃ d, verdict w.cur k = some d := by
    rw [table_checks h] at hk
    split at hk
    · rw [List.mem_singleton] at hk
      subst hk
      obtain ⟨E, hE⟩ := Option.isSome_iff_exists.1 (hr (by assumption))
      exact ⟨_, by simp only [verdict, hE, Option.map_some]; rfl⟩
    · split at hk
      · rw [List.mem_singleton] at hk
        exact absurd hk hne
      · cases hk
  obtain ⟨d, hd⟩ := this
  cases k with
  | hexParam => exact absurd rfl hne
  | _ => simp only [check, hd]

open Engine Engine.Spec

theorem passes_defined (h : c.method = METHOD_CM) (s : Nat) : ∀ (l : List Check), (∀ k ∈ l, k ∈ checksOf P c s) → ∀ (w w' : W), Ready s w.cur →
    Passes (l.map fun k w => check w k) w w' → w'.ub = w.ub := by
  intro l
  induction l with
  | nil => intro _ w w' _ h; cases h; rfl
  | cons k l ih =>
    intro hl w w' hr hp
    rw [List.map_cons] at hp
    cases hp with
    | cons h1 h2 =>
      rw [ih (fun k hk => hl k (List.mem_cons_of_mem _ hk)) _ _ (by rw [(check_spec w k).1]; exact hr) h2, check_defined h s w hr k (hl k List.mem_cons_self)]

theorem rejects_defined (h : c.method = METHOD_CM) (s : Nat) : ∀ (l : List Check), (∀ k ∈ l, k ∈ checksOf P c s) → ∀ (w : W) (d : Int) (w' : W),
    Ready s w.cur → Rejects (l.map fun k w => check w k) w d w' → w'.ub = w.ub := by
  intro l
  induction l with
  | nil => intro _ w d w' _ h; cases h
  | cons k l ih =>
    intro hl w d w' hr hp
    rw [List.map_cons] at hp
    have h0 := check_defined h s w hr k (hl k List.mem_cons_self)
    cases hp with
    | here h1 => exact h0
    | later h1 h2 => rw [ih (fun k hk => hl k (List.mem_cons_of_mem _ hk)) _ _ _ (by rw [(check_spec w k).1]; exact hr) h2, h0]

theorem gen_defined (hP : P.Ok) (h : c.method = METHOD_CM) (hacc : accepted P c = some (N, prime)) (hT : TapeOk P c prime N T) (hC : Calls.Ok P T) (hf : Fine P c prime N T) {w : W} (hb : Behaves T w)
    (s : Nat) (hs : s < 9) (w1 : W) (r : GenRes) (hi : Inv P c prime N T s w.cur) (hg : (setup P c).gen s w = (w1, r)) :
    w1.ub = w.ub ∧ ∀ d, 0 < d → r = .ret d → Ready s w1.cur := by
  obtain ⟨x', d, ha⟩ := act_defined hP h hacc hT hC hf w.pos s hs _ hi
  rw [← pick_eq hb] at ha
  change gen P c (tables P c) s w = _ at hg
  unfold gen at hg
  cases h1 : w.pick.cut with
  | some x => rw [h1] at hg; cases hg; exact ⟨rfl, fun _ _ h => by cases h⟩
  | none =>
    rw [h1] at hg
    cases h2 : w.pick.fail s with
    | some d =>
      simp only [h2] at hg; cases hg
      refine ⟨rfl, fun d' h3 h4 => ?_⟩
      cases h4
      have := (failures_spec s d ((pick_ok hT hb).fail s d h2)).1
      omega
    | none =>
      simp only [h2] at hg
      change done w (act P c w.pick s w.cur) = _ at hg
      rw [ha] at hg
      cases hg
      refine ⟨rfl, fun d' h3 h4 => ?_⟩
      rw [pick_eq hb] at ha
      cases h4
      exact act_ready hP h hacc _ s _ _ _ h3 ha

theorem succeeds_defined (hP : P.Ok) (h : c.method = METHOD_CM) (hacc : accepted P c = some (N, prime)) (hT : TapeOk P c prime N T) (hC : Calls.Ok P T) (hf : Fine P c prime N T) (s : Nat) (w : W)
    (hb : Behaves T w) (d : Int) (w' : W) (hs : s < 9) (hi : Inv P c prime N T s w.cur) (hsucc : Succeeds (setup P c) s w d w') : w'.ub = w.ub := by
  obtain ⟨w1, h1, h2, h3⟩ := hsucc
  obtain ⟨h4, h5⟩ := gen_defined hP h hacc hT hC hf hb s hs w1 _ hi h1
  rw [← h4]
  exact passes_defined h s _ (fun _ hk => hk) _ _ (h5 d h2 rfl) h3

theorem fails_defined (hP : P.Ok) (h : c.method = METHOD_CM) (hacc : accepted P c = some (N, prime)) (hT : TapeOk P c prime N T) (hC : Calls.Ok P T) (hf : Fine P c prime N T) (s : Nat) (w : W)
    (hb : Behaves T w) (d : Int) (w' : W) (hs : s < 9) (hi : Inv P c prime N T s w.cur) (hfail : Fails (setup P c) 0 s w d w') : w'.ub = w.ub := by
  rcases hfail with ⟨h1, rfl⟩ | ⟨h1, h2⟩ | ⟨w1, g, h1, h2, h3⟩
  · exact (gen_defined hP h hacc hT hC hf hb s hs w' _ hi h1).1
  · exact (gen_defined hP h hacc hT hC hf hb s hs w' _ hi h1).1
  · obtain ⟨h4, h5⟩ := gen_defined hP h hacc hT hC hf hb s hs w1 _ hi h1
    rw [← h4]
    exact rejects_defined h s _ (fun _ hk => hk) _ _ _ (h5 g h2 rfl) h3

theorem cleaned_ub (P : Pari) (c : Config) (lo : Nat) : ∀ (hi : Nat) (w : W), (cleaned (setup P c) lo hi w).ub = w.ub := by
  intro hi
  induction hi with
  | zero => intro w; rfl
  | succ i ih =>
    intro w
    unfold cleaned
    split
    · rw [ih]; rfl
    · rfl

/-- what holds at the beginning of a stage -/
def Safe (P : Pari) (c : Config) (prime : Bool) (N : Nat) (T : Nat → Pick) (s : Nat) (v : W) : Prop := (s ≤ 9 ∧ Inv P c prime N T s v.cur ∧ Behaves T v) ∧ v.ub = false

/-- no stage of the search does anything undefined -/
theorem search_defined (P : Pari) (hP : P.Ok) (c : Config) (h : c.method = METHOD_CM) (w : W) (hacc : accepted P c = some (N, prime)) (hT : TapeOk P c prime N w.tape) (hC : Calls.Ok P w.tape)
    (hf : Fine P c prime N w.tape) (hu : w.ub = false) (st : Engine.St W)
    (hr : Reaches (setup P c) 0 9 0 (Engine.init 0 (fresh w)) st) (hs : st.state < 9)
    (st' : Engine.St W) (hst : Engine.step (setup P c) 0 0 st = .inl st' ∨ Engine.step (setup P c) 0 0 st = .inr st') : st'.w.ub = false := by
  have hfail : ∀ s v d v', 0 ≤ s → s < 9 → Safe P c prime N w.tape s v → Fails (setup P c) 0 s v d v' → v'.ub = false := by
    rintro s v d v' - hs ⟨⟨-, hi, hb⟩, hu⟩ hf'
    rw [← hu]
    exact fails_defined hP h hacc hT hC hf s v hb d v' hs hi hf'
  have hok : ∀ s v d v', 0 ≤ s → s < 9 → Safe P c prime N w.tape s v → Succeeds (setup P c) s v d v' → Safe P c prime N w.tape (s + d.toNat) v' := by
    rintro s v d v' - hs ⟨⟨-, hi, hb⟩, hu⟩ hsucc
    obtain ⟨rfl, h1, h2⟩ := keep_ok P hP c h hacc hT s v d v' hs hi hb hsucc
    refine ⟨⟨by simp only [Int.toNat_one]; omega, h1, h2⟩, ?_⟩
    rw [← hu]
    exact succeeds_defined hP h hacc hT hC hf s v hb 1 v' hs hi hsucc
  have hback : ∀ s v d v', 0 ≤ s → s < 9 → Safe P c prime N w.tape s v → Fails (setup P c) 0 s v d v' → 0 ≤ (s : Int) + d →
      Safe P c prime N w.tape (max ((s : Int) + d).toNat 0) (cleaned (setup P c) (max ((s : Int) + d).toNat 0) s v') := by
    intro s v d v' h00 hs hv hf' h0
    have hu' := hfail s v d v' h00 hs hv hf'
    obtain ⟨⟨-, hi, hb⟩, hu⟩ := hv
    obtain ⟨h1, h2⟩ := keep_fail P hP c h hacc hT s v d v' hs hi hb hf'
    obtain ⟨k, hk, e, h3⟩ := h2 h0
    have e' : max ((s : Int) + d).toNat 0 = k := by omega
    rw [e']
    exact ⟨⟨by omega, cleaned_inv hk h3, (cleaned_keeps P c k s v').2.2.trans h1⟩, by rw [cleaned_ub]; exact hu'⟩
  have hstart : Safe P c prime N w.tape 0 (fresh w) :=
    ⟨⟨Nat.zero_le _, inv_low (by omega) (fun _ => rfl) rfl, rfl⟩, hu⟩
  obtain ⟨-, h1⟩ := Engine.reaches_inv (setup P c) 0 9 0 (Safe P c prime N w.tape) hok hback _ st (Nat.zero_le _)
    hstart hr
  obtain ⟨h2, h3⟩ := Engine.step_inv (setup P c) 0 9 0 (Safe P c prime N w.tape) (fun v => v.ub = false) hok hback hfail st (Nat.zero_le _) hs h1
  rcases hst with hst | hst
  · exact (h2 st' hst).2.2
  · exact h3 st' hst

/-! ## Printing -/

/-- a complete curve can be printed -/
theorem printed_defined (x : Cur) (hi : Inv P c prime N T 9 x) (hq : (cv c prime).pointsType = .random → (cv c prime).pointsAmount ≠ 0) : ∃ v, outCurve x = some v := by
  obtain ⟨r, hr, hk⟩ := hi.known (by omega)
  have ho := hk.order (by omega)
  obtain ⟨l, hl, hgk, -, hps⟩ := hk.gens (by omega)
  have hne : ∀ g ∈ l, g.gen.point ≠ 0 := fun g hg => hgk.nonzero g.gen (List.mem_map_of_mem hg)
  have hp := hps (by omega)
  have hp' := hp
  have : ∃ gs, allSome (l.map (outSub (obj r.p hr r.a.val r.b.val))) = some gs := by
    refine allSome_some _ _ fun s hs => ?_
    obtain ⟨g, hg⟩ := outPoint_some (obj r.p hr r.a.val r.b.val) (some s.gen.cofactor) s.gen (hne s hs)
    obtain ⟨ps, hps, hps1, hps2⟩ := hp.listed s hs
    have hgt : ∀ p ∈ ps, p.point ≠ 0 := by
      intro p hp h0
      have h5 := (hps1 p hp).1
      rw [h0, addOrderOf_zero] at h5
      have h6 : p.order ∈ ps.map Group.Pt.order := List.mem_map_of_mem hp
      cases ht : (cv c prime).pointsType with
      | random => exact hp'.finite ht (hq ht) s hs p (hps ▸ List.mem_map_of_mem hp) h0
      | none => exact ((hps2 (fun _ => False) (by simp only [pointOrders, ht])).2 _).1 h6
      | prime =>
        have := ((hps2 _ (by simp only [pointOrders, ht]; rfl)).2 p.order).1 h6
        exact absurd this.1 (h5 ▸ Nat.not_prime_one)
      | all =>
        have := ((hps2 _ (by simp only [pointOrders, ht]; rfl)).2 p.order).1 h6
        exact absurd this.1 (h5 ▸ Nat.lt_irrefl 1)
      | nonprime =>
        have := ((hps2 _ (by simp only [pointOrders, ht]; rfl)).2 p.order).1 h6
        exact absurd this.1 (h5 ▸ Nat.lt_irrefl 1)
    obtain ⟨rs, hrs⟩ := allSome_some (outPoint (obj r.p hr r.a.val r.b.val) none) ps fun p hp => outPoint_some _ none p (hgt p hp)
    refine ⟨⟨g, rs⟩, ?_⟩
    simp only [outSub, hg, Option.bind_some, hps, List.map_map]
    have : ((fun p : Option (Group.Pt (obj r.p hr r.a.val r.b.val).Pt) => p.bind (outPoint (obj r.p hr r.a.val r.b.val) none)) ∘ some) = outPoint (obj r.p hr r.a.val r.b.val) none := rfl
    rw [this, hrs]
    rfl
  obtain ⟨gs, hgs⟩ := this
  exact ⟨_, by simp only [outCurve, hk.field, hk.a, hk.b, ho, hl, hgs, Option.map_some]; rfl⟩

/-! ## From the command line -/

/-- points can be listed for a single prime, and wherever neither random points nor all subgroups are asked for; otherwise for orders with less than 63
prime factors -/
theorem fine (hP : P.Ok) (ns : List Nat) (hf : Factors (c.cmOrder.getD []) ns) (hacc : accepted P c = some (N, prime)) (hR : Right P prime N T)
    (h : (ns.length = 1 ∧ ns.prod.Prime) ∨ c.pointsType = .none ∨ c.pointsType = .prime ∨ (1 < ns.prod ∧ ns.prod.primeFactorsList.length < 63)) :
    Fine P c prime N T := by
  obtain ⟨rfl, -, -, h6⟩ := accepted_factors hP ns hf hacc
  intro i r hp hb hd
  by_cases hpr : prime = true
  · subst hpr
    exact ⟨fun h => (nomatch h), fun h => h.elim (fun h => (nomatch h)) fun h => (nomatch h)⟩
  have e : cv c prime = c := if_neg hpr
  rw [e]
  rcases h with h | h | h | ⟨h, h'⟩
  · exact absurd (h6.2 h) hpr
  · rw [h]; exact ⟨fun h => (nomatch h), fun h => h.elim (fun h => (nomatch h)) fun h => (nomatch h)⟩
  · rw [h]; exact ⟨fun h => (nomatch h), fun h => h.elim (fun h => (nomatch h)) fun h => (nomatch h)⟩
  · obtain ⟨⟨_, hc⟩, -⟩ := hR i r hb
    have : Fact r.p.Prime := ⟨hp⟩
    have hcard : Nat.card (obj r.p hp r.a.val r.b.val).Pt = ns.prod := by
      rw [(Special.card_obj r.p hp _ _ hd).2]
      simpa using hc
    rw [hcard]
    exact ⟨fun _ => by omega, fun _ => h'⟩

/-- **C89** Whatever happens in a run of `--order`, no stage of the search for a curve does anything undefined: no member of the curve is read before it is
set, the field is prime, all lists of points can be made. This holds after every call of a generator and its checks, in searches that succeed, fail or
never end. Partial: random points are asked for only for curves with more than one point, and all subgroups only for curves with a number of points that
has fewer than 63 prime factors (C28, C29); see `fine` for orders that this covers. -/
theorem order_search_defined_partial (P : Pari) (hP : P.Ok) (c : Config) (h : c.method = METHOD_CM) (w : W) (hacc : accepted P c = some (N, prime))
    (hT : TapeOk P c prime N w.tape) (hC : Calls.Ok P w.tape)
    (hf : Fine P c prime N w.tape) (hu : w.ub = false) (st : Engine.St W)
    (hr : Reaches (setup P c) 0 9 0 (Engine.init 0 (fresh w)) st) (hs : st.state < 9)
    (st' : Engine.St W) (hst : Engine.step (setup P c) 0 0 st = .inl st' ∨ Engine.step (setup P c) 0 0 st = .inr st') : st'.w.ub = false :=
  search_defined P hP c h w hacc hT hC hf hu st hr hs st' hst

/-- **C89** a search that succeeds gives a curve to print, but for a random point whose number is not given -/
theorem order_found_is_printed_partial (P : Pari) (hP : P.Ok) (c : Config) (h : c.method = METHOD_CM) (hacc : accepted P c = some (N, prime))
    (hq : c.pointsType ≠ .random ∨ c.pointsAmount ≠ 0 ∨ prime = true) (fuel : Nat) (w : W)
    (hT : TapeOk P c prime N w.tape) (r : Int) (st : Engine.St W) (hg : Engine.gen (setup P c) 0 9 fuel (fresh w) = some (r, st)) :
    r = 0 ∨ ∃ v, one P c fuel w = (some v, st.w) := by
  obtain ⟨-, ⟨rfl, h2⟩ | h2⟩ := search P hP c h hacc hT fuel (fresh w) rfl (inv_low (by omega) (fun _ => rfl) rfl) r st hg
  · have hq' : (cv c prime).pointsType = .random → (cv c prime).pointsAmount ≠ 0 := by
      unfold cv
      split
      · exact fun h => (nomatch h)
      · rename_i hp
        exact fun h => (hq.resolve_left fun h' => h' h).resolve_right hp
    obtain ⟨v, hv⟩ := printed_defined _ h2 hq'
    refine Or.inr ⟨v, ?_⟩
    simp only [one, hg, hv]
    rw [if_neg (by decide)]
  · exact Or.inl h2

/-! ## Searches end -/

theorem act_built (hP : P.Ok) (h : c.method = METHOD_CM) (hacc : accepted P c = some (N, prime)) (p : Pick) (x : Cur) (r : Result)
    (hr : built P p prime N = some r) : act P c p 4 x = setResult x r := by
  rcases act_curve hP h hacc p x with ⟨r', hb, e⟩ | ⟨e, -⟩ | ⟨e1, e2, -⟩
  · rw [hr] at hb
    cases hb
    exact e
  · rw [hr] at e
    cases e
  · subst e1
    unfold built at hr
    rw [if_neg (by decide), e2] at hr
    cases hr

/-- nothing goes wrong: no call is interrupted, nobody answers a question for metadata wrongly, the hex check accepts -/
structure Smooth (T : Nat → Pick) : Prop where
  cut : ∀ i, (T i).cut = none
  fail : ∀ i s, (T i).fail s = none
  verdict : ∀ i, (T i).verdict = none

theorem stage_succeeds (hP : P.Ok) (h : c.method = METHOD_CM) (hacc : accepted P c = some (N, prime)) (hT : TapeOk P c prime N T) (hC : Calls.Ok P T)
    (hf : Fine P c prime N T) (hsm : Smooth T) (hb : ∀ i, ∃ r, built P (T i) prime N = some r ∧ ∃ hp, (obj r.p hp r.a.val r.b.val).eqn.Δ ≠ 0)
    (hun : c.unique = true → ∀ i j r hp, built P (T j) prime N = some r → ((T i).gens (obj r.p hp r.a.val r.b.val)).length = 1)
    (s : Nat) (hs : s < 9) (w : W) (hi : Inv P c prime N T s w.cur) (hw : Behaves T w) : ∃ w', Engine.Spec.Succeeds (setup P c) s w 1 w' := by
  obtain ⟨t0, t1, t2, t3, t4, t5, t6, t7, t8, a4, a5, a7⟩ := table hP h hacc
  obtain ⟨x', d, ha⟩ := act_defined hP h hacc hT hC hf w.pos s hs w.cur hi
  have hgo := goes hP h hacc hT w.pos s hs w.cur hi x' d ha
  have hd : d = 1 := by
    match s, hs with
    | 0, _ => simp only [act, Whole.stageOf, t0, Option.bind_some, id, call, Whole.call] at ha; cases ha; rfl
    | 1, _ => simp only [act, Whole.stageOf, t1, Option.bind_some, id, call, Whole.call] at ha; cases ha; rfl
    | 2, _ => simp only [act, Whole.stageOf, t2, Option.bind_some, id, call, Whole.call] at ha; cases ha; rfl
    | 3, _ => simp only [act, Whole.stageOf, t3, Option.bind_some, id, call, Whole.call] at ha; cases ha; rfl
    | 4, _ =>
      obtain ⟨r, hr, hp, -⟩ := hb w.pos
      rw [act_built hP h hacc _ _ r hr, setResult, dif_pos hp] at ha
      cases ha
      rfl
    | 5, _ => simp only [act, Whole.stageOf, t5, a5, Option.bind_some, id, call, textOf, Option.map_some] at ha; cases ha; rfl
    | 6, _ =>
      obtain ⟨r, hp, hk⟩ := hi.known (by omega)
      cases hu : c.unique with
      | true =>
        rw [hu, if_pos rfl] at t6
        obtain ⟨j, hj⟩ := hk.built
        have hl := hun hu w.pos j r hp hj
        have hl2 : Group.gensOne (P.ord (obj r.p hp r.a.val r.b.val)) N ((T w.pos).gens (obj r.p hp r.a.val r.b.val)) =
            some (Group.gensAny (P.ord (obj r.p hp r.a.val r.b.val)) N ((T w.pos).gens (obj r.p hp r.a.val r.b.val))) := by
          unfold Group.gensOne
          rw [if_neg (by rw [hl]; decide)]
        simp only [act, Whole.stageOf, t6, Option.bind_some, id, call, Whole.call, hk.crv, hk.order (by omega), gensStage, hl2] at ha
        cases ha
        rfl
      | false =>
        rw [hu, if_neg (by decide)] at t6
        simp only [act, Whole.stageOf, t6, Option.bind_some, id, call, Whole.call, hk.crv, hk.order (by omega), gensStage] at ha
        cases ha
        rfl
    | 7, _ =>
      have hcall : ∀ a, call P c (T w.pos) a w.cur (pointsChoice (cv c prime)) =
          Whole.call P.toPari c.bits (T w.pos).toPick a w.cur (pointsChoice (cv c prime)) := by
        intro a
        unfold pointsChoice
        cases (cv c prime).pointsType with
        | random => simp only; split <;> rfl
        | _ => rfl
      obtain ⟨r, hp, hk⟩ := hi.known (by omega)
      obtain ⟨l, e7, -⟩ := hk.gens (by omega)
      simp only [act] at ha
      have e : (Whole.stageOf (tables P c).gens 7).bind id = some (pointsChoice (cv c prime)) := by simp only [Whole.stageOf, t7]; rfl
      rw [e, Option.bind_some, hcall] at ha
      by_cases hnone : (cv c prime).pointsType = .none
      · have : pointsChoice (cv c prime) = .skip := by simp only [pointsChoice, hnone]
        rw [this] at ha
        simp only [Whole.call] at ha
        cases ha
        rfl
      · rw [call_points _ _ _ _ _ _ hnone] at ha
        simp only [call.withPoints, e7, hk.crv, if_true, Option.map_eq_some_iff, Prod.mk.injEq] at ha
        obtain ⟨l', -, -, rfl⟩ := ha
        rfl
    | 8, _ =>
      cases hm : c.metadata <;> rw [hm] at t8 <;>
        simp only [act, Whole.stageOf, t8, Bool.false_eq_true, if_false, if_true, Option.bind_some, id, call, Whole.call] at ha <;> cases ha <;> rfl
  subst hd
  have hpk : w.pick = T w.pos := pick_eq hw
  have hgen : (setup P c).gen s w = ({ w.next with cur := x' }, .ret 1) := by
    change gen P c (tables P c) s w = _
    simp only [gen, hpk, hsm.cut, hsm.fail]
    change done w (act P c (T w.pos) s w.cur) = _
    rw [ha]
    rfl
  suffices hps : ∃ w', Engine.Spec.Passes ((setup P c).checks s) { w.next with cur := x' } w' by
    obtain ⟨w', hw'⟩ := hps
    exact ⟨w', _, hgen, by decide, hw'⟩
  by_cases h4 : s = 4
  · subst h4
    obtain ⟨r, hr, hp, hΔ⟩ := hb w.pos
    rw [act_built hP h hacc _ _ r hr, setResult, dif_pos hp] at ha
    cases ha
    rw [checks_eq, table_checks h, if_pos rfl]
    refine ⟨_, .cons ?_ (.nil _)⟩
    simp only [check, verdict, Option.map_some]
    rw [if_neg hΔ]
    decide
  · by_cases h7 : s = 7 ∧ c.hexCheck.isSome
    · rw [checks_eq, table_checks h, if_neg h4, if_pos h7]
      refine ⟨_, .cons ?_ (.nil _)⟩
      have : ({ w.next with cur := x' } : W).pick = T (w.pos + 1) := congrFun hw (w.pos + 1)
      simp only [check, this, hsm.verdict, Option.getD_none]
      decide
    · rw [checks_eq, table_checks h, if_neg h4, if_neg h7]
      exact ⟨_, .nil _⟩

/-- **C89** Searches end: if nothing goes wrong, the discriminants are found and the curves are not singular, a search of `--order` succeeds with its ninth
call of a generator; with `--unique` if the groups are given by one generator. -/
theorem order_search_ends (P : Pari) (hP : P.Ok) (c : Config) (h : c.method = METHOD_CM) (hacc : accepted P c = some (N, prime)) (w : W)
    (hT : TapeOk P c prime N w.tape) (hC : Calls.Ok P w.tape)
    (hf : Fine P c prime N w.tape) (hsm : Smooth w.tape)
    (hb : ∀ i, ∃ r, built P (w.tape i) prime N = some r ∧ ∃ hp, (obj r.p hp r.a.val r.b.val).eqn.Δ ≠ 0)
    (hun : c.unique = true → ∀ i j r hp, built P (w.tape j) prime N = some r → ((w.tape i).gens (obj r.p hp r.a.val r.b.val)).length = 1) :
    ∃ st, Engine.gen (setup P c) 0 9 9 (fresh w) = some (1, st) := by
  have key : ∀ n, n ≤ 9 → ∀ st : St W, st.state = 9 - n → Inv P c prime N w.tape st.state st.w.cur → Behaves w.tape st.w →
      ∃ st', loop (setup P c) 0 9 0 n st = some (1, st') := by
    intro n
    induction n with
    | zero =>
      intro _ st hst _ _
      exact ⟨st, by unfold loop; rw [if_neg (by omega)]⟩
    | succ n ih =>
      intro hn st hst hi hw
      obtain ⟨w', hs⟩ := stage_succeeds hP h hacc hT hC hf hsm hb hun st.state (by omega) st.w hi hw
      obtain ⟨st', e1, e2, e3⟩ := step_succeeds (setup P c) st w' hs
      obtain ⟨-, k1, k2⟩ := keep_ok P hP c h hacc hT st.state st.w 1 w' (by omega) hi hw hs
      unfold loop
      rw [if_pos (by omega), e1]
      exact ih (by omega) st' (by omega) (by rw [e2, e3]; exact k1) (by rw [e3]; exact k2)
  obtain ⟨st, hst⟩ := key 9 le_rfl (Engine.init 0 (fresh w)) rfl (inv_low (Nat.zero_le _) (fun _ => rfl) rfl) rfl
  refine ⟨st, ?_⟩
  unfold Engine.gen Engine.genRetry
  rw [if_neg (by decide), if_neg (by decide)]
  exact hst

end Ecgen.Ordered
