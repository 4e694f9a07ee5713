import Verif.Seeded.Props
import Verif.Whole.Defined

/-!
# Runs of the seeded methods without undefined behaviour (C80)
-/

namespace Ecgen.Seeded

open Whole Output Output.Spec Cli Brainpool.Spec

/-- a first coordinate that is found has a second one -/
theorem firstX_ne (P : Pari) (E : Crv) (x0 i : Nat) (h : firstX P E x0 = some i) : P.ordinate E i ≠ [] := by
  intro h0
  have := List.find?_some h
  rw [h0] at this
  cases this

/-- on a curve with a prime order whose twist has a prime order as well there are two second coordinates: one alone would belong to a point of order two -/
theorem two_ordinates (P : Pari) (hP : P.Ok) (q : Nat) (hq : q.Prime) (hq2 : 2 < q) (a b i : Nat) (hd : (obj q hq a b).eqn.Δ ≠ 0)
    (hn : (Nat.card (obj q hq a b).Pt).Prime) (ht : ∃ t : Nat, t.Prime ∧ t + Nat.card (obj q hq a b).Pt = 2 * (q + 1)) (y : Carrier (obj q hq a b).field) :
    P.ordinate (obj q hq a b) i ≠ [y] := by
  intro h
  obtain ⟨-, h2⟩ := hP.ordinate (obj q hq a b) i hd
  have hy := (h2 y).1 (by rw [h]; simp)
  have hy' : (obj q hq a b).eqn.Nonsingular (elem (obj q hq a b).field i) ((obj q hq a b).eqn.negY (elem (obj q hq a b).field i) y) :=
    (WeierstrassCurve.Affine.nonsingular_neg _ _).2 hy
  have e := (h2 _).2 hy'
  rw [h, List.mem_singleton] at e
  have hneg : -(WeierstrassCurve.Affine.Point.some _ _ hy) = WeierstrassCurve.Affine.Point.some _ _ hy := by
    rw [WeierstrassCurve.Affine.Point.neg_some]
    congr 1
  have h2P : 2 • (WeierstrassCurve.Affine.Point.some _ _ hy) = 0 := by
    rw [two_nsmul, ← eq_neg_iff_add_eq_zero, hneg]
  have hdvd := addOrderOf_dvd_of_nsmul_eq_zero h2P
  rw [order_prime hn _ (WeierstrassCurve.Affine.Point.some_ne_zero _)] at hdvd
  have hc : Nat.card (obj q hq a b).Pt = 2 := by
    rcases (Nat.dvd_prime Nat.prime_two).1 hdvd with e | e
    · exact absurd e hn.one_lt.ne'
    · exact e
  obtain ⟨t, ht, e⟩ := ht
  rw [hc] at e
  have : t = 2 * q := by omega
  rw [this] at ht
  exact Nat.not_prime_mul (by decide) (by omega) ht

/-- the points asked for can be computed: not all subgroups of a base point that may be infinity -/
def PointsFine (c : Config) : Prop := c.seedAlgo = .nums ∨ c.pointsType ≠ .all

/-- the generator of every stage finds what it reads -/
theorem act_defined (P : Pari) (hP : P.Ok) (c : Config) (h : Covered c) (hf : PointsFine c) (p : Pick) (hp : p.Ok c) (s : Nat) (hs : s < 9)
    (x : St) (hi : Inv c s x) : ∃ x' d, act P c p s x = some (x', d) := by
  match s, hs with
  | 0, _ =>
    rcases table c h with ⟨-, ⟨g, h2, h3⟩, -⟩ | ⟨-, h2, -⟩
    · simp only [List.mem_cons, List.not_mem_nil, or_false] at h3
      rcases h3 with rfl | rfl | rfl | rfl | rfl | rfl <;> exact ⟨_, _, by simp only [act, stageOf, h2, Option.bind_some, id, call]; rfl⟩
    · exact ⟨_, _, by simp only [act, stageOf, h2, Option.bind_some, id, call, Whole.call, Option.map_some]; rfl⟩
  | 1, _ =>
    have hip := isprimeI_spec P hP
    rcases table c h with ⟨h1, -, h2, -⟩ | ⟨h1, -, h2, -⟩
    · obtain ⟨sd, z, e1, e2⟩ := hi.seed (by omega) h1
      rcases Brainpool.field_spec p.junk P.nextprime P.isprimeI hP.nextprime hip c.bits (h.bits h1) ⟨sd, x.upd⟩ _ ⟨z, e2, rfl⟩ p.fuel with
        h3 | ⟨q, k, s', h3, h4, -⟩
      · exact ⟨_, _, by simp only [act, stageOf, h2, Option.bind_some, id, call, e1, h3, brainpoolField]; rfl⟩
      · have hq : q.Prime := h4.1
        exact ⟨_, _, by simp only [act, stageOf, h2, Option.bind_some, id, call, e1, h3, brainpoolField, Int.toNat_natCast, dif_pos hq]; rfl⟩
    · have hip := isprimeI_nums P hP
      cases hg : Nums.genField P.isprimeI c.bits p.fuel with
      | none => exact ⟨_, _, by simp only [act, stageOf, h2, Option.bind_some, id, call, hg]; rfl⟩
      | some qi =>
        have hb : 2 ≤ c.bits := by
          by_contra hb
          rw [Nums.field_diverges P.isprimeI hip c.bits (by omega)] at hg
          cases hg
        obtain ⟨q, rfl, hq, -⟩ := (Nums.field_spec P.isprimeI hip c.bits hb).2 _ _ hg
        exact ⟨_, _, by simp only [act, stageOf, h2, Option.bind_some, id, call, hg, Int.toNat_natCast, dif_pos hq]; rfl⟩
  | 2, _ =>
    obtain ⟨q, hq, hk⟩ := hi.known (by omega)
    rcases table c h with ⟨-, -, -, h2, -⟩ | ⟨-, -, -, h2, -⟩
    · exact ⟨_, _, by simp only [act, stageOf, h2, Option.bind_some, id, call, Whole.call, Option.map_some]; rfl⟩
    · exact ⟨_, _, by simp only [act, stageOf, h2, Option.bind_some, id, call, primeOf_known hk.field, Option.map_some]; rfl⟩
  | 3, _ =>
    obtain ⟨q, hq, hk⟩ := hi.known (by omega)
    have hq2 := odd_prime hk.prime
    rcases table c h with ⟨h1, -, -, -, h2, -⟩ | ⟨h1, -, -, -, h2, -⟩
    · obtain ⟨sd, zp, e1, e2, e3⟩ := hk.next (by omega) h1
      cases hr : rfc c with
      | false =>
        rw [hr] at h2
        rcases Brainpool.equation_spec p.junk q hq hq2 (P.fp q) (hP.fp q hq) c.bits ⟨sd, x.upd⟩ _ e2 p.fuel with h3 | ⟨k, s', h3, -⟩ <;>
          exact ⟨_, _, by simp only [act, stageOf, h2, Option.bind_some, id, Bool.false_eq_true, if_false, call, e1, primeOf_known hk.field, h3,
            brainpoolEquation]; rfl⟩
      | true =>
        rw [hr] at h2
        rcases Brainpool.equation_rfc_spec p.junk q hq hq2 (P.fp q) (hP.fp q hq) c.bits ⟨sd, x.upd⟩ _ e2 p.fuel with h3 | ⟨k, j, s', h3, -⟩ <;>
          exact ⟨_, _, by simp only [act, stageOf, h2, Option.bind_some, id, if_true, call, e1, primeOf_known hk.field, h3, brainpoolEquation]; rfl⟩
    · exact ⟨_, _, by simp only [act, stageOf, h2, Option.bind_some, id, call, primeOf_known hk.field, Option.map_some]; rfl⟩
  | 4, _ =>
    obtain ⟨q, hq, hk⟩ := hi.known (by omega)
    obtain ⟨a, b, e1, e2, -⟩ := hk.ab (by omega)
    exact ⟨_, _, by simp only [act, stageOf, table_curve c h, Option.bind_some, id, call, Whole.call, hk.field, e1, e2, Option.map_some]; rfl⟩
  | 5, _ =>
    obtain ⟨q, hq, hk⟩ := hi.known (by omega)
    obtain ⟨a, b, -, -, -, -, hc⟩ := hk.ab (by omega)
    obtain ⟨e5, -⟩ := hc.crv (by omega)
    rcases table c h with ⟨h1, -, -, -, -, h2, -⟩ | ⟨h1, -, -, -, -, h2, -⟩
    · exact ⟨_, _, by simp only [act, stageOf, h2, Option.bind_some, id, call, Whole.call, e5, orderStage, Option.map_some]; rfl⟩
    · exact ⟨_, _, by simp only [act, stageOf, h2, Option.bind_some, id, call, primeOf_known hk.field, e5, Option.map_some]; rfl⟩
  | 6, _ =>
    obtain ⟨q, hq, hk⟩ := hi.known (by omega)
    obtain ⟨a, b, -, -, -, -, hc⟩ := hk.ab (by omega)
    obtain ⟨e5, hd⟩ := hc.crv (by omega)
    obtain ⟨e6, hn⟩ := hc.order (by omega)
    rcases table c h with ⟨h1, -, -, -, -, -, h2⟩ | ⟨h1, -, -, -, -, -, h2⟩
    · obtain ⟨sd, zb, s1, s2, s3⟩ := hc.derived (by omega) h1
      obtain ⟨sd', u1, u2⟩ := Brainpool.updateSeed_spec p.junk s2
      have e : act P c p 6 x = brainpoolGens P c.bits p x (obj q hq a b) (Nat.card (obj q hq a b).Pt) sd := by
        simp only [act, stageOf, h2, Option.bind_some, id, call, s1, e5, e6]
      rw [e]
      unfold brainpoolGens
      rw [u1, Option.bind_some, Brainpool.hashI_spec p.junk u2 _ _ (Brainpool.wOf_le c.bits).2, Option.bind_some]
      simp only
      split
      · exact ⟨_, _, rfl⟩
      · split <;> exact ⟨_, _, rfl⟩
    · simp only [act, stageOf, h2, Option.bind_some, id, call, e5, e6, numsGens]
      cases hf : firstX P (obj q hq a b) 1 with
      | none => exact ⟨_, _, rfl⟩
      | some i =>
        simp only
        have h0 := firstX_ne P _ _ _ hf
        have h1' := two_ordinates P hP q hq (odd_prime hk.prime) a b i hd hn.prime (hn.twist h1)
        match ho : P.ordinate (obj q hq a b) i with
        | [] => exact absurd ho h0
        | [y] => exact absurd ho (h1' y)
        | y :: y' :: l => exact ⟨_, _, rfl⟩
  | 7, _ =>
    obtain ⟨q, hq, hk⟩ := hi.known (by omega)
    obtain ⟨a, b, -, -, -, -, hc⟩ := hk.ab (by omega)
    obtain ⟨e5, hd⟩ := hc.crv (by omega)
    obtain ⟨e6, hn⟩ := hc.order (by omega)
    obtain ⟨g, ps, e7, hg, -⟩ := hc.gens (by omega)
    have htab : (exhaustiveSetup c).gens.points = some (pointsChoice c) := rfl
    have harg : (exhaustiveSetup c).genArgs.points = (ainit c).points := rfl
    have hcall : call P c.bits p ((ainit c).points) x (pointsChoice c) =
        (Whole.call P.toPari c.bits p.toPick (ainit c).points x.cur (pointsChoice c)).map fun r => ({ x with cur := r.1 }, r.2) := by
      unfold pointsChoice
      cases c.pointsType with
      | random => simp only; split <;> rfl
      | _ => rfl
    suffices ∃ y d, Whole.call P.toPari c.bits p.toPick (ainit c).points x.cur (pointsChoice c) = some (y, d) by
      obtain ⟨y, d, hy⟩ := this
      exact ⟨_, _, by simp only [act, stageOf, htab, harg, Option.bind_some, id, hcall, hy, Option.map_some]; rfl⟩
    by_cases hnone : c.pointsType = .none
    · have : pointsChoice c = .skip := by simp only [pointsChoice, hnone]
      exact ⟨_, _, by rw [this]; rfl⟩
    rw [call_points _ _ _ _ _ _ hnone]
    suffices ∃ l, pointsStage P.toPari p.toPick (obj q hq a b) [g] (ainit c).points (pointsChoice c) = some l by
      obtain ⟨l, hl⟩ := this
      exact ⟨{ x.cur with gens := some ⟨obj q hq a b, l⟩ }, 1,
        by simp only [call.withPoints, e7, e5, if_true, List.map_cons, List.map_nil, hl, Option.map_some]⟩
    have h1 : g.order = 1 ∨ g.order.Prime := by
      rw [hg.order]
      by_cases h0 : g.point = 0
      · left; rw [h0, addOrderOf_zero]
      · right; rw [order_prime hn.prime _ h0]; exact hn.prime
    unfold pointsChoice
    cases ht : c.pointsType with
    | none => exact absurd ht hnone
    | prime => exact ⟨_, rfl⟩
    | all =>
      have hpr : P.isprime g.order = true := by
        rcases hf with hf | hf
        · obtain ⟨-, u, y, hh, e, -⟩ := hg.nums hf
          rcases h1 with h1 | h1
          · rw [hg.order, AddMonoid.addOrderOf_eq_one_iff, e] at h1
            exact absurd h1 (WeierstrassCurve.Affine.Point.some_ne_zero _)
          · exact (hP.isprime _).2 h1
        · exact absurd ht hf
      exact ⟨_, by simp only [pointsStage, Group.pointsAll, List.mapM_cons, List.mapM_nil, Group.pointsAll1, Subgroup.all, hpr, if_true]; rfl⟩
    | nonprime =>
      rcases h1 with h1 | h1
      · have hnp : P.isprime 1 = false := by
          cases hb : P.isprime 1
          · rfl
          · exact absurd ((hP.isprime 1).1 hb) Nat.not_prime_one
        have hfac : Subgroup.divisors (P.fac 1) = [] := by
          have := (Subgroup.divisors_perm P.fac hP.fac 1 (by decide)).length_eq
          rw [Nat.primeFactorsList_one] at this
          exact List.length_eq_zero_iff.1 this
        exact ⟨_, by simp only [pointsStage, Group.pointsNonprime, List.mapM_cons, List.mapM_nil, Group.pointsNonprime1, Subgroup.nonprime, h1, hnp, hfac]; rfl⟩
      · have hpr := (hP.isprime _).2 h1
        exact ⟨_, by simp only [pointsStage, Group.pointsNonprime, List.mapM_cons, List.mapM_nil, Group.pointsNonprime1, Subgroup.nonprime, hpr, if_true]; rfl⟩
    | random =>
      have hw : ∀ k, p.which 1 k < 1 := fun k => hp.which 1 k (by decide)
      by_cases ha : c.pointsAmount ≠ 0
      · obtain ⟨counts, e, -⟩ := Group.distribute_spec (p.which 1) 1 c.pointsAmount fun k _ => hw k
        exact ⟨_, by simp only [if_pos ha, pointsStage, (orderArg c).2.2.2 ht, Option.bind_some, argNat, Group.pointsRandom, List.length_singleton, e,
          Option.map_some]; rfl⟩
      · exact ⟨_, by simp only [if_neg ha, pointsStage, Group.pointRandom, List.length_singleton, hw, if_true]; rfl⟩
  | 8, _ =>
    have htab : (exhaustiveSetup c).gens.metadata = some (if c.metadata then .metadata else .skip) := rfl
    cases hm : c.metadata <;> rw [hm] at htab <;>
      exact ⟨_, _, by simp only [act, stageOf, htab, Bool.false_eq_true, if_false, if_true, Option.bind_some, id, call, Whole.call, Option.map_some]; rfl⟩

/-- the members the checks of a stage read are set by its generator -/
def Ready (s : Nat) (x : St) : Prop :=
  (s = 4 → x.cur.crv.isSome) ∧ (s = 5 → (primeOf x).isSome ∧ x.cur.order.isSome) ∧
  (s = 6 → (primeOf x).isSome ∧ ∃ E g l, x.cur.gens = some ⟨E, g :: l⟩)

theorem act_ready (P : Pari) (c : Config) (h : Covered c) (p : Pick) (s : Nat) (x : St) (hi : Inv c s x) (x' : St) (d : Int)
    (ha : act P c p s x = some (x', d)) (hd : 0 < d) : Ready s x' := by
  refine ⟨?_, ?_, ?_⟩
  · rintro rfl
    obtain ⟨q, hq, hk⟩ := hi.known (by omega)
    obtain ⟨a, b, e1, e2, -⟩ := hk.ab (by omega)
    simp only [act, stageOf, table_curve c h, Option.bind_some, id, call, Whole.call, hk.field, e1, e2, Option.map_some, Option.some.injEq,
      Prod.mk.injEq] at ha
    obtain ⟨rfl, -⟩ := ha
    rfl
  · rintro rfl
    obtain ⟨q, hq, hk⟩ := hi.known (by omega)
    obtain ⟨a, b, -, -, -, -, hc⟩ := hk.ab (by omega)
    obtain ⟨e5, -⟩ := hc.crv (by omega)
    rcases table c h with ⟨h1, -, -, -, -, h2, -⟩ | ⟨h1, -, -, -, -, h2, -⟩
    · simp only [act, stageOf, h2, Option.bind_some, id, call, Whole.call, e5, orderStage, Option.map_some, Option.some.injEq, Prod.mk.injEq] at ha
      obtain ⟨rfl, rfl⟩ := ha
      cases hg : Order.genPrime P.isprime (p.sea (obj q hq a b)) with
      | none => rw [hg] at hd; exact absurd hd (show ¬ (0 : Int) < -4 by decide)
      | some m => exact ⟨by rw [primeOf_known (q := q) (hq := hq) (by exact hk.field)]; rfl, rfl⟩
    · simp only [act, stageOf, h2, Option.bind_some, id, call, primeOf_known hk.field, e5, Option.map_some, Option.some.injEq] at ha
      unfold numsOrder at ha
      simp only at ha
      split at ha
      · cases ha; omega
      · cases ha
        exact ⟨by rw [primeOf_known (q := q) (hq := hq) (by exact hk.field)]; rfl, rfl⟩
  · rintro rfl
    obtain ⟨q, hq, hk⟩ := hi.known (by omega)
    obtain ⟨a, b, -, -, -, -, hc⟩ := hk.ab (by omega)
    obtain ⟨e5, -⟩ := hc.crv (by omega)
    obtain ⟨e6, -⟩ := hc.order (by omega)
    have key : ∀ x0 : St, x0.cur.field = x.cur.field → ∀ G, (primeOf (single P x0 (obj q hq a b) (Nat.card (obj q hq a b).Pt) G)).isSome ∧
        ∃ E g l, (single P x0 (obj q hq a b) (Nat.card (obj q hq a b).Pt) G).cur.gens = some ⟨E, g :: l⟩ := by
      intro x0 h0 G
      exact ⟨by rw [primeOf_known (q := q) (hq := hq) (by exact h0.trans hk.field)]; rfl, _, _, _, rfl⟩
    rcases table c h with ⟨h1, -, -, -, -, -, h2⟩ | ⟨h1, -, -, -, -, -, h2⟩
    · obtain ⟨sd, zb, s1, s2, s3⟩ := hc.derived (by omega) h1
      have e : act P c p 6 x = brainpoolGens P c.bits p x (obj q hq a b) (Nat.card (obj q hq a b).Pt) sd := by
        simp only [act, stageOf, h2, Option.bind_some, id, call, s1, e5, e6]
      rw [e] at ha
      unfold brainpoolGens at ha
      simp only [Option.bind_eq_some_iff] at ha
      obtain ⟨s', -, k, -, ha⟩ := ha
      split at ha
      · cases ha; exact absurd hd (by decide)
      · split at ha
        · cases ha; exact key _ rfl _
        · cases ha; exact key _ rfl _
        · cases ha; exact absurd hd (by decide)
    · simp only [act, stageOf, h2, Option.bind_some, id, call, e5, e6, numsGens] at ha
      split at ha
      · cases ha; exact absurd hd (by decide)
      · split at ha
        · cases ha; exact key _ rfl _
        · cases ha

/-- a check whose members are set does nothing undefined -/
theorem check_defined (P : Pari) (c : Config) (h : Covered c) (s : Nat) (w : W) (hr : Ready s w.st) (k : Check) (hk : k ∈ checksOf c s) :
    (check P w k).1.ub = w.ub := by
  by_cases hne : k = .hexParam
  · subst hne; rfl
  have : ∃ d, verdict P w.st k = some d := by
    rw [table_checks c h] at hk
    split at hk
    · rw [List.mem_singleton] at hk
      subst hk
      obtain ⟨E, hE⟩ := Option.isSome_iff_exists.1 (hr.1 (by assumption))
      exact ⟨_, by simp only [verdict, hE, Option.map_some]; rfl⟩
    · split at hk
      · rename_i h5
        rw [List.mem_singleton] at hk
        subst hk
        obtain ⟨h1, h2⟩ := hr.2.1 h5.1
        obtain ⟨q, hq⟩ := Option.isSome_iff_exists.1 h1
        obtain ⟨n, hn⟩ := Option.isSome_iff_exists.1 h2
        exact ⟨_, by simp only [verdict, hq, hn]; rfl⟩
      · split at hk
        · rename_i h6
          obtain ⟨h1, E, g, l, h2⟩ := hr.2.2 h6
          obtain ⟨q, hq⟩ := Option.isSome_iff_exists.1 h1
          simp only [List.mem_cons, List.not_mem_nil, or_false] at hk
          rcases hk with rfl | rfl <;> exact ⟨_, by simp only [verdict, hq, h2]; rfl⟩
        · split at hk
          · rw [List.mem_singleton] at hk
            exact absurd hk hne
          · cases hk
  obtain ⟨d, hd⟩ := this
  cases k with
  | hexParam => exact absurd rfl hne
  | _ => simp only [check, hd]

open Engine Engine.Spec

theorem passes_defined (P : Pari) (c : Config) (h : Covered c) (s : Nat) : ∀ (l : List Check), (∀ k ∈ l, k ∈ checksOf c s) → ∀ (w w' : W), Ready s w.st →
    Passes (l.map fun k w => check P w k) w w' → w'.ub = w.ub := by
  intro l
  induction l with
  | nil => intro _ w w' _ h; cases h; rfl
  | cons k l ih =>
    intro hl w w' hr hp
    rw [List.map_cons] at hp
    cases hp with
    | cons h1 h2 =>
      rw [ih (fun k hk => hl k (List.mem_cons_of_mem _ hk)) _ _ (by rw [(check_spec P w k).1]; exact hr) h2,
        check_defined P c h s w hr k (hl k List.mem_cons_self)]

theorem rejects_defined (P : Pari) (c : Config) (h : Covered c) (s : Nat) : ∀ (l : List Check), (∀ k ∈ l, k ∈ checksOf c s) → ∀ (w : W) (d : Int) (w' : W),
    Ready s w.st → Rejects (l.map fun k w => check P w k) w d w' → w'.ub = w.ub := by
  intro l
  induction l with
  | nil => intro _ w d w' _ h; cases h
  | cons k l ih =>
    intro hl w d w' hr hp
    rw [List.map_cons] at hp
    have h0 := check_defined P c h s w hr k (hl k List.mem_cons_self)
    cases hp with
    | here h1 => exact h0
    | later h1 h2 =>
      rw [ih (fun k hk => hl k (List.mem_cons_of_mem _ hk)) _ _ _ (by rw [(check_spec P w k).1]; exact hr) h2, h0]

theorem gen_defined (P : Pari) (hP : P.Ok) (c : Config) (h : Covered c) (hf : PointsFine c) {w : W} (hb : Behaves c w) (s : Nat) (hs : s < 9) (w1 : W)
    (r : GenRes) (hi : Inv c s w.st) (hg : (setup P c).gen s w = (w1, r)) : w1.ub = w.ub ∧ ∀ d, 0 < d → r = .ret d → Ready s w1.st := by
  obtain ⟨x', d, ha⟩ := act_defined P hP c h hf w.pick (hb w.pos) s hs _ hi
  change gen P c.bits (exhaustiveSetup c) s w = _ at hg
  unfold gen at hg
  cases h1 : w.pick.cut with
  | some x => rw [h1] at hg; cases hg; exact ⟨rfl, fun _ _ h => by cases h⟩
  | none =>
    rw [h1] at hg
    cases h2 : w.pick.fail s with
    | some d =>
      simp only [h2] at hg; cases hg
      refine ⟨rfl, fun d' h3 h4 => ?_⟩
      cases h4
      have := (failures_spec s d ((hb w.pos).fail s d h2)).1
      omega
    | none =>
      simp only [h2] at hg
      change done w (act P c w.pick s w.st) = _ at hg
      rw [ha] at hg
      cases hg
      refine ⟨rfl, fun d' h3 h4 => ?_⟩
      cases h4
      exact act_ready P c h w.pick s _ hi _ _ ha h3

theorem succeeds_defined (P : Pari) (hP : P.Ok) (c : Config) (h : Covered c) (hf : PointsFine c) (s : Nat) (w : W) (hb : Behaves c w) (d : Int) (w' : W)
    (hs : s < 9) (hi : Inv c s w.st) (hsucc : Succeeds (setup P c) s w d w') : w'.ub = w.ub := by
  obtain ⟨w1, h1, h2, h3⟩ := hsucc
  obtain ⟨h4, h5⟩ := gen_defined P hP c h hf hb s hs w1 _ hi h1
  rw [← h4]
  exact passes_defined P c h s _ (fun _ hk => hk) _ _ (h5 d h2 rfl) h3

theorem fails_defined (P : Pari) (hP : P.Ok) (c : Config) (h : Covered c) (hf : PointsFine c) (s : Nat) (w : W) (hb : Behaves c w) (d : Int) (w' : W)
    (hs : s < 9) (hi : Inv c s w.st) (hfail : Fails (setup P c) 0 s w d w') : w'.ub = w.ub := by
  rcases hfail with ⟨h1, rfl⟩ | ⟨h1, h2⟩ | ⟨w1, g, h1, h2, h3⟩
  · exact (gen_defined P hP c h hf hb s hs w' _ hi h1).1
  · exact (gen_defined P hP c h hf hb s hs w' _ hi h1).1
  · obtain ⟨h4, h5⟩ := gen_defined P hP c h hf hb s hs w1 _ hi h1
    rw [← h4]
    exact rejects_defined P c h s _ (fun _ hk => hk) _ _ _ (h5 g h2 rfl) h3

theorem cleaned_ub (P : Pari) (c : Config) (lo : Nat) : ∀ (hi : Nat) (w : W), (cleaned (setup P c) lo hi w).ub = w.ub := by
  intro hi
  induction hi with
  | zero => intro w; rfl
  | succ i ih =>
    intro w
    unfold cleaned
    split
    · rw [ih]; rfl
    · rfl

/-- what holds at the beginning of a stage -/
def Sound (c : Config) (s : Nat) (v : W) : Prop := (s ≤ 9 ∧ Inv c s v.st ∧ Behaves c v) ∧ v.ub = false

/-- a search starts with an empty curve object -/
def fresh (w : W) : W := { w with st := { cur := {}, upd := false, sb := w.st.sb, scb := w.st.scb, ptr := w.pick.address } }

/-- no stage of the search does anything undefined -/
theorem search_defined (P : Pari) (hP : P.Ok) (c : Config) (h : Covered c) (hf : PointsFine c) (w : W) (hb : Behaves c w)
    (hu : w.ub = false) (st : Engine.St W) (hr : Reaches (setup P c) 0 9 0 (Engine.init 0 (fresh w)) st) (hs : st.state < 9)
    (st' : Engine.St W) (hst : Engine.step (setup P c) 0 0 st = .inl st' ∨ Engine.step (setup P c) 0 0 st = .inr st') : st'.w.ub = false := by
  have hfail : ∀ s v d v', 0 ≤ s → s < 9 → Sound c s v → Fails (setup P c) 0 s v d v' → v'.ub = false := by
    rintro s v d v' - hs ⟨⟨-, hi, hb⟩, hu⟩ hf'
    rw [← hu]
    exact fails_defined P hP c h hf s v hb d v' hs hi hf'
  have hok : ∀ s v d v', 0 ≤ s → s < 9 → Sound c s v → Succeeds (setup P c) s v d v' → Sound c (s + d.toNat) v' := by
    rintro s v d v' - hs ⟨⟨-, hi, hb⟩, hu⟩ hsucc
    obtain ⟨rfl, h1, h2⟩ := keep_ok P hP c h s v d v' hs hi hb hsucc
    refine ⟨⟨by simp only [Int.toNat_one]; omega, h1, h2⟩, ?_⟩
    rw [← hu]
    exact succeeds_defined P hP c h hf s v hb 1 v' hs hi hsucc
  have hback : ∀ s v d v', 0 ≤ s → s < 9 → Sound c s v → Fails (setup P c) 0 s v d v' → 0 ≤ (s : Int) + d →
      Sound c (max ((s : Int) + d).toNat 0) (cleaned (setup P c) (max ((s : Int) + d).toNat 0) s v') := by
    intro s v d v' h00 hs hv hf' h0
    have hu' := hfail s v d v' h00 hs hv hf'
    obtain ⟨⟨-, hi, hb⟩, hu⟩ := hv
    obtain ⟨h1, h2⟩ := keep_fail P hP c h s v d v' hs hi hb hf'
    obtain ⟨k, hk, e, h3⟩ := h2 h0
    have e' : max ((s : Int) + d).toNat 0 = k := by omega
    rw [e']
    refine ⟨⟨by omega, cleaned_inv hk h3, fun i => ?_⟩, by rw [cleaned_ub]; exact hu'⟩
    rw [(cleaned_keeps P c k s v').2.2.2.2.2]
    exact h1 i
  obtain ⟨-, h1⟩ := Engine.reaches_inv (setup P c) 0 9 0 (Sound c) hok hback _ st (Nat.zero_le _)
    ⟨⟨Nat.zero_le _, inv_low (Nat.zero_le _) (fun _ => rfl) (fun _ => rfl) (fun h => by cases h), hb⟩, hu⟩ hr
  obtain ⟨h2, h3⟩ := Engine.step_inv (setup P c) 0 9 0 (Sound c) (fun v => v.ub = false) hok hback hfail st (Nat.zero_le _) hs h1
  rcases hst with hst | hst
  · exact (h2 st' hst).2.2
  · exact h3 st' hst

/-- **C80** NUMS: whatever happens, no stage of the search for a curve does anything undefined: no member of the curve is read before it is set, and the
second of the two second coordinates is there. This holds after every call of a generator and its checks, in searches that succeed, fail or never end. -/
theorem nums_search_defined (P : Pari) (hP : P.Ok) (n : Int) (os : List Opt) (c : Config) (h : commandLine n os = some c) (ha : c.seedAlgo = .nums)
    (w : W) (hb : ∀ i, (w.tape i).Ok c) (hu : w.ub = false) (st : Engine.St W) (hr : Reaches (setup P c) 0 9 0 (Engine.init 0 (fresh w)) st)
    (hs : st.state < 9) (st' : Engine.St W) (hst : Engine.step (setup P c) 0 0 st = .inl st' ∨ Engine.step (setup P c) 0 0 st = .inr st') :
    st'.w.ub = false :=
  search_defined P hP c (covered n os c h (Or.inr (Or.inr ha)) fun h => absurd ha h) (Or.inl ha) w hb hu st hr hs st' hst

/-- **C80** Brainpool: the same, but for `--points=all`, which reads a null list if the base point is infinity -/
theorem brainpool_search_defined_partial (P : Pari) (hP : P.Ok) (n : Int) (os : List Opt) (c : Config) (h : commandLine n os = some c)
    (ha : c.seedAlgo = .brainpool ∨ c.seedAlgo = .brainpoolRfc) (hbits : 1 ≤ c.bits) (hp : c.pointsType ≠ .all)
    (w : W) (hb : ∀ i, (w.tape i).Ok c) (hu : w.ub = false) (st : Engine.St W) (hr : Reaches (setup P c) 0 9 0 (Engine.init 0 (fresh w)) st)
    (hs : st.state < 9) (st' : Engine.St W) (hst : Engine.step (setup P c) 0 0 st = .inl st' ∨ Engine.step (setup P c) 0 0 st = .inr st') :
    st'.w.ub = false :=
  search_defined P hP c (covered n os c h (by tauto) fun _ => hbits) (Or.inr hp) w hb hu st hr hs st' hst

/-! ## Printing -/

/-- a complete curve can be printed, unless its base point is infinity -/
theorem printed_defined (c : Config) (x : St) (hi : Inv c 9 x) (hq : c.pointsType = .random → c.pointsAmount ≠ 0) :
    (∃ v, outCurve x.cur = some v) ∨ (c.seedAlgo ≠ .nums ∧ ∃ E g l, x.cur.gens = some ⟨E, g :: l⟩ ∧ g.gen.point = 0) := by
  obtain ⟨q, hq', hk⟩ := hi.known (by omega)
  obtain ⟨a, b, ha, hb, -, -, hab⟩ := hk.ab (by omega)
  obtain ⟨ho, -⟩ := hab.order (by omega)
  obtain ⟨g, ps, hg, hgk, -, hps⟩ := hab.gens (by omega)
  by_cases h0 : g.point = 0
  · refine Or.inr ⟨fun hn => ?_, _, _, _, hg, h0⟩
    obtain ⟨-, u, y, hh, e, -⟩ := hgk.nums hn
    rw [h0] at e
    exact WeierstrassCurve.Affine.Point.some_ne_zero _ e.symm
  · refine Or.inl ?_
    have hp := hps (by omega) h0
    have hp' := hp
    obtain ⟨r0, hr0⟩ := outPoint_some (obj q hq' a b) (some g.cofactor) g h0
    obtain ⟨qs, hqs, hps1, hps2⟩ := hp.listed _ List.mem_cons_self
    have hgt : ∀ p ∈ qs, p.point ≠ 0 := by
      intro p hp h0
      have h5 := (hps1 p hp).1
      rw [h0, addOrderOf_zero] at h5
      have h6 : p.order ∈ qs.map Group.Pt.order := List.mem_map_of_mem hp
      cases ht : c.pointsType with
      | random => exact hp'.finite ht (hq ht) _ List.mem_cons_self p (hqs ▸ List.mem_map_of_mem hp) h0
      | none => exact ((hps2 (fun _ => False) (by simp only [pointOrders, ht])).2 _).1 h6
      | prime =>
        have := ((hps2 _ (by simp only [pointOrders, ht]; rfl)).2 p.order).1 h6
        exact absurd this.1 (h5 ▸ Nat.not_prime_one)
      | all =>
        have := ((hps2 _ (by simp only [pointOrders, ht]; rfl)).2 p.order).1 h6
        exact absurd this.1 (h5 ▸ Nat.lt_irrefl 1)
      | nonprime =>
        have := ((hps2 _ (by simp only [pointOrders, ht]; rfl)).2 p.order).1 h6
        exact absurd this.1 (h5 ▸ Nat.lt_irrefl 1)
    obtain ⟨r, hr⟩ := allSome_some (outPoint (obj q hq' a b) none) qs fun p hp => outPoint_some _ none p (hgt p hp)
    have hsub : outSub (obj q hq' a b) ⟨g, ps⟩ = some ⟨r0, r⟩ := by
      have hqs : ps = qs.map some := hqs
      have : ((fun p : Option (Group.Pt (obj q hq' a b).Pt) => p.bind (outPoint (obj q hq' a b) none)) ∘ some) = outPoint (obj q hq' a b) none := rfl
      simp only [outSub, hr0, Option.bind_some, hqs, List.map_map]
      rw [this, hr]
      rfl
    exact ⟨_, by simp only [outCurve, hk.field, ha, hb, ho, hg, List.map_cons, List.map_nil, hsub, allSome, Option.map_some]; rfl⟩

/-- **C80** a NUMS search that succeeds gives a curve to print, but for a random point whose number is not given -/
theorem nums_found_is_printed_partial (P : Pari) (hP : P.Ok) (n : Int) (os : List Opt) (c : Config) (h : commandLine n os = some c)
    (ha : c.seedAlgo = .nums) (hq : c.pointsType = .random → c.pointsAmount ≠ 0) (fuel : Nat) (w : W) (hb : ∀ i, (w.tape i).Ok c) (r : Int) (st : Engine.St W)
    (hg : Engine.gen (setup P c) 0 9 fuel (fresh w) = some (r, st)) : r = 0 ∨ ∃ v, one P c fuel w = (some v, st.w) := by
  obtain ⟨-, ⟨rfl, h2⟩ | h2⟩ := search P hP c (covered n os c h (Or.inr (Or.inr ha)) fun h => absurd ha h) fuel (fresh w) hb
    (inv_low (by omega) (fun _ => rfl) (fun _ => rfl) (fun h => by omega)) r st hg
  · rcases printed_defined c _ h2 hq with ⟨v, hv⟩ | ⟨hn, -⟩
    · refine Or.inr ⟨v, ?_⟩
      unfold fresh at hg
      simp only [one, hg, hv]
      rw [if_neg (by decide)]
    · exact absurd ha hn
  · exact Or.inl h2

/-- **C80** a Brainpool search that succeeds gives a curve to print, unless its base point is infinity (which happens, `infinity_false`) -/
theorem brainpool_found_is_printed_partial (P : Pari) (hP : P.Ok) (n : Int) (os : List Opt) (c : Config) (h : commandLine n os = some c)
    (ha : c.seedAlgo = .brainpool ∨ c.seedAlgo = .brainpoolRfc) (hbits : 1 ≤ c.bits) (hq : c.pointsType = .random → c.pointsAmount ≠ 0) (fuel : Nat) (w : W)
    (hb : ∀ i, (w.tape i).Ok c) (r : Int) (st : Engine.St W) (hg : Engine.gen (setup P c) 0 9 fuel (fresh w) = some (r, st)) :
    r = 0 ∨ (∃ v, one P c fuel w = (some v, st.w)) ∨ ∃ E g l, st.w.st.cur.gens = some ⟨E, g :: l⟩ ∧ g.gen.point = 0 := by
  obtain ⟨-, ⟨rfl, h2⟩ | h2⟩ := search P hP c (covered n os c h (by tauto) fun _ => hbits) fuel (fresh w) hb
    (inv_low (by omega) (fun _ => rfl) (fun _ => rfl) (fun h => by omega)) r st hg
  · rcases printed_defined c _ h2 hq with ⟨v, hv⟩ | ⟨-, hn⟩
    · refine Or.inr (Or.inl ⟨v, ?_⟩)
      unfold fresh at hg
      simp only [one, hg, hv]
      rw [if_neg (by decide)]
    · exact Or.inr (Or.inr hn)
  · exact Or.inl h2

end Ecgen.Seeded
