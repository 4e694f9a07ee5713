import Verif.Special.Props
import Verif.Special.Torsion
import Verif.Whole.Defined

/-!
# Runs of the three methods without undefined behaviour (C84)
-/

namespace Ecgen.Special

open Whole Output Output.Spec Cli
open Seeded (Fp)

variable {P : Pari} {c : Config} {T : Nat → Pick}

/-- the class polynomials have roots where they are needed: the class number of a prime discriminant is odd, and the roots modulo an inert prime lie in the
quadratic extension -/
def Rooted (P : Pari) (c : Config) (T : Nat → Pick) : Prop :=
  c.method = METHOD_SUPERSINGULAR → ∀ i q n, q.Prime → Drawn P c T q → Cm.superEquation P.nextprime q (T i).fuel = some (.root n) → P.roots n q ≠ []

/-- all subgroups can be listed (C28, C29) -/
def PointsFine (P : Pari) (c : Config) (T : Nat → Pick) : Prop :=
  c.method = METHOD_ANOMALOUS ∨ (c.pointsType ≠ .all ∧ c.pointsType ≠ .nonprime) ∨
  ∀ (q : Nat) (hq : q.Prime) (a b : Nat), Drawn P c T q → (obj q hq a b).eqn.Δ ≠ 0 → Sized P c T q (Nat.card (obj q hq a b).Pt) →
    (Nat.card (obj q hq a b).Pt).primeFactorsList.length < 63

/-- supersingular curves of up to 62 bits have few enough prime factors -/
theorem points_fine (hm : c.method = METHOD_SUPERSINGULAR) (hT : TapeOk P c T) (hb : c.bits ≤ 62) : PointsFine P c T := by
  refine Or.inr (Or.inr fun q hq a b hd _ hs => ?_)
  have hn := hs.2.1 hm
  have hq62 : q ≤ 2 ^ 62 := by
    refine Nat.le_trans ?_ (Nat.pow_le_pow_right (by omega) hb)
    obtain ⟨i, e | e⟩ := hd.2.1 hm
    · have := (hT.picks i).randomField hm
      rw [e] at this
      exact this.2.2
    · have := (hT.picks i).typedField hm
      rw [e] at this
      exact this.2.2
  have h1 := two_pow_le (Nat.card (obj q hq a b).Pt).primeFactorsList fun x hx => (Nat.prime_of_mem_primeFactorsList hx).two_le
  rw [Nat.prod_primeFactorsList (by omega)] at h1
  by_contra h2
  have h3 : 2 ^ 63 ≤ 2 ^ (Nat.card (obj q hq a b).Pt).primeFactorsList.length := Nat.pow_le_pow_right (by omega) (by omega)
  omega

/-- the root is not 1728 -/
theorem superAB_some (q : Nat) (hq : q.Prime) (h4 : q % 4 = 1) (j : Nat)
    (hD : haveI : Fact q.Prime := ⟨hq⟩; ∀ a b : ZMod q, Cm.HasJ a b (j : ZMod q) → Count.card a b = q + 1) : ∃ ab, superAB q hq j = some ab := by
  have : Fact q.Prime := ⟨hq⟩
  unfold superAB
  have h2 : (4 : ZMod q) ≠ 0 := by
    intro h
    have h : ((4 : Nat) : ZMod q) = 0 := by exact_mod_cast h
    rw [ZMod.natCast_eq_zero_iff] at h
    have := Nat.le_of_dvd (by omega) h
    have := hq.two_le
    have : q = 3 ∨ q = 2 ∨ q = 4 := by omega
    rcases this with rfl | rfl | rfl <;> omega
  rw [if_neg]
  · exact ⟨_, rfl⟩
  · refine mul_ne_zero h2 (sub_ne_zero.2 ?_)
    exact (not_1728 q h4 _ hD).symm

/-- the number of points is not one -/
theorem sized_ne (hP : P.toPari.Ok) (h : Covered c) (q : Nat) (hq : q.Prime) (n : Nat) (hs : Sized P c T q n) : n ≠ 1 := by
  rintro rfl
  rcases h.method with h1 | h1 | h1
  · exact hq.one_lt.ne (hs.1 h1)
  · have := hs.2.1 h1
    have := hq.two_le
    omega
  · obtain ⟨i, z, r, r1, r2⟩ := hs.2.2 h1
    obtain ⟨-, -, -, r', r1', r3, r4⟩ := (Family.genField_some P.isprimeI (isprimeI_spec P hP) _ _ _).1 z
    rw [r1] at r1'
    have : (r : Int) = r' := by exact_mod_cast r1'
    rw [← this, Int.natAbs_natCast] at r4
    rw [Nat.dvd_one] at r2
    exact Nat.not_prime_one (r2 ▸ r4)

/-- there is a generator -/
theorem gens_ne {A : Type} [AddCommGroup A] (h1 : Nat.card A ≠ 1) (l : List (Group.Pt A)) (hk : GensKnown A (view c) l) : l ≠ [] := by
  rintro rfl
  have := hk.all (Or.inr rfl)
  simp only [List.map_nil, List.not_mem_nil, Set.ofPred_false, AddSubgroup.closure_empty] at this
  apply h1
  rw [Nat.card_eq_one_iff_unique]
  refine ⟨⟨fun P Q => ?_⟩, ⟨0⟩⟩
  have hP : P ∈ (⊥ : AddSubgroup A) := this ▸ AddSubgroup.mem_top P
  have hQ : Q ∈ (⊥ : AddSubgroup A) := this ▸ AddSubgroup.mem_top Q
  rw [AddSubgroup.mem_bot] at hP hQ
  rw [hP, hQ]

/-- the points of a generator -/
theorem points_some (hP : P.toPari.Ok) (h : Covered c) (i : Nat) (hp : (T i).Ok c) (hf : PointsFine P c T) (q : Nat) (hq : q.Prime) (a b : Nat) (hdr : Drawn P c T q)
    (hd : (obj q hq a b).eqn.Δ ≠ 0) (hs : Sized P c T q (Nat.card (obj q hq a b).Pt)) (l : List (Group.Pt (obj q hq a b).Pt))
    (hk : GensKnown (obj q hq a b).Pt (view c) l) (hnone : c.pointsType ≠ .none) :
    ∃ r, pointsStage P.toPari (T i).toPick (obj q hq a b) l (ainit c).points (pointsChoice c) = some r := by
  have hne := gens_ne (sized_ne hP h q hq _ hs) l hk
  have hpos : 0 < l.length := List.length_pos_iff.2 hne
  have hw : ∀ k, (T i).which l.length k < l.length := fun k => hp.which _ k hpos
  have hcard : Nat.card (obj q hq a b).Pt ≠ 0 := Nat.card_pos.ne'
  have h2 : ∀ g ∈ l, 2 ≤ g.order := by
    intro g hg
    have h0 := hk.nonzero (Or.inr (Or.inl rfl)) g hg
    have h1 : addOrderOf g.point ≠ 1 := fun e => h0 (AddMonoid.addOrderOf_eq_one_iff.1 e)
    have h3 : 0 < addOrderOf g.point := addOrderOf_pos _
    rw [hk.order g hg]
    omega
  have h63 : c.pointsType = .all ∨ c.pointsType = .nonprime → ∀ g ∈ l, g.order.primeFactorsList.length < 63 := by
    intro ht g hg
    have hdvd : g.order ∣ Nat.card (obj q hq a b).Pt := by rw [hk.order g hg]; exact addOrderOf_dvd_natCard _
    have hle : g.order.primeFactorsList.length ≤ (Nat.card (obj q hq a b).Pt).primeFactorsList.length :=
      (Nat.primeFactorsList_sublist_of_dvd hdvd hcard).length_le
    rcases hf with hf | hf | hf
    · rw [hs.1 hf, Nat.primeFactorsList_prime hq, List.length_singleton] at hle
      omega
    · rcases ht with ht | ht
      · exact absurd ht hf.1
      · exact absurd ht hf.2
    · have := hf q hq a b hdr hd hs
      omega
  unfold pointsChoice
  cases ht : c.pointsType with
  | none => exact absurd ht hnone
  | prime => exact ⟨_, rfl⟩
  | all =>
    refine mapM_of _ _ fun g hg => ?_
    obtain ⟨r, hr, -⟩ := Subgroup.all_spec_partial P.isprime hP.isprime P.fac hP.fac g.order (h2 g hg) (h63 (Or.inl ht) g hg)
    exact ⟨_, by simp only [Group.pointsAll1, hr, Option.bind_some, Option.map_some]; rfl⟩
  | nonprime =>
    refine mapM_of _ _ fun g hg => ?_
    rcases Subgroup.nonprime_spec_partial P.isprime hP.isprime P.fac hP.fac g.order (by have := h2 g hg; omega) (h63 (Or.inr ht) g hg) with ⟨hr, -⟩ | ⟨r, hr, -⟩ <;>
      exact ⟨_, by simp only [Group.pointsNonprime1, hr, Option.map_some]; rfl⟩
  | random =>
    by_cases ha : c.pointsAmount ≠ 0
    · obtain ⟨counts, e, -⟩ := Group.distribute_spec ((T i).which l.length) l.length c.pointsAmount fun k _ => hw k
      exact ⟨_, by simp only [if_pos ha, pointsStage, (orderArg c).2.2.2 ht, Option.bind_some, argNat, Group.pointsRandom, e, Option.map_some]; rfl⟩
    · exact ⟨_, by simp only [if_neg ha, pointsStage, Group.pointRandom, hw, if_true]; rfl⟩

/-- the generator of every stage finds what it reads -/
theorem act_defined (hP : P.toPari.Ok) (h : Covered c) (hT : TapeOk P c T) (hC : Cited P c T) (hR : Rooted P c T) (hf : PointsFine P c T) (i s : Nat)
    (hs : s < 9) (x : St) (hi : Inv P c T s x) : ∃ x' d, act P c (T i) s x = some (x', d) := by
  match s, hs with
  | 0, _ =>
    rcases table c h with ⟨-, h2, -⟩ | ⟨-, h2, -⟩ | ⟨-, h2, -⟩
    · exact ⟨_, _, by simp only [act, stageOf, h2, Option.bind_some, id, call, Whole.call, Option.map_some]; rfl⟩
    · exact ⟨_, _, by simp only [act, stageOf, h2, Option.bind_some, id, call, Whole.call, Option.map_some]; rfl⟩
    · obtain ⟨sd, e1, -⟩ := Bits.fromI_value (T i).z
      by_cases hr : c.random ≠ 0
      · exact ⟨_, _, by simp only [act, stageOf, h2, if_pos hr, Option.bind_some, id, call, e1, Option.map_some]; rfl⟩
      · exact ⟨_, _, by simp only [act, stageOf, h2, if_neg hr, Option.bind_some, id, call, e1, Option.map_some]; rfl⟩
  | 1, _ =>
    rcases table c h with ⟨h1, -, h2, -, -, h3, -⟩ | ⟨h1, -, h2, -⟩ | ⟨h1, -, h2, -⟩
    · cases hd : anomalousDraw P (T i) ⟨163, (-640320) ^ 3, 3717878010⟩ ⟨11, (-32) ^ 3, 21⟩ with
      | none => exact ⟨_, _, by simp only [act, stageOf, h2, h3, Option.bind_some, id, call, anomalousField, row_three, row_zero, hd]; rfl⟩
      | some q =>
        obtain ⟨hq, -⟩ := anomalousDraw_spec hP (T i) _ _ q hd
        exact ⟨_, _, by simp only [act, stageOf, h2, h3, Option.bind_some, id, call, anomalousField, row_three, row_zero, hd, setPrime_spec x q hq]; rfl⟩
    · by_cases hr : has c.random RANDOM_FIELD = true
      · rw [if_pos hr] at h2
        exact ⟨_, _, by simp only [act, stageOf, h2, Option.bind_some, id, call, Whole.call, Option.map_some]; rfl⟩
      · rw [if_neg hr] at h2
        exact ⟨_, _, by simp only [act, stageOf, h2, Option.bind_some, id, call, Whole.call, Option.map_some]; rfl⟩
    · obtain ⟨k, sd, e1, -⟩ := hi.seed (by omega) h1
      cases hg : Family.genField P.isprimeI (fam c.family) (T k).z with
      | none => exact ⟨_, _, by simp only [act, stageOf, h2, Option.bind_some, id, call, e1, familyField, hg]; rfl⟩
      | some qi =>
        obtain ⟨-, g1, g2, -⟩ := (Family.genField_some P.isprimeI (isprimeI_spec P hP) _ _ _).1 hg
        have hq : qi.toNat.Prime := by rw [show qi.toNat = qi.natAbs by omega]; exact g2
        exact ⟨_, _, by simp only [act, stageOf, h2, Option.bind_some, id, call, e1, familyField, hg, setPrime_spec x qi.toNat hq]; rfl⟩
  | 2, _ => exact ⟨_, _, by simp only [act, stageOf, (table_common c h).1, Option.bind_some, id, call, Whole.call, Option.map_some]; rfl⟩
  | 3, _ =>
    obtain ⟨q, hq, hk⟩ := hi.known (by omega)
    rcases table c h with ⟨h1, -, -, h2, -, -, h3⟩ | ⟨h1, -, -, h2, -⟩ | ⟨h1, -, -, h2, -⟩
    · obtain ⟨lo, hi', b, -, -, -, e⟩ := hk.prime.anomalous h1
      have hnull := Cm.equation_never_null b q hq e
      simp only [act, stageOf, h2, h3, Option.bind_some, id, call, withPrime_spec hk.field, anomalousEquation, row_three]
      rw [if_neg (by rw [hnull]; decide)]
      cases hc : (List.range (T i).fuel).find? fun n => decide (jacobiSym ((T i).cs q n) q = -jacobiSym 3717878010 q) with
      | none => exact ⟨_, _, rfl⟩
      | some n =>
        have hn := List.find?_some hc
        rw [decide_eq_true_iff] at hn
        obtain ⟨ab, g1, -⟩ := anomalous_counts q hq b e (hC.gross h1 q hq hk.prime.drawn) _ hn
        exact ⟨_, _, by simp only [g1, Option.bind_some]; rfl⟩
    · simp only [act, stageOf, h2, Option.bind_some, id, call, withPrime_spec hk.field, superEquation]
      cases hs : Cm.superEquation P.nextprime q (T i).fuel with
      | none => exact ⟨_, _, rfl⟩
      | some r =>
        cases r with
        | back => exact ⟨_, _, rfl⟩
        | curve a b => exact ⟨_, _, rfl⟩
        | root n =>
          have hne := hR h1 i q n hq hk.prime.drawn hs
          simp only
          cases hl : P.roots n q with
          | nil => exact absurd hl hne
          | cons j l =>
            have hr := (haveI : Fact q.Prime := ⟨hq⟩; Cm.supersingular_root_branch P.nextprime q (T i).fuel n hs)
            obtain ⟨ab, e⟩ := superAB_some q hq (by have := hr.1; omega) j
              (fun a b hj => hC.deuring h1 i q n hq hk.prime.drawn hs j (by rw [hl]; simp) a b hj)
            exact ⟨_, _, by simp only [e, Option.bind_some]; rfl⟩
    · by_cases hf : c.family = .kss16 ∨ c.family = .kss40
      · rw [if_pos hf] at h2
        exact ⟨_, _, by simp only [act, stageOf, h2, Option.bind_some, id, call, withPrime_spec hk.field]; rfl⟩
      · rw [if_neg hf] at h2
        exact ⟨_, _, by simp only [act, stageOf, h2, Option.bind_some, id, call, withPrime_spec hk.field]; rfl⟩
  | 4, _ =>
    obtain ⟨q, hq, hk⟩ := hi.known (by omega)
    obtain ⟨a, b, e1, e2, -⟩ := hk.ab (by omega)
    exact ⟨_, _, by simp only [act, stageOf, (table_common c h).2.1, Option.bind_some, id, call, Whole.call, hk.field, e1, e2, Option.map_some]; rfl⟩
  | 5, _ =>
    obtain ⟨q, hq, hk⟩ := hi.known (by omega)
    obtain ⟨a, b, -, -, -, -, hc⟩ := hk.ab (by omega)
    obtain ⟨e5, -⟩ := hc.crv (by omega)
    rcases table c h with ⟨h1, -, -, -, h2, -⟩ | ⟨h1, -, -, -, h2⟩ | ⟨h1, -, -, -, h2⟩
    · exact ⟨_, _, by simp only [act, stageOf, h2, Option.bind_some, id, call, withPrime_spec hk.field, e5, Option.map_some]; rfl⟩
    · exact ⟨_, _, by simp only [act, stageOf, h2, Option.bind_some, id, call, withPrime_spec hk.field, e5, Option.map_some]; rfl⟩
    · obtain ⟨k, z1, -⟩ := hk.prime.family h1
      exact ⟨_, _, by simp only [act, stageOf, h2, Option.bind_some, id, call, z1, e5, Option.map_some]; rfl⟩
  | 6, _ =>
    obtain ⟨q, hq, hk⟩ := hi.known (by omega)
    obtain ⟨a, b, -, -, -, -, hc⟩ := hk.ab (by omega)
    obtain ⟨e5, -⟩ := hc.crv (by omega)
    obtain ⟨e6, -⟩ := hc.order (by omega)
    have ht := (table_common c h).2.2.1
    cases hu : (view c).unique with
    | true =>
      rw [hu, if_pos rfl] at ht
      exact ⟨_, _, by simp only [act, stageOf, ht, Option.bind_some, id, call, Whole.call, e5, e6, gensStage, Option.map_some]; rfl⟩
    | false =>
      rw [hu, if_neg (by decide)] at ht
      exact ⟨_, _, by simp only [act, stageOf, ht, Option.bind_some, id, call, Whole.call, e5, e6, gensStage, Option.map_some]; rfl⟩
  | 7, _ =>
    obtain ⟨q, hq, hk⟩ := hi.known (by omega)
    obtain ⟨a, b, -, -, -, -, hc⟩ := hk.ab (by omega)
    obtain ⟨e5, hd⟩ := hc.crv (by omega)
    obtain ⟨e6, hn, -⟩ := hc.order (by omega)
    obtain ⟨l, e7, hg, -⟩ := hc.gens (by omega)
    have htab := (table_common c h).2.2.2.1
    have harg := (table_common c h).2.2.2.2.1
    have hcall : call P c (T i) ((ainit c).points) x (pointsChoice c) =
        (Whole.call P.toPari c.bits (T i).toPick (ainit c).points x.cur (pointsChoice c)).map fun r => ({ x with cur := r.1 }, r.2) := by
      unfold pointsChoice
      cases c.pointsType with
      | random => simp only; split <;> rfl
      | _ => rfl
    suffices ∃ y d, Whole.call P.toPari c.bits (T i).toPick (ainit c).points x.cur (pointsChoice c) = some (y, d) by
      obtain ⟨y, d, hy⟩ := this
      exact ⟨_, _, by simp only [act, stageOf, htab, harg, Option.bind_some, id, hcall, hy, Option.map_some]; rfl⟩
    by_cases hnone : c.pointsType = .none
    · have : pointsChoice c = .skip := by simp only [pointsChoice, hnone]
      exact ⟨_, _, by rw [this]; rfl⟩
    rw [call_points _ _ _ _ _ _ hnone]
    obtain ⟨r, hr⟩ := points_some hP h i (hT.picks i) hf q hq a b hk.prime.drawn hd hn _ hg hnone
    exact ⟨{ x.cur with gens := some ⟨obj q hq a b, r⟩ }, 1, by simp only [call.withPoints, e7, e5, if_true, hr, Option.map_some]⟩
  | 8, _ =>
    have htab := (table_common c h).2.2.2.2.2
    cases hm : c.metadata <;> rw [hm] at htab <;>
      exact ⟨_, _, by simp only [act, stageOf, htab, Bool.false_eq_true, if_false, if_true, Option.bind_some, id, call, Whole.call, Option.map_some]; rfl⟩

/-- the curve stage leaves a curve object to its check -/
def Ready (s : Nat) (x : St) : Prop := s = 4 → x.cur.crv.isSome

theorem act_ready (h : Covered c) (i s : Nat) (x : St) (hi : Inv P c T s x) (x' : St) (d : Int) (ha : act P c (T i) s x = some (x', d)) : Ready s x' := by
  rintro rfl
  obtain ⟨q, hq, hk⟩ := hi.known (by omega)
  obtain ⟨a, b, e1, e2, -⟩ := hk.ab (by omega)
  simp only [act, stageOf, (table_common c h).2.1, Option.bind_some, id, call, Whole.call, hk.field, e1, e2, Option.map_some, Option.some.injEq,
    Prod.mk.injEq] at ha
  obtain ⟨rfl, -⟩ := ha
  rfl

/-- a check whose members are set does nothing undefined -/
theorem check_defined (h : Covered c) (s : Nat) (w : W) (hr : Ready s w.st) (k : Check) (hk : k ∈ checksOf c s) : (check w k).1.ub = w.ub := by
  by_cases hne : k = .hexParam
  · subst hne; rfl
  have : ∃ d, verdict w.st k = some d := by
    rw [table_checks c h] at hk
    split at hk
    · rw [List.mem_singleton] at hk
      subst hk
      obtain ⟨E, hE⟩ := Option.isSome_iff_exists.1 (hr (by assumption))
      exact ⟨_, by simp only [verdict, hE, Option.map_some]; rfl⟩
    · split at hk
      · rw [List.mem_singleton] at hk
        exact absurd hk hne
      · cases hk
  obtain ⟨d, hd⟩ := this
  cases k with
  | hexParam => exact absurd rfl hne
  | _ => simp only [check, hd]

open Engine Engine.Spec

theorem passes_defined (h : Covered c) (s : Nat) : ∀ (l : List Check), (∀ k ∈ l, k ∈ checksOf c s) → ∀ (w w' : W), Ready s w.st →
    Passes (l.map fun k w => check w k) w w' → w'.ub = w.ub := by
  intro l
  induction l with
  | nil => intro _ w w' _ h; cases h; rfl
  | cons k l ih =>
    intro hl w w' hr hp
    rw [List.map_cons] at hp
    cases hp with
    | cons h1 h2 =>
      rw [ih (fun k hk => hl k (List.mem_cons_of_mem _ hk)) _ _ (by rw [(check_spec w k).1]; exact hr) h2, check_defined h s w hr k (hl k List.mem_cons_self)]

theorem rejects_defined (h : Covered c) (s : Nat) : ∀ (l : List Check), (∀ k ∈ l, k ∈ checksOf c s) → ∀ (w : W) (d : Int) (w' : W),
    Ready s w.st → Rejects (l.map fun k w => check w k) w d w' → w'.ub = w.ub := by
  intro l
  induction l with
  | nil => intro _ w d w' _ h; cases h
  | cons k l ih =>
    intro hl w d w' hr hp
    rw [List.map_cons] at hp
    have h0 := check_defined h s w hr k (hl k List.mem_cons_self)
    cases hp with
    | here h1 => exact h0
    | later h1 h2 => rw [ih (fun k hk => hl k (List.mem_cons_of_mem _ hk)) _ _ _ (by rw [(check_spec w k).1]; exact hr) h2, h0]

theorem gen_defined (hP : P.toPari.Ok) (h : Covered c) (hT : TapeOk P c T) (hC : Cited P c T) (hR : Rooted P c T) (hf : PointsFine P c T) {w : W} (hb : Behaves T w)
    (s : Nat) (hs : s < 9) (w1 : W) (r : GenRes) (hi : Inv P c T s w.st) (hg : (setup P c).gen s w = (w1, r)) :
    w1.ub = w.ub ∧ ∀ d, 0 < d → r = .ret d → Ready s w1.st := by
  obtain ⟨x', d, ha⟩ := act_defined hP h hT hC hR hf w.pos s hs _ hi
  rw [← pick_eq hb] at ha
  change gen P c (tables c) s w = _ at hg
  unfold gen at hg
  cases h1 : w.pick.cut with
  | some x => rw [h1] at hg; cases hg; exact ⟨rfl, fun _ _ h => by cases h⟩
  | none =>
    rw [h1] at hg
    cases h2 : w.pick.fail s with
    | some d =>
      simp only [h2] at hg; cases hg
      refine ⟨rfl, fun d' h3 h4 => ?_⟩
      cases h4
      have := (failures_spec s d ((pick_ok hT hb).fail s d h2)).1
      omega
    | none =>
      simp only [h2] at hg
      change done w (act P c w.pick s w.st) = _ at hg
      rw [ha] at hg
      cases hg
      refine ⟨rfl, fun d' h3 h4 => ?_⟩
      rw [pick_eq hb] at ha
      exact act_ready h w.pos s _ hi _ _ ha

theorem succeeds_defined (hP : P.toPari.Ok) (h : Covered c) (hT : TapeOk P c T) (hC : Cited P c T) (hR : Rooted P c T) (hf : PointsFine P c T) (s : Nat) (w : W)
    (hb : Behaves T w) (d : Int) (w' : W) (hs : s < 9) (hi : Inv P c T s w.st) (hsucc : Succeeds (setup P c) s w d w') : w'.ub = w.ub := by
  obtain ⟨w1, h1, h2, h3⟩ := hsucc
  obtain ⟨h4, h5⟩ := gen_defined hP h hT hC hR hf hb s hs w1 _ hi h1
  rw [← h4]
  exact passes_defined h s _ (fun _ hk => hk) _ _ (h5 d h2 rfl) h3

theorem fails_defined (hP : P.toPari.Ok) (h : Covered c) (hT : TapeOk P c T) (hC : Cited P c T) (hR : Rooted P c T) (hf : PointsFine P c T) (s : Nat) (w : W)
    (hb : Behaves T w) (d : Int) (w' : W) (hs : s < 9) (hi : Inv P c T s w.st) (hfail : Fails (setup P c) 0 s w d w') : w'.ub = w.ub := by
  rcases hfail with ⟨h1, rfl⟩ | ⟨h1, h2⟩ | ⟨w1, g, h1, h2, h3⟩
  · exact (gen_defined hP h hT hC hR hf hb s hs w' _ hi h1).1
  · exact (gen_defined hP h hT hC hR hf hb s hs w' _ hi h1).1
  · obtain ⟨h4, h5⟩ := gen_defined hP h hT hC hR hf hb s hs w1 _ hi h1
    rw [← h4]
    exact rejects_defined h s _ (fun _ hk => hk) _ _ _ (h5 g h2 rfl) h3

theorem cleaned_ub (P : Pari) (c : Config) (lo : Nat) : ∀ (hi : Nat) (w : W), (cleaned (setup P c) lo hi w).ub = w.ub := by
  intro hi
  induction hi with
  | zero => intro w; rfl
  | succ i ih =>
    intro w
    unfold cleaned
    split
    · rw [ih]; rfl
    · rfl

/-- what holds at the beginning of a stage -/
def Safe (P : Pari) (c : Config) (T : Nat → Pick) (s : Nat) (v : W) : Prop := (s ≤ 9 ∧ Inv P c T s v.st ∧ Behaves T v) ∧ v.ub = false

/-- no stage of the search does anything undefined -/
theorem search_defined (P : Pari) (hP : P.toPari.Ok) (c : Config) (h : Covered c) (w : W) (hT : TapeOk P c w.tape) (hC : Cited P c w.tape)
    (hR : Rooted P c w.tape) (hf : PointsFine P c w.tape) (hu : w.ub = false) (st : Engine.St W)
    (hr : Reaches (setup P c) 0 9 0 (Engine.init 0 (fresh w)) st) (hs : st.state < 9)
    (st' : Engine.St W) (hst : Engine.step (setup P c) 0 0 st = .inl st' ∨ Engine.step (setup P c) 0 0 st = .inr st') : st'.w.ub = false := by
  have hfail : ∀ s v d v', 0 ≤ s → s < 9 → Safe P c w.tape s v → Fails (setup P c) 0 s v d v' → v'.ub = false := by
    rintro s v d v' - hs ⟨⟨-, hi, hb⟩, hu⟩ hf'
    rw [← hu]
    exact fails_defined hP h hT hC hR hf s v hb d v' hs hi hf'
  have hok : ∀ s v d v', 0 ≤ s → s < 9 → Safe P c w.tape s v → Succeeds (setup P c) s v d v' → Safe P c w.tape (s + d.toNat) v' := by
    rintro s v d v' - hs ⟨⟨-, hi, hb⟩, hu⟩ hsucc
    obtain ⟨rfl, h1, h2⟩ := keep_ok P hP c h hT hC s v d v' hs hi hb hsucc
    refine ⟨⟨by simp only [Int.toNat_one]; omega, h1, h2⟩, ?_⟩
    rw [← hu]
    exact succeeds_defined hP h hT hC hR hf s v hb 1 v' hs hi hsucc
  have hback : ∀ s v d v', 0 ≤ s → s < 9 → Safe P c w.tape s v → Fails (setup P c) 0 s v d v' → 0 ≤ (s : Int) + d →
      Safe P c w.tape (max ((s : Int) + d).toNat 0) (cleaned (setup P c) (max ((s : Int) + d).toNat 0) s v') := by
    intro s v d v' h00 hs hv hf' h0
    have hu' := hfail s v d v' h00 hs hv hf'
    obtain ⟨⟨-, hi, hb⟩, hu⟩ := hv
    obtain ⟨h1, h2⟩ := keep_fail P hP c h hT hC s v d v' hs hi hb hf'
    obtain ⟨k, hk, e, h3⟩ := h2 h0
    have e' : max ((s : Int) + d).toNat 0 = k := by omega
    rw [e']
    exact ⟨⟨by omega, cleaned_inv hk h3, (cleaned_keeps P c k s v').2.2.2.2.trans h1⟩, by rw [cleaned_ub]; exact hu'⟩
  have hstart : Safe P c w.tape 0 (fresh w) :=
    ⟨⟨Nat.zero_le _, inv_low (by omega) (fun _ => rfl) (fun _ => rfl) (fun h => by omega), rfl⟩, hu⟩
  obtain ⟨-, h1⟩ := Engine.reaches_inv (setup P c) 0 9 0 (Safe P c w.tape) hok hback _ st (Nat.zero_le _)
    hstart hr
  obtain ⟨h2, h3⟩ := Engine.step_inv (setup P c) 0 9 0 (Safe P c w.tape) (fun v => v.ub = false) hok hback hfail st (Nat.zero_le _) hs h1
  rcases hst with hst | hst
  · exact (h2 st' hst).2.2
  · exact h3 st' hst

/-- **C84** anomalous: whatever happens, no stage of the search for a curve does anything undefined: no member of the curve is read before it is set, the
factor of the coefficients is not a null pointer, nothing is divided by zero, all lists of points can be made. This holds after every call of a generator
and its checks, in searches that succeed, fail or never end. -/
theorem anomalous_search_defined (P : Pari) (hP : P.toPari.Ok) (n : Int) (os : List Opt) (c : Config) (h : commandLine n os = some c)
    (ha : c.method = METHOD_ANOMALOUS) (w : W) (hT : TapeOk P c w.tape) (hG : Gross P c w.tape) (hu : w.ub = false) (st : Engine.St W)
    (hr : Reaches (setup P c) 0 9 0 (Engine.init 0 (fresh w)) st) (hs : st.state < 9)
    (st' : Engine.St W) (hst : Engine.step (setup P c) 0 0 st = .inl st' ∨ Engine.step (setup P c) 0 0 st = .inr st') : st'.w.ub = false :=
  search_defined P hP c (covered n os c h (Or.inl ha)) w hT ⟨fun _ => hG, fun h => absurd (ha ▸ h) (by decide)⟩ (fun h => absurd (ha ▸ h) (by decide))
    (Or.inl ha) hu st hr hs st' hst

/-- **C84** supersingular: the same; the class polynomial has a root, and the root is not 1728. All subgroups are listed only for orders with fewer than 63
prime factors (C28). -/
theorem supersingular_search_defined_partial (P : Pari) (hP : P.toPari.Ok) (n : Int) (os : List Opt) (c : Config) (h : commandLine n os = some c)
    (ha : c.method = METHOD_SUPERSINGULAR) (w : W) (hT : TapeOk P c w.tape) (hD : Deuring P c w.tape) (hR : Rooted P c w.tape) (hf : PointsFine P c w.tape)
    (hu : w.ub = false) (st : Engine.St W)
    (hr : Reaches (setup P c) 0 9 0 (Engine.init 0 (fresh w)) st) (hs : st.state < 9)
    (st' : Engine.St W) (hst : Engine.step (setup P c) 0 0 st = .inl st' ∨ Engine.step (setup P c) 0 0 st = .inr st') : st'.w.ub = false :=
  search_defined P hP c (covered n os c h (Or.inr (Or.inl ha))) w hT ⟨fun h => absurd (ha ▸ h) (by decide), fun _ => hD⟩ hR hf hu st hr hs st' hst

/-- **C84** families: the same -/
theorem family_search_defined_partial (P : Pari) (hP : P.toPari.Ok) (n : Int) (os : List Opt) (c : Config) (h : commandLine n os = some c)
    (ha : c.method = METHOD_FAMILY) (w : W) (hT : TapeOk P c w.tape) (hf : PointsFine P c w.tape) (hu : w.ub = false) (st : Engine.St W)
    (hr : Reaches (setup P c) 0 9 0 (Engine.init 0 (fresh w)) st) (hs : st.state < 9)
    (st' : Engine.St W) (hst : Engine.step (setup P c) 0 0 st = .inl st' ∨ Engine.step (setup P c) 0 0 st = .inr st') : st'.w.ub = false :=
  search_defined P hP c (covered n os c h (Or.inr (Or.inr ha))) w hT ⟨fun h => absurd (ha ▸ h) (by decide), fun h => absurd (ha ▸ h) (by decide)⟩
    (fun h => absurd (ha ▸ h) (by decide)) hf hu st hr hs st' hst

/-! ## Printing -/

/-- a complete curve can be printed -/
theorem printed_defined (x : St) (hi : Inv P c T 9 x) (hq : c.pointsType = .random → c.pointsAmount ≠ 0) : ∃ v, outCurve x.cur = some v := by
  obtain ⟨q, hq', hk⟩ := hi.known (by omega)
  obtain ⟨a, b, ha, hb, -, -, hab⟩ := hk.ab (by omega)
  obtain ⟨ho, -⟩ := hab.order (by omega)
  obtain ⟨l, hl, hgk, -, hps⟩ := hab.gens (by omega)
  have hne : ∀ g ∈ l, g.gen.point ≠ 0 := fun g hg => hgk.nonzero (Or.inr (Or.inl rfl)) g.gen (List.mem_map_of_mem hg)
  have hp := hps (by omega) hne
  have hp' := hp
  have : ∃ gs, allSome (l.map (outSub (obj q hq' a b))) = some gs := by
    refine allSome_some _ _ fun s hs => ?_
    obtain ⟨g, hg⟩ := outPoint_some (obj q hq' a b) (some s.gen.cofactor) s.gen (hne s hs)
    obtain ⟨ps, hps, hps1, hps2⟩ := hp.listed s hs
    have hgt : ∀ p ∈ ps, p.point ≠ 0 := by
      intro p hp h0
      have h5 := (hps1 p hp).1
      rw [h0, addOrderOf_zero] at h5
      have h6 : p.order ∈ ps.map Group.Pt.order := List.mem_map_of_mem hp
      cases ht : c.pointsType with
      | random => exact hp'.finite ht (hq ht) s hs p (hps ▸ List.mem_map_of_mem hp) h0
      | none => exact ((hps2 (fun _ => False) (by simp only [pointOrders, ht])).2 _).1 h6
      | prime =>
        have := ((hps2 _ (by simp only [pointOrders, ht]; rfl)).2 p.order).1 h6
        exact absurd this.1 (h5 ▸ Nat.not_prime_one)
      | all =>
        have := ((hps2 _ (by simp only [pointOrders, ht]; rfl)).2 p.order).1 h6
        exact absurd this.1 (h5 ▸ Nat.lt_irrefl 1)
      | nonprime =>
        have := ((hps2 _ (by simp only [pointOrders, ht]; rfl)).2 p.order).1 h6
        exact absurd this.1 (h5 ▸ Nat.lt_irrefl 1)
    obtain ⟨r, hr⟩ := allSome_some (outPoint (obj q hq' a b) none) ps fun p hp => outPoint_some _ none p (hgt p hp)
    refine ⟨⟨g, r⟩, ?_⟩
    simp only [outSub, hg, Option.bind_some, hps, List.map_map]
    have : ((fun p : Option (Group.Pt (obj q hq' a b).Pt) => p.bind (outPoint (obj q hq' a b) none)) ∘ some) = outPoint (obj q hq' a b) none := rfl
    rw [this, hr]
    rfl
  obtain ⟨gs, hgs⟩ := this
  exact ⟨_, by simp only [outCurve, hk.field, ha, hb, ho, hl, hgs, Option.map_some]; rfl⟩

/-- **C84** a search that succeeds gives a curve to print, but for a random point whose number is not given -/
theorem found_is_printed_partial (P : Pari) (hP : P.toPari.Ok) (n : Int) (os : List Opt) (c : Config) (h : commandLine n os = some c)
    (hm : c.method = METHOD_ANOMALOUS ∨ c.method = METHOD_SUPERSINGULAR ∨ c.method = METHOD_FAMILY) (hq : c.pointsType = .random → c.pointsAmount ≠ 0) (fuel : Nat) (w : W)
    (hT : TapeOk P c w.tape) (hG : c.method = METHOD_ANOMALOUS → Gross P c w.tape) (hD : c.method = METHOD_SUPERSINGULAR → Deuring P c w.tape)
    (r : Int) (st : Engine.St W) (hg : Engine.gen (setup P c) 0 9 fuel (fresh w) = some (r, st)) : r = 0 ∨ ∃ v, one P c fuel w = (some v, st.w) := by
  obtain ⟨-, ⟨rfl, h2⟩ | h2⟩ := search P hP c (covered n os c h hm) hT ⟨hG, hD⟩ fuel (fresh w) rfl
    (inv_low (by omega) (fun _ => rfl) (fun _ => rfl) (fun h => by omega)) r st hg
  · obtain ⟨v, hv⟩ := printed_defined _ h2 hq
    refine Or.inr ⟨v, ?_⟩
    simp only [one, hg, hv]
    rw [if_neg (by decide)]
  · exact Or.inl h2

end Ecgen.Special
