import Verif.Whole.Bound

/-!
# Runs without undefined behaviour (C76)
-/

namespace Ecgen.Whole

open Output Output.Spec Cli

/-- the number derived from a seed of `--ansi` has an inverse in the prime fields that may come up; where it has none, `Fp_invsafe` returns a null pointer
that is used, ansi.c:126-136 -/
def Invertible (c : Config) (T : Nat → Pick) : Prop :=
  c.seedAlgo = .ansi → ∀ j f p, ComesField T f → f.1 = .prime p → ¬ p ∣ Bits.ofBits (Ansi.Spec.expandFp (T j).seed.val c.bits)

/-- a call of `ansi_gen_equation` meets the null pointer if and only if the number derived from the seed has no inverse -/
theorem ansi_crash_iff (bits : Nat) (h1 : 1 ≤ bits) (f : Fld) (s : Bits.Bits) (hs : AnsiSeed s) (d : Derived) (h : AnsiCall bits f s d) :
    d = .crash ↔ ∃ p, f.1 = .prime p ∧ p ∣ Bits.ofBits (Ansi.Spec.expandFp s.val bits) := by
  have hg := (ansi_seed_good hs).1
  obtain ⟨junk, sd, hsd, h⟩ := h
  obtain ⟨fv, hgood⟩ := f
  cases fv with
  | prime p =>
    obtain ⟨F, draws, fuel, hF, hd, h⟩ := h
    have key := Ansi.crash_iff_dvd junk p F hF draws fuel s hg bits h1 sd hsd
    split at h
    · rename_i hn
      exact ⟨fun _ => ⟨p, rfl, key.1 hn⟩, fun _ => h⟩
    · exact h.elim
    · rename_i hn
      subst h
      refine ⟨fun h => (nomatch h), fun ⟨q, e, hq⟩ => ?_⟩
      cases e
      rw [key.2 hq] at hn
      cases hn
  | binary m e1 e2 e3 =>
    obtain ⟨a, -, -, h⟩ := h
    rw [Ansi.equation_f2m junk a s hg bits h1 sd hsd] at h
    refine ⟨fun e => ?_, fun ⟨q, e, _⟩ => (nomatch e)⟩
    subst e
    by_cases h0 : Bits.ofBits (Ansi.Spec.expandF2m s.val bits) = 0
    · rw [if_pos h0] at h; cases h
    · rw [if_neg h0] at h; cases h

/-- the points asked for can be computed: there are none, or the default, or random ones while there is a generator to take multiples of, or those of all
subgroups, while the generators are not at infinity (C31) and the orders have fewer than 63 prime factors (C28, C29) -/
def PointsFine (c : Config) (T : Nat → Pick) : Prop :=
  c.pointsType = .none ∨ c.pointsType = .prime ∨
  (c.pointsType = .random ∧ ∀ E : Crv, ComesField T E.field → ComesA c T E.field E.a → ComesB c T E.field E.b → E.eqn.Δ ≠ 0 → Nat.card E.Pt ≠ 1) ∨
  (∀ E : Crv, ComesField T E.field → ComesA c T E.field E.a → ComesB c T E.field E.b → E.eqn.Δ ≠ 0 →
    Clear c (Nat.card E.Pt) ∧ c.pointsType ≠ .random ∧ (Nat.card E.Pt).primeFactorsList.length < 63)

theorem two_pow_le : ∀ l : List Nat, (∀ x ∈ l, 2 ≤ x) → 2 ^ l.length ≤ l.prod := by
  intro l
  induction l with
  | nil => intro _; exact Nat.le_refl 1
  | cons a l ih =>
    intro h
    rw [List.length_cons, List.prod_cons, Nat.pow_succ, Nat.mul_comm]
    exact Nat.mul_le_mul (h a List.mem_cons_self) (ih fun x hx => h x (List.mem_cons_of_mem _ hx))

/-- a number below `2^63` has fewer than 63 prime factors -/
theorem few_factors_63 {n : Nat} (h0 : 0 < n) (h : n < 2 ^ 63) : n.primeFactorsList.length < 63 := by
  have h1 := two_pow_le n.primeFactorsList fun x hx => (Nat.prime_of_mem_primeFactorsList hx).two_le
  rw [Nat.prod_primeFactorsList (by omega)] at h1
  by_contra h2
  have h3 : 2 ^ 63 ≤ 2 ^ n.primeFactorsList.length := Nat.pow_le_pow_right (by omega) (by omega)
  omega

theorem mapM_of {α β : Type} (f : α → Option β) : ∀ l : List α, (∀ x ∈ l, ∃ y, f x = some y) → ∃ r, l.mapM f = some r := by
  intro l
  induction l with
  | nil => intro _; exact ⟨[], rfl⟩
  | cons a l ih =>
    intro h
    obtain ⟨y, hy⟩ := h a List.mem_cons_self
    obtain ⟨r, hr⟩ := ih fun x hx => h x (List.mem_cons_of_mem _ hx)
    exact ⟨y :: r, by rw [List.mapM_cons, hy, hr]; rfl⟩

/-- the subgroups of generators that are not at infinity, with few prime factors -/
theorem subgroups_some (P : Pari) (hP : P.Ok) (p : Pick) (arg : Option Arg) (E : Crv) (l : List (Group.Pt E.Pt)) (hord : ∀ g ∈ l, g.order = addOrderOf g.point) (hnz : ∀ g ∈ l, g.point ≠ 0)
    (h63 : (Nat.card E.Pt).primeFactorsList.length < 63) :
    (∃ r, pointsStage P p E l arg .pointsAll = some r) ∧ ∃ r, pointsStage P p E l arg .pointsNonprime = some r := by
  have h2 : ∀ g ∈ l, 2 ≤ g.order := by
    intro g hg
    have h0 := hnz g hg
    have h1 : addOrderOf g.point ≠ 1 := fun e => h0 (AddMonoid.addOrderOf_eq_one_iff.1 e)
    have h3 : 0 < addOrderOf g.point := addOrderOf_pos _
    rw [hord g hg]
    omega
  have h3 : ∀ g ∈ l, g.order.primeFactorsList.length < 63 := by
    intro g hg
    have hdvd : g.order ∣ Nat.card E.Pt := by rw [hord g hg]; exact addOrderOf_dvd_natCard _
    have hle := (Nat.primeFactorsList_sublist_of_dvd hdvd Nat.card_pos.ne').length_le
    omega
  constructor
  · refine mapM_of _ _ fun g hg => ?_
    obtain ⟨r, hr, -⟩ := Subgroup.all_spec_partial P.isprime hP.isprime P.fac hP.fac g.order (h2 g hg) (h3 g hg)
    exact ⟨_, by simp only [Group.pointsAll1, hr, Option.bind_some, Option.map_some]; rfl⟩
  · refine mapM_of _ _ fun g hg => ?_
    rcases Subgroup.nonprime_spec_partial P.isprime hP.isprime P.fac hP.fac g.order (by have := h2 g hg; omega) (h3 g hg) with ⟨hr, -⟩ | ⟨r, hr, -⟩ <;>
      exact ⟨_, by simp only [Group.pointsNonprime1, hr, Option.map_some]; rfl⟩

/-- the numbers derived from the seeds have inverses and the points asked for can be computed -/
def StagesFine (c : Config) (T : Nat → Pick) : Prop := Invertible c T ∧ PointsFine c T

theorem stages_fine_none {c : Config} {T : Nat → Pick} (h : c.seedAlgo = .none) (hq : PointsFine c T) : StagesFine c T :=
  ⟨fun h' => (by rw [h] at h'; cases h'), hq⟩

/-- all subgroups of curves of up to 61 bits can be listed -/
theorem points_fine {c : Config} {T : Nat → Pick} (hT : TapeOk c T)
    (hu : c.unique = true ∨ c.cofactor = false ∨ toSize c.cofactorValue = 1 ∨ (toSize c.cofactorValue).Prime) (hr : c.pointsType ≠ .random)
    (hb : c.bits ≤ 61) : PointsFine c T := by
  refine Or.inr (Or.inr (Or.inr fun E hf _ _ _ => ⟨clear_of Nat.card_pos (by tauto), hr, few_factors_63 Nat.card_pos ?_⟩))
  have h1 : fieldSize E.field.1 ≤ 2 ^ c.bits := by
    obtain ⟨i, e | e⟩ := hf
    · rw [e]; exact size_asked (hT.picks i).randomField
    · rw [e]; exact size_asked (c := { c with random := 0 }) (hT.picks i).typedField
  have h2 := order_le E.field E.eqn
  have h3 : 2 ^ c.bits ≤ 2 ^ 61 := Nat.pow_le_pow_right (by omega) hb
  change Nat.card E.eqn.Point < _
  omega

/-- where there are points, there is a generator -/
theorem gens_ne {c : Config} {T : Nat → Pick} {x : Cur} (hi : Inv c T 7 x) (hE : ∀ E : Crv, x.crv = some E → Nat.card E.Pt ≠ 1)
    {E : Crv} {l : List (Group.Sub E.Pt)} (hg : x.gens = some ⟨E, l⟩) : l ≠ [] := by
  obtain ⟨f, a, b, h1, h2, h3, h4, h5⟩ := hi.crv (by omega)
  obtain ⟨E', l', h6, h7, h8, -⟩ := hi.gens (by omega)
  rw [hg] at h7
  cases h7
  rw [h4] at h6
  cases h6
  have hne := hE _ h4
  rintro rfl
  by_cases hu : c.unique = true ∨ c.cofactor = false
  · have := h8.all hu
    simp only [List.map_nil, List.not_mem_nil, Set.ofPred_false, AddSubgroup.closure_empty] at this
    apply hne
    rw [Nat.card_eq_one_iff_unique]
    refine ⟨⟨fun P Q => ?_⟩, ⟨0⟩⟩
    have hP : P ∈ (⊥ : AddSubgroup (Crv.mk f a b).Pt) := this ▸ AddSubgroup.mem_top P
    have hQ : Q ∈ (⊥ : AddSubgroup (Crv.mk f a b).Pt) := this ▸ AddSubgroup.mem_top Q
    rw [AddSubgroup.mem_bot] at hP hQ
    rw [hP, hQ]
  · have hu1 : c.unique = false := by cases h : c.unique <;> simp_all
    have hu2 : c.cofactor = true := by cases h : c.cofactor <;> simp_all
    obtain ⟨g, l', h9, -⟩ := h8.first hu1 hu2
    cases h9

/-- the generator of every stage finds what it reads: the members of the curve that are set by earlier stages, on the curve object at hand, and its
argument -/
theorem act_defined (P : Pari) (c : Config) (h : Covered c) (T : Nat → Pick) (p : Pick) (hp : p.Ok c) (s : Nat) (hs : s < 9) (x : Cur)
    (hq : c.pointsType = .none ∨ c.pointsType = .prime ∨ (c.pointsType = .random ∧ ∀ E : Crv, 5 ≤ s → x.crv = some E → Nat.card E.Pt ≠ 1) ∨
      ((s = 7 → P.Ok) ∧ ∀ E : Crv, 5 ≤ s → x.crv = some E →
        Clear c (Nat.card E.Pt) ∧ c.pointsType ≠ .random ∧ (Nat.card E.Pt).primeFactorsList.length < 63))
    (hcr : s = 3 → c.seedAlgo = .ansi → ∀ f b, x.field = some f → x.seed = some b → p.ansi f b ≠ .crash)
    (hi : Inv c T s x) : ∃ x' d, act P c p s x = some (x', d) := by
  match s, hs with
  | 0, _ =>
    rcases table_seed c h with ⟨-, h2⟩ | ⟨-, g, h2, rfl | rfl | rfl⟩ <;>
      exact ⟨_, _, by simp only [act, stageOf, h2, Option.bind_some, id, call]; rfl⟩
  | 1, _ =>
    have h2 := table_field c h
    cases hr : has c.random RANDOM_FIELD <;> rw [hr] at h2 <;>
      exact ⟨_, _, by simp only [act, stageOf, h2, Bool.false_eq_true, if_false, if_true, Option.bind_some, id, call]; rfl⟩
  | 2, _ =>
    obtain ⟨f, hf, -⟩ := hi.field (by omega)
    rcases table_a c h with ⟨-, -, ⟨-, h2⟩ | ⟨-, h2⟩⟩ | ⟨-, -, h2 | h2⟩ | ⟨-, h2⟩ <;>
      exact ⟨_, _, by simp only [act, stageOf, h2, Option.bind_some, id, call, hf, Option.map_some]; rfl⟩
  | 3, _ =>
    obtain ⟨f, hf, -⟩ := hi.field (by omega)
    rcases table_b c h with ⟨-, -, h2⟩ | ⟨-, -, h2 | h2⟩ | ⟨hans, h2⟩
    · exact ⟨_, _, by simp only [act, stageOf, h2, Option.bind_some, id, call]; rfl⟩
    · exact ⟨_, _, by simp only [act, stageOf, h2, Option.bind_some, id, call, hf, Option.map_some]; rfl⟩
    · exact ⟨_, _, by simp only [act, stageOf, h2, Option.bind_some, id, call, hf, Option.map_some]; rfl⟩
    · obtain ⟨sd, hsd⟩ := Option.isSome_iff_exists.1 ((hi.seed (by omega)).1 (by rw [hans]; decide))
      have hne := hcr rfl hans f sd hf hsd
      simp only [act, stageOf, h2, Option.bind_some, id, call, hf, hsd]
      cases hd : p.ansi f sd with
      | crash => exact absurd hd hne
      | again => exact ⟨_, _, rfl⟩
      | coeffs a b => exact ⟨_, _, rfl⟩
  | 4, _ =>
    obtain ⟨f, a, b, h1, h2, h3, -, -⟩ := hi.ab (by omega)
    exact ⟨_, _, by simp only [act, stageOf, table_curve c h, Option.bind_some, id, call, h1, h2, h3]; rfl⟩
  | 5, _ =>
    obtain ⟨f, a, b, h1, h2, h3, h4, h5⟩ := hi.crv (by omega)
    obtain ⟨-, c2, -⟩ := comes hi (by omega) h1 h2 h3
    obtain ⟨o1, o2, o3⟩ := h.one
    obtain ⟨a1, a2, -, -⟩ := orderArg c
    have harg : (exhaustiveSetup c).genArgs.order = (ainit c).order := rfl
    rcases table_order c h with ⟨t1, t4⟩ | ⟨t1, t2, t4⟩ | ⟨t1, t2, t3, t4⟩ | ⟨t1, t2, t3, ⟨t5, t6, t4⟩ | t4⟩
    · exact ⟨_, _, by simp only [act, stageOf, t4, Option.bind_some, id, call, h4, orderStage]; rfl⟩
    · have hs : c.smooth = false := by
        cases hs : c.smooth
        · rfl
        · exact absurd ⟨hs, t2⟩ o3
      exact ⟨_, _, by simp only [act, stageOf, t4, Option.bind_some, id, call, h4, orderStage, harg, a2 hs t2, Option.map_some]; rfl⟩
    · exact ⟨_, _, by simp only [act, stageOf, t4, Option.bind_some, id, call, h4, orderStage, harg, a1 t3, Option.map_some]; rfl⟩
    · rw [ComesA, if_pos ⟨t5, t6⟩] at c2
      subst c2
      exact ⟨_, _, by simp only [act, stageOf, t4, Option.bind_some, id, call, h4, orderStage, h2]; rfl⟩
    · exact ⟨_, _, by simp only [act, stageOf, t4, Option.bind_some, id, call, h4, orderStage]; rfl⟩
  | 6, _ =>
    obtain ⟨E, h4, h5, -⟩ := hi.order (by omega)
    have harg : (exhaustiveSetup c).genArgs.gens = (ainit c).gens := rfl
    rcases table_gens c h with ⟨t1, t4⟩ | ⟨t1, t2, t4⟩ | ⟨t1, t2, t4⟩
    · exact ⟨_, _, by simp only [act, stageOf, t4, Option.bind_some, id, call, h4, h5, gensStage]; rfl⟩
    · exact ⟨_, _, by simp only [act, stageOf, t4, Option.bind_some, id, call, h4, h5, gensStage, harg, (orderArg c).2.2.1 t2, Option.map_some]; rfl⟩
    · exact ⟨_, _, by simp only [act, stageOf, t4, Option.bind_some, id, call, h4, h5, gensStage]; rfl⟩
  | 7, _ =>
    obtain ⟨E, l, h1, h2, hk, -⟩ := hi.gens (by omega)
    have htab : (exhaustiveSetup c).gens.points = some (pointsChoice c) := rfl
    have hq : c.pointsType = .none ∨ c.pointsType = .prime ∨ (c.pointsType = .random ∧ ∀ E : Crv, x.crv = some E → Nat.card E.Pt ≠ 1) ∨
        (((c.pointsType = .all ∧ pointsChoice c = .pointsAll) ∨ (c.pointsType = .nonprime ∧ pointsChoice c = .pointsNonprime)) ∧
          Clear c (Nat.card E.Pt) ∧ P.Ok ∧ (Nat.card E.Pt).primeFactorsList.length < 63) := by
      rcases hq with hq | hq | ⟨hq, hE⟩ | ⟨hP, hE⟩
      · exact Or.inl hq
      · exact Or.inr (Or.inl hq)
      · exact Or.inr (Or.inr (Or.inl ⟨hq, fun E => hE E (by omega)⟩))
      · obtain ⟨hu, e1, e2⟩ := hE E (by omega) h1
        cases ht : c.pointsType with
        | none => exact Or.inl rfl
        | prime => exact Or.inr (Or.inl rfl)
        | random => exact absurd ht e1
        | all => exact Or.inr (Or.inr (Or.inr ⟨Or.inl ⟨rfl, by simp only [pointsChoice, ht]⟩, hu, hP rfl, e2⟩))
        | nonprime => exact Or.inr (Or.inr (Or.inr ⟨Or.inr ⟨rfl, by simp only [pointsChoice, ht]⟩, hu, hP rfl, e2⟩))
    rcases hq with hq | hq | ⟨hq, hE⟩ | ⟨hc, hu, hP, h63⟩
    · have : pointsChoice c = .skip := by simp only [pointsChoice, hq]
      exact ⟨_, _, by simp only [act, stageOf, htab, this, Option.bind_some, id, call]; rfl⟩
    · have : pointsChoice c = .pointsPrime := by simp only [pointsChoice, hq]
      exact ⟨_, _, by simp only [act, stageOf, htab, this, Option.bind_some, id, call, call.withPoints, h1, h2, if_true, pointsStage, Option.map_some]; rfl⟩
    · have hl : 0 < (l.map Group.Sub.gen).length := by
        rw [List.length_map]
        exact List.length_pos_iff.2 (gens_ne hi hE h2)
      have hw : ∀ k, p.which (l.map Group.Sub.gen).length k < (l.map Group.Sub.gen).length := fun k => hp.which _ k hl
      have harg : (exhaustiveSetup c).genArgs.points = (ainit c).points := rfl
      by_cases ha : c.pointsAmount ≠ 0
      · have : pointsChoice c = .pointsRandom := by simp only [pointsChoice, hq, if_pos ha]
        obtain ⟨counts, e, -⟩ := Group.distribute_spec (p.which (l.map Group.Sub.gen).length) (l.map Group.Sub.gen).length c.pointsAmount
          fun k _ => hw k
        exact ⟨_, _, by simp only [act, stageOf, htab, this, Option.bind_some, id, call, call.withPoints, h1, h2, if_true, pointsStage, harg,
          (orderArg c).2.2.2 hq, argNat, Group.pointsRandom, e, Option.map_some]; rfl⟩
      · have : pointsChoice c = .pointRandom := by simp only [pointsChoice, hq, if_neg ha]
        exact ⟨_, _, by simp only [act, stageOf, htab, this, Option.bind_some, id, call, call.withPoints, h1, h2, if_true, pointsStage,
          Group.pointRandom, hw, Option.map_some]; rfl⟩
    · obtain ⟨⟨r1, e1⟩, r2, e2⟩ := subgroups_some P hP p (exhaustiveSetup c).genArgs.points E (l.map Group.Sub.gen) (fun g hg => hk.order g hg)
        (fun g hg => hk.nonzero hu g hg) h63
      rcases hc with ⟨-, this⟩ | ⟨-, this⟩
      · exact ⟨_, _, by simp only [act, stageOf, htab, this, Option.bind_some, id, call, call.withPoints, h1, h2, if_true, e1, Option.map_some]; rfl⟩
      · exact ⟨_, _, by simp only [act, stageOf, htab, this, Option.bind_some, id, call, call.withPoints, h1, h2, if_true, e2, Option.map_some]; rfl⟩
  | 8, _ =>
    have htab : (exhaustiveSetup c).gens.metadata = some (if c.metadata then .metadata else .skip) := rfl
    cases hm : c.metadata <;> rw [hm] at htab <;>
      exact ⟨_, _, by simp only [act, stageOf, htab, Bool.false_eq_true, if_false, if_true, Option.bind_some, id, call]; rfl⟩

open Engine (GenRes) in
/-- a generator does nothing undefined, and the curve stage that succeeds leaves a curve object to its check -/
theorem gen_defined (P : Pari) (hP : P.Ok) (c : Config) (h : Covered c) {w : W} (hT : TapeOk c w.tape) (hq : StagesFine c w.tape)
    (s : Nat) (hs : s < 9) (w1 : W) (r : GenRes) (hi : Inv c w.tape s w.cur) (hg : (setup P c).gen s w = (w1, r)) :
    w1.ub = w.ub ∧ (s = 4 → ∀ d, 0 < d → r = .ret d → w1.cur.crv.isSome) := by
  obtain ⟨x', d, ha⟩ := act_defined P c h w.tape (w.tape w.pos) (hT.picks _) s hs _ (by
    rcases hq.2 with hq | hq | ⟨hq, hE⟩ | hE
    · exact Or.inl hq
    · exact Or.inr (Or.inl hq)
    · refine Or.inr (Or.inr (Or.inl ⟨hq, fun E h5 he => ?_⟩))
      obtain ⟨f, a, b, h1, h2, h3, h4, h6⟩ := hi.crv h5
      rw [h4] at he
      cases he
      obtain ⟨c1, c2, c3⟩ := comes hi (by omega) h1 h2 h3
      exact hE _ c1 c2 c3 h6
    · refine Or.inr (Or.inr (Or.inr ⟨fun _ => hP, fun E h5 he => ?_⟩))
      obtain ⟨f, a, b, h1, h2, h3, h4, h6⟩ := hi.crv h5
      rw [h4] at he
      cases he
      obtain ⟨c1, c2, c3⟩ := comes hi (by omega) h1 h2 h3
      exact hE _ c1 c2 c3 h6) (by
    intro h3 ha f b hf hb hcr
    obtain ⟨-, -, j, rfl⟩ := (hi.seed (by omega)).2 b hb
    obtain ⟨f', e, -, hcf⟩ := hi.field (by omega)
    rw [hf] at e; cases e
    have hcall := hT.ansi ha w.pos j f hcf
    obtain ⟨q, e, hq'⟩ := (ansi_crash_iff c.bits (comes_asked hT hcf).1 f _ ((hT.picks j).ansiSeed ha) _ hcall).1 hcr
    exact hq.1 ha j f q hcf e hq') hi
  have ha : act P c w.pick s w.cur = some (x', d) := ha
  change gen P c.bits (exhaustiveSetup c) s w = _ at hg
  unfold gen at hg
  cases h1 : w.pick.cut with
  | some x => rw [h1] at hg; cases hg; exact ⟨rfl, fun _ _ _ h => by cases h⟩
  | none =>
    rw [h1] at hg
    cases h2 : w.pick.fail s with
    | some d =>
      simp only [h2] at hg; cases hg
      refine ⟨rfl, fun _ d' h3 h4 => ?_⟩
      cases h4
      have := (failures_spec s d ((hT.picks w.pos).fail s d h2)).1
      omega
    | none =>
      simp only [h2] at hg
      change done w (act P c w.pick s w.cur) = _ at hg
      rw [ha] at hg
      cases hg
      refine ⟨rfl, fun hs4 _ _ _ => ?_⟩
      subst hs4
      obtain ⟨-, -, -, E, hE, -⟩ := step_curve P c h w.tape (w.tape w.pos) _ hi _ _ ha
      simp [hE]

open Engine Engine.Spec in
theorem checks_defined (P : Pari) (c : Config) (h : Covered c) (s : Nat) (w1 : W) (hc : s = 4 → w1.cur.crv.isSome) :
    (∀ w', Passes ((setup P c).checks s) w1 w' → w'.ub = w1.ub) ∧ ∀ d w', Rejects ((setup P c).checks s) w1 d w' → w'.ub = w1.ub := by
  rw [table_checks P c h.algo]
  by_cases hs4 : s = 4
  · obtain ⟨E, hE⟩ := Option.isSome_iff_exists.1 (hc hs4)
    rw [if_pos hs4]
    constructor
    · intro w' hp
      cases hp with
      | cons h8 h9 => cases h9; simp only [check, hE]
    · intro d w' hr
      cases hr with
      | here h10 => simp only [check, hE]
      | later _ h11 => cases h11
  · rw [if_neg hs4]
    by_cases hs7 : s = 7 ∧ c.hexCheck.isSome
    · rw [if_pos hs7]
      constructor
      · intro w' hp
        cases hp with
        | cons h8 h9 => cases h9; rfl
      · intro d w' hr
        cases hr with
        | here h10 => rfl
        | later _ h11 => cases h11
    · rw [if_neg hs7]
      exact ⟨fun w' hp => by cases hp; rfl, fun d w' hr => by cases hr⟩

open Engine Engine.Spec in
theorem succeeds_defined (P : Pari) (hP : P.Ok) (c : Config) (h : Covered c)
    (s : Nat) (w : W) (hT : TapeOk c w.tape) (hq : StagesFine c w.tape) (d : Int) (w' : W) (hs : s < 9) (hi : Inv c w.tape s w.cur) (hsucc : Succeeds (setup P c) s w d w') :
    w'.ub = w.ub := by
  obtain ⟨w1, h1, h2, h3⟩ := hsucc
  obtain ⟨h4, h5⟩ := gen_defined P hP c h hT hq s hs w1 _ hi h1
  rw [← h4]
  exact (checks_defined P c h s w1 fun e => h5 e d h2 rfl).1 w' h3

open Engine Engine.Spec in
theorem fails_defined (P : Pari) (hP : P.Ok) (c : Config) (h : Covered c)
    (s : Nat) (w : W) (hT : TapeOk c w.tape) (hq : StagesFine c w.tape) (d : Int) (w' : W) (hs : s < 9) (hi : Inv c w.tape s w.cur) (hf : Fails (setup P c) 0 s w d w') :
    w'.ub = w.ub := by
  rcases hf with ⟨h1, rfl⟩ | ⟨h1, h2⟩ | ⟨w1, g, h1, h2, h3⟩
  · exact (gen_defined P hP c h hT hq s hs w' _ hi h1).1
  · exact (gen_defined P hP c h hT hq s hs w' _ hi h1).1
  · obtain ⟨h4, h5⟩ := gen_defined P hP c h hT hq s hs w1 _ hi h1
    rw [← h4]
    exact (checks_defined P c h s w1 fun e => h5 e g h2 rfl).2 d w' h3

theorem cleaned_ub (P : Pari) (c : Config) (lo : Nat) : ∀ (hi : Nat) (w : W), (Engine.Spec.cleaned (setup P c) lo hi w).ub = w.ub := by
  intro hi
  induction hi with
  | zero => intro w; rfl
  | succ i ih =>
    intro w
    unfold Engine.Spec.cleaned
    split
    · rw [ih]; rfl
    · rfl

/-- what holds at the beginning of a stage -/
def Sound (c : Config) (T : Nat → Pick) (s : Nat) (v : W) : Prop := (s ≤ 9 ∧ Inv c T s v.cur ∧ Behaves c T v) ∧ v.ub = false

open Engine.Spec in
theorem sound_ok (P : Pari) (hP : P.Ok) (c : Config) (h : Covered c) (T : Nat → Pick) (hq : StagesFine c T) (s : Nat) (v : W) (d : Int) (v' : W)
    (hs : s < 9) (hv : Sound c T s v) (hsucc : Succeeds (setup P c) s v d v') : Sound c T (s + d.toNat) v' := by
  obtain ⟨⟨-, hi, hb⟩, hu⟩ := hv
  obtain ⟨rfl, h1, h2⟩ := keep_ok P hP c h T s v d v' hs hi hb hsucc
  refine ⟨⟨by simp only [Int.toNat_one]; omega, h1, h2⟩, ?_⟩
  rw [← hu]
  exact succeeds_defined P hP c h s v (hb.1.symm ▸ hb.2) (hb.1.symm ▸ hq) 1 v' hs (hb.1.symm ▸ hi) hsucc

open Engine.Spec in
theorem sound_fail (P : Pari) (hP : P.Ok) (c : Config) (h : Covered c) (T : Nat → Pick) (hq : StagesFine c T) (s : Nat) (v : W) (d : Int) (v' : W)
    (hs : s < 9) (hv : Sound c T s v) (hf : Fails (setup P c) 0 s v d v') : v'.ub = false := by
  obtain ⟨⟨-, hi, hb⟩, hu⟩ := hv
  rw [← hu]
  exact fails_defined P hP c h s v (hb.1.symm ▸ hb.2) (hb.1.symm ▸ hq) d v' hs (hb.1.symm ▸ hi) hf

open Engine.Spec in
theorem sound_back (P : Pari) (hP : P.Ok) (c : Config) (h : Covered c) (T : Nat → Pick) (hq : StagesFine c T) (s : Nat) (v : W) (d : Int) (v' : W)
    (hs : s < 9) (hv : Sound c T s v) (hf : Fails (setup P c) 0 s v d v') (h0 : 0 ≤ (s : Int) + d) :
    Sound c T (max ((s : Int) + d).toNat 0) (cleaned (setup P c) (max ((s : Int) + d).toNat 0) s v') := by
  have hu' := sound_fail P hP c h T hq s v d v' hs hv hf
  obtain ⟨⟨-, hi, hb⟩, hu⟩ := hv
  obtain ⟨h1, h2⟩ := keep_fail P hP c h T s v d v' hs hi hb hf
  refine ⟨?_, by rw [cleaned_ub]; exact hu'⟩
  rcases h2 h0 with ⟨k, hk, e, h3⟩ | ⟨rfl, h3⟩
  · have e' : max ((s : Int) + d).toNat 0 = k := by omega
    rw [e']
    obtain ⟨e1, e2, e3⟩ := cleaned_keeps P c k s v'
    exact ⟨by omega, inv_low hk (e1 ▸ h3.quiet) (e2 ▸ h3.noseed) (fun hk => e2 ▸ h3.seed (by omega)), by rw [e3]; exact h1.1, h1.2⟩
  · have e' : max ((s : Int) + 0).toNat 0 = s := by omega
    rw [e', cleaned_self]
    exact ⟨by omega, h3 ▸ hi, h1⟩

/-- **C76** whatever happens, no stage of the search for a curve does anything undefined: no member of the curve is read before it is set, no
missing argument is used, and the points belong to the curve at hand. This holds after every call of a generator and its checks, in searches that
succeed, fail or never end. -/
theorem search_defined_partial (P : Pari) (hP : P.Ok) (c : Config) (h : Covered c) (w : W) (hT : TapeOk c w.tape) (hq : StagesFine c w.tape)
    (hu : w.ub = false) (st : Engine.St W) (hr : Engine.Reaches (setup P c) 0 9 0 (Engine.init 0 { w with cur := {} }) st) (hs : st.state < 9)
    (st' : Engine.St W) (hst : Engine.step (setup P c) 0 0 st = .inl st' ∨ Engine.step (setup P c) 0 0 st = .inr st') : st'.w.ub = false := by
  have hok := fun s v d v' (_ : 0 ≤ s) => sound_ok P hP c h w.tape hq s v d v'
  have hback := fun s v d v' (_ : 0 ≤ s) => sound_back P hP c h w.tape hq s v d v'
  obtain ⟨-, h1⟩ := Engine.reaches_inv (setup P c) 0 9 0 (Sound c w.tape) hok hback _ st (Nat.zero_le _)
    ⟨⟨Nat.zero_le _, inv_low (Nat.zero_le _) (fun _ => rfl) (fun _ => rfl) (fun h => by cases h), rfl, hT⟩, hu⟩ hr
  obtain ⟨h2, h3⟩ := Engine.step_inv (setup P c) 0 9 0 (Sound c w.tape) (fun v => v.ub = false) hok hback
    (fun s v d v' _ => sound_fail P hP c h w.tape hq s v d v') st (Nat.zero_le _) hs h1
  rcases hst with hst | hst
  · exact (h2 st' hst).2.2
  · exact h3 st' hst

/-! ## Printing -/

theorem outPoint_some (E : Crv) (k : Option Nat) (q : Group.Pt E.Pt) (h : q.point ≠ 0) : ∃ p, outPoint E k q = some p := by
  obtain ⟨point, n, m⟩ := q
  unfold outPoint
  cases point with
  | zero => exact absurd rfl h
  | some x y hxy =>
    obtain ⟨e1, h1, -⟩ := ielement_out E.field (num E.field x) (num_lt _ _)
    obtain ⟨e2, h2, -⟩ := ielement_out E.field (num E.field y) (num_lt _ _)
    simp only [h1, h2]
    exact ⟨_, rfl⟩

theorem allSome_some {α β : Type} (f : α → Option β) : ∀ l : List α, (∀ x ∈ l, ∃ y, f x = some y) → ∃ r, allSome (l.map f) = some r := by
  intro l
  induction l with
  | nil => intro _; exact ⟨[], rfl⟩
  | cons a l ih =>
    intro h
    obtain ⟨y, hy⟩ := h a (by simp)
    obtain ⟨r, hr⟩ := ih fun x hx => h x (by simp [hx])
    exact ⟨y :: r, by simp [allSome, hy, hr]⟩

/-- a complete curve can be printed: neither a generator nor a point is the point at infinity, which has no coordinates, nor is there a null pointer
among the points. But for the cofactors of C31, and for random points whose number is not given. -/
theorem printed_defined (c : Config) (T : Nat → Pick) (x : Cur) (hi : Inv c T 9 x) (hu : ∀ E, x.crv = some E → Clear c (Nat.card E.Pt))
    (hq : c.pointsType = .random → c.pointsAmount ≠ 0) : ∃ v, outCurve x = some v := by
  obtain ⟨f, a, b, h1, h2, h3, h4, -⟩ := hi.crv (by omega)
  obtain ⟨E0, ho1, ho, -⟩ := hi.order (by omega)
  obtain ⟨E, l, hE, hl, hk, -⟩ := hi.gens (by omega)
  obtain ⟨E', l', hl', hp⟩ := hi.points (by omega)
  rw [hl] at hl'
  cases hl'
  have hne : ∀ g ∈ l, g.gen.point ≠ 0 := fun g hg => hk.nonzero (hu E hE) g.gen (List.mem_map_of_mem hg)
  have hp := hp hne
  have hp' := hp
  have : ∃ gs, allSome (l.map (outSub E)) = some gs := by
    refine allSome_some _ _ fun s hs => ?_
    obtain ⟨g, hg⟩ := outPoint_some E (some s.gen.cofactor) s.gen (hne s hs)
    obtain ⟨ps, hps, hps1, hps2⟩ := hp.listed s hs
    have hgt : ∀ p ∈ ps, p.point ≠ 0 := by
      intro p hp h0
      have h5 := (hps1 p hp).1
      rw [h0, addOrderOf_zero] at h5
      have h6 : p.order ∈ ps.map Group.Pt.order := List.mem_map_of_mem hp
      cases ht : c.pointsType with
      | random => exact hp'.finite ht (hq ht) s hs p (hps ▸ List.mem_map_of_mem hp) h0
      | none => exact ((hps2 (fun _ => False) (by simp only [pointOrders, ht])).2 _).1 h6
      | prime =>
        have := ((hps2 _ (by simp only [pointOrders, ht]; rfl)).2 p.order).1 h6
        exact absurd this.1 (h5 ▸ Nat.not_prime_one)
      | all =>
        have := ((hps2 _ (by simp only [pointOrders, ht]; rfl)).2 p.order).1 h6
        exact absurd this.1 (h5 ▸ Nat.lt_irrefl 1)
      | nonprime =>
        have := ((hps2 _ (by simp only [pointOrders, ht]; rfl)).2 p.order).1 h6
        exact absurd this.1 (h5 ▸ Nat.lt_irrefl 1)
    obtain ⟨r, hr⟩ := allSome_some (outPoint E none) ps fun p hp => outPoint_some E none p (hgt p hp)
    refine ⟨⟨g, r⟩, ?_⟩
    simp only [outSub, hg, Option.bind_some, hps, List.map_map]
    have : ((fun p : Option (Group.Pt E.Pt) => p.bind (outPoint E none)) ∘ some) = outPoint E none := rfl
    rw [this, hr]
    rfl
  obtain ⟨gs, hgs⟩ := this
  exact ⟨_, by simp only [outCurve, h1, h2, h3, ho, hl, hgs, Option.map_some]; rfl⟩

/-- **C76** a search that succeeds gives a curve to print, if the first generator is never the point at infinity (C31): the only way for a run to fail is a search that fails or does not end -/
theorem found_is_printed_partial (P : Pari) (hP : P.Ok) (c : Config) (h : Covered c)
    (hq : c.pointsType = .random → c.pointsAmount ≠ 0) (fuel : Nat) (w : W)
    (hu : ∀ E : Crv, ComesField w.tape E.field → ComesA c w.tape E.field E.a → ComesB c w.tape E.field E.b → E.eqn.Δ ≠ 0 → Clear c (Nat.card E.Pt))
    (hT : TapeOk c w.tape) (r : Int) (st : Engine.St W)
    (hg : Engine.gen (setup P c) 0 9 fuel { w with cur := {} } = some (r, st)) : r = 0 ∨ ∃ v, one P c fuel w = (some v, st.w) := by
  obtain ⟨-, ⟨rfl, h2⟩ | h2⟩ := search P hP c h w.tape fuel w ⟨rfl, hT⟩ r st hg
  · obtain ⟨v, hv⟩ := printed_defined c w.tape _ h2 (fun E he => by
      obtain ⟨f, a, b, h3, h4, h5, h6, h7⟩ := h2.crv (by omega)
      rw [h6] at he
      cases he
      obtain ⟨c1, c2, c3⟩ := comes h2 (by omega) h3 h4 h5
      exact hu _ c1 c2 c3 h7) hq
    refine Or.inr ⟨v, ?_⟩
    simp only [one, hg, hv]
    rw [if_neg (by decide)]
  · exact Or.inl h2

end Ecgen.Whole
