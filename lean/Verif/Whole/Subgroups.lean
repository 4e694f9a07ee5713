import Verif.Whole.Examples
import Verif.Twisted.Twist
import Verif.PrimeCert
import Verif.Cm.Props
import Mathlib.GroupTheory.OrderOfElement
import Mathlib.GroupTheory.Perm.Cycle.Type
import Mathlib.Tactic.LinearCombination

/-!
# All subgroups of a group with too many (C76)
-/

namespace Ecgen.Whole

open Output Output.Spec Cli

/-- `3 * 2^64 - 1`, a prime of 66 bits -/
abbrev P66 : Nat := 55340232221128654847

theorem prime_57 : Nat.Prime 88971434439113593 := by
  refine prime_of_cert _ 5 64 3 [2, 3, 1693, 33413, 21844679] (by decide) (by decide +kernel) (by decide +kernel) ?_ (by decide +kernel)
  intro q hq
  simp only [List.mem_cons, List.not_mem_nil, or_false] at hq
  rcases hq with rfl | rfl | rfl | rfl | rfl
  · exact ⟨by norm_num, by decide +kernel⟩
  · exact ⟨by norm_num, by decide +kernel⟩
  · exact ⟨by norm_num, by decide +kernel⟩
  · exact ⟨by norm_num, by decide +kernel⟩
  · exact ⟨by norm_num, by decide +kernel⟩

theorem prime_66 : Nat.Prime P66 := by
  refine prime_of_cert _ 5 70 1 [2, 311, 88971434439113593] (by decide) (by decide +kernel) (by decide +kernel) ?_ (by decide +kernel)
  intro q hq
  simp only [List.mem_cons, List.not_mem_nil, or_false] at hq
  rcases hq with rfl | rfl | rfl
  · exact ⟨by norm_num, by decide +kernel⟩
  · exact ⟨by norm_num, by decide +kernel⟩
  · exact ⟨prime_57, by decide +kernel⟩

/-- the image of the doubling has at least half of the elements -/
theorem double_card {A : Type} [AddCommGroup A] [Finite A] (h2 : Nat.card (nsmulAddMonoidHom (α := A) 2).ker ≤ 2) (k : Nat) :
    Nat.card A ≤ 2 ^ k * Nat.card (nsmulAddMonoidHom (α := A) (2 ^ k)).range := by
  induction k with
  | zero =>
    rw [pow_zero, one_mul]
    refine Nat.card_le_card_of_injective (fun a => ⟨a, a, one_nsmul a⟩) fun a b h => congrArg Subtype.val h
  | succ k ih =>
    refine le_trans ih ?_
    rw [pow_succ, mul_assoc]
    refine Nat.mul_le_mul_left _ ?_
    let B := (nsmulAddMonoidHom (α := A) (2 ^ k)).range
    let f : B →+ (nsmulAddMonoidHom (α := A) (2 ^ (k + 1))).range :=
      { toFun := fun b => ⟨2 • b.1, by
          obtain ⟨b, a, rfl⟩ := b
          exact ⟨a, by simp only [nsmulAddMonoidHom_apply]; rw [pow_succ', mul_nsmul']⟩⟩
        map_zero' := by ext; simp
        map_add' := fun a b => by ext; simp }
    have h3 : Nat.card B = Nat.card f.ker * Nat.card f.range := by
      rw [← AddSubgroup.card_mul_index f.ker, AddSubgroup.index_ker]
    have h4 : Nat.card f.ker ≤ 2 := by
      refine le_trans (Nat.card_le_card_of_injective (fun b : f.ker => (⟨b.1.1, ?_⟩ : (nsmulAddMonoidHom (α := A) 2).ker)) ?_) h2
      · have := b.2
        rw [AddMonoidHom.mem_ker] at this
        exact congrArg Subtype.val this
      · intro a b h
        have h : (⟨a.1.1, _⟩ : (nsmulAddMonoidHom (α := A) 2).ker) = ⟨b.1.1, _⟩ := h
        exact Subtype.ext (Subtype.ext (congrArg (fun z : (nsmulAddMonoidHom (α := A) 2).ker => z.1) h))
    have h5 : Nat.card f.range ≤ Nat.card (nsmulAddMonoidHom (α := A) (2 ^ (k + 1))).range :=
      Nat.card_le_card_of_injective _ Subtype.val_injective
    change Nat.card B ≤ _
    rw [h3]
    exact Nat.mul_le_mul h4 h5

/-- a group of `3 * 2^(n+1)` elements in which few double to zero has an element that generates it -/
theorem generated {A : Type} [AddCommGroup A] [Finite A] (n : Nat) (hA : Nat.card A = 3 * 2 ^ (n + 1))
    (h2 : Nat.card (nsmulAddMonoidHom (α := A) 2).ker ≤ 2) : ∃ g : A, addOrderOf g = 3 * 2 ^ (n + 1) ∧ ∀ x : A, x ∈ AddSubgroup.zmultiples g := by
  have : Fact (Nat.Prime 3) := ⟨Nat.prime_three⟩
  have : Fact (Nat.Prime 2) := ⟨Nat.prime_two⟩
  obtain ⟨t, ht⟩ := exists_prime_addOrderOf_dvd_card' (G := A) 3 (by rw [hA]; exact dvd_mul_right _ _)
  have hz : ∃ z : A, addOrderOf z = 2 ^ (n + 1) := by
    let B := (nsmulAddMonoidHom (α := A) (2 ^ n)).range
    have hB : 6 ≤ Nat.card B := by
      have h3 := double_card h2 n
      rw [hA] at h3
      have h4 : 2 ^ n * 6 ≤ 2 ^ n * Nat.card B := by
        rw [show 2 ^ n * 6 = 3 * 2 ^ (n + 1) by rw [pow_succ]; ring]
        exact h3
      exact Nat.le_of_mul_le_mul_left h4 (Nat.two_pow_pos n)
    have h5 : ∃ b ∈ B, 3 • b ≠ 0 := by
      by_contra hno
      push Not at hno
      have hodd : ¬ 2 ∣ Nat.card B := by
        intro hd
        obtain ⟨b, hb⟩ := exists_prime_addOrderOf_dvd_card' (G := B) 2 hd
        have h6 : (3 : ℕ) • b = 0 := Subtype.ext (hno b.1 b.2)
        have h7 := addOrderOf_dvd_of_nsmul_eq_zero h6
        rw [hb] at h7
        revert h7; decide
      have h6 : Nat.card B ∣ 3 * 2 ^ (n + 1) := by rw [← hA]; exact AddSubgroup.card_addSubgroup_dvd_card B
      have h7 : Nat.Coprime (Nat.card B) (2 ^ (n + 1)) := by
        refine Nat.Coprime.pow_right _ ?_
        rw [Nat.coprime_comm]
        exact (Nat.Prime.coprime_iff_not_dvd Nat.prime_two).2 hodd
      have h8 := Nat.le_of_dvd (by decide) (h7.dvd_of_dvd_mul_right h6)
      omega
    obtain ⟨b, ⟨a, rfl⟩, hb⟩ := h5
    refine ⟨3 • a, addOrderOf_eq_prime_pow (p := 2) (n := n) ?_ ?_⟩
    · intro h
      apply hb
      simp only [nsmulAddMonoidHom_apply]
      rw [nsmul_left_comm]; exact h
    · rw [smul_smul, mul_comm, ← hA]
      exact card_nsmul_eq_zero'
  obtain ⟨z, hz⟩ := hz
  have hg : addOrderOf (t + z) = 3 * 2 ^ (n + 1) := by
    rw [(AddCommute.all t z).addOrderOf_add_eq_mul_addOrderOf_of_coprime, ht, hz]
    rw [ht, hz]
    exact Nat.Coprime.pow_right _ (by decide)
  refine ⟨t + z, hg, fun x => ?_⟩
  have : AddSubgroup.zmultiples (t + z) = ⊤ := by
    apply AddSubgroup.eq_top_of_card_eq
    rw [Nat.card_zmultiples, hg, hA]
  rw [this]
  exact AddSubgroup.mem_top x

/-! ## The curve -/

/-- the prime field -/
def F66 : Fld := ⟨.prime P66, prime_66⟩

instance : Fact (Nat.Prime P66) := ⟨prime_66⟩

/-- the curve `y² = x³ + 1` -/
def E66 : Crv := ⟨F66, .int 0, .int 1⟩

theorem E66_eqn : E66.eqn = (Invalid.primeCurve (0 : ZMod P66) 1 : WeierstrassCurve.Affine (ZMod P66)) := by
  have h0 : ((0 : Nat) : ZMod P66) = 0 := Nat.cast_zero
  have h1 : ((1 : Nat) : ZMod P66) = 1 := Nat.cast_one
  change Invalid.primeCurve ((0 : Nat) : ZMod P66) ((1 : Nat) : ZMod P66) = _
  rw [h0, h1]

theorem two_ne : (2 : ZMod P66) ≠ 0 := by
  intro h
  have h : ((2 : Nat) : ZMod P66) = 0 := h
  rw [ZMod.natCast_eq_zero_iff] at h
  exact absurd (Nat.le_of_dvd (by decide) h) (by decide)

theorem three_ne : (3 : ZMod P66) ≠ 0 := by
  intro h
  have h : ((3 : Nat) : ZMod P66) = 0 := h
  rw [ZMod.natCast_eq_zero_iff] at h
  exact absurd (Nat.le_of_dvd (by decide) h) (by decide)

theorem delta66 : (Invalid.primeCurve (0 : ZMod P66) 1).Δ ≠ 0 := by
  have e : (Invalid.primeCurve (0 : ZMod P66) 1).Δ = -(2 ^ 4 * 3 ^ 3) := by
    simp only [WeierstrassCurve.Δ, WeierstrassCurve.b₂, WeierstrassCurve.b₄, WeierstrassCurve.b₆, WeierstrassCurve.b₈, Invalid.primeCurve]
    ring
  rw [e]
  exact neg_ne_zero.2 (mul_ne_zero (pow_ne_zero 4 two_ne) (pow_ne_zero 3 three_ne))

theorem cubes66 : Function.Bijective fun x : ZMod P66 => x ^ 3 := Count.cube_bijective (by rw [ZMod.card]; decide +kernel)

theorem card66 : Nat.card (Invalid.primeCurve (0 : ZMod P66) 1).Point = 3 * 2 ^ (63 + 1) := by
  rw [(Twisted.card_short _ _ delta66).2, Count.card_cubes (Cm.ringChar_ne_two P66 (by decide)) cubes66, ZMod.card]
  decide +kernel

theorem kernel66 (_ : DecidableEq (ZMod P66)) : Nat.card (nsmulAddMonoidHom (α := (Invalid.primeCurve (0 : ZMod P66) 1).Point) 2).ker ≤ 2 := by
  have key : ∀ Q : (Invalid.primeCurve (0 : ZMod P66) 1).Point, 2 • Q = 0 → Q ≠ 0 → ∃ h, Q = .some (-1) 0 h := by
    intro Q h0 hn
    cases Q with
    | zero => exact absurd rfl hn
    | some x y h =>
      have h1 : WeierstrassCurve.Affine.Point.some x y h = -.some x y h := by
        rw [two_nsmul] at h0
        exact eq_neg_of_add_eq_zero_left h0
      rw [WeierstrassCurve.Affine.Point.neg_some] at h1
      injection h1 with _ h2
      have hy : y = 0 := by
        simp only [WeierstrassCurve.Affine.negY, Invalid.primeCurve] at h2
        have : 2 * y = 0 := by linear_combination h2
        exact (mul_eq_zero.1 this).resolve_left two_ne
      subst hy
      have h3 := (WeierstrassCurve.Affine.equation_iff _ _).1 h.1
      simp only [Invalid.primeCurve] at h3
      have hx : x = -1 := cubes66.1 (show x ^ 3 = (-1) ^ 3 by linear_combination -h3)
      subst hx
      exact ⟨h, rfl⟩
  classical
  have hinj : Function.Injective fun Q : (nsmulAddMonoidHom (α := (Invalid.primeCurve (0 : ZMod P66) 1).Point) 2).ker => decide (Q.1 = 0) := by
    intro Q R h
    have h := decide_eq_decide.1 h
    apply Subtype.ext
    by_cases hq : Q.1 = 0
    · rw [hq, h.1 hq]
    · obtain ⟨h1, e1⟩ := key Q.1 Q.2 hq
      obtain ⟨h2, e2⟩ := key R.1 R.2 fun h' => hq (h.2 h')
      rw [e1, e2]
  have := Nat.card_le_card_of_injective _ hinj
  rwa [Nat.card_eq_fintype_card (α := Bool), Fintype.card_bool] at this

theorem cyclic66 : ∃ g : E66.Pt, addOrderOf g = 3 * 2 ^ 64 ∧ ∀ x : E66.Pt, x ∈ AddSubgroup.zmultiples g := by
  have e : Nat.card E66.Pt = 3 * 2 ^ (63 + 1) := (congrArg (fun W : WeierstrassCurve.Affine (ZMod P66) => Nat.card W.Point) E66_eqn).trans card66
  refine generated 63 e ?_
  have key : ∀ W : WeierstrassCurve.Affine (Carrier F66), W = Invalid.primeCurve (0 : ZMod P66) 1 →
      Nat.card (nsmulAddMonoidHom (α := W.Point) 2).ker ≤ 2 := by
    rintro W rfl
    exact kernel66 _
  exact key _ E66_eqn

theorem E66_card : Nat.card E66.Pt = 3 * 2 ^ 64 := by
  exact (congrArg (fun W : WeierstrassCurve.Affine (ZMod P66) => Nat.card W.Point) E66_eqn).trans card66

theorem E66_delta : E66.eqn.Δ ≠ 0 := by
  rw [E66_eqn]
  exact delta66

theorem many_factors : (3 * 2 ^ 64).primeFactorsList.length = 65 := by
  rw [(Nat.perm_primeFactorsList_mul (by decide) (by decide)).length_eq, List.length_append, Nat.primeFactorsList_prime Nat.prime_three,
    Nat.prime_two.primeFactorsList_pow, List.length_replicate, List.length_singleton]

/-! ## The run -/

/-- `ecgen --fp --random --koblitz --points=all 66` -/
def c6 : Config := (commandLine 5 [.fp, .random none, .koblitz none, .points "all".toList, .arg "66".toList]).get (by decide +kernel)

theorem c6_some : commandLine 5 [.fp, .random none, .koblitz none, .points "all".toList, .arg "66".toList] = some c6 := (Option.some_get _).symm

theorem c6_bits : c6.bits = 66 := by decide +kernel

/-- the course of the run up to the points -/
noncomputable abbrev course6 (g : E66.Pt) : Nat → Cur := course E66 (3 * 2 ^ 64) ⟨g, 3 * 2 ^ 64, 1⟩ []

theorem course6_act (g : E66.Pt) (hg : addOrderOf g = 3 * 2 ^ 64) (s : Nat) (hs : s < 7) :
    act pari c6 (always E66 1 [g] 1) s (course6 g s) = some (course6 g (s + 1), 1) := by
  match s, hs with
  | 0, _ =>
    have : (exhaustiveSetup c6).gens.seed = some .skip := by decide +kernel
    simp only [act, stageOf, this, Option.bind_some, id, call, course6, course]
  | 1, _ =>
    have : (exhaustiveSetup c6).gens.field = some .fieldRandom := by decide +kernel
    simp only [act, stageOf, this, Option.bind_some, id, call, course6, course, always]
  | 2, _ =>
    have : (exhaustiveSetup c6).gens.a = some .aZero := by decide +kernel
    simp only [act, stageOf, this, Option.bind_some, id, call, course6, course]
    rfl
  | 3, _ =>
    have : (exhaustiveSetup c6).gens.b = some .bOne := by decide +kernel
    simp only [act, stageOf, this, Option.bind_some, id, call, course6, course]
    rfl
  | 4, _ =>
    have : (exhaustiveSetup c6).gens.curve = some .curveAny := by decide +kernel
    simp only [act, stageOf, this, Option.bind_some, id, call, course6, course]
  | 5, _ =>
    have : (exhaustiveSetup c6).gens.order = some .orderKoblitz := by decide +kernel
    have h5 : ∀ k, Koblitz.genOrder 66 0 k = k := by
      intro k
      have : Koblitz.getOrder 66 0 = none := by decide +kernel
      simp [Koblitz.genOrder, this]
    have ha : E66.a = .int 0 := rfl
    simp only [act, stageOf, this, Option.bind_some, id, call, course6, course, orderStage, c6_bits, ha, h5, pari, E66_card]
  | 6, _ =>
    have : (exhaustiveSetup c6).gens.gens = some .gensAny := by decide +kernel
    simp only [act, stageOf, this, Option.bind_some, id, call, course6, course, gensStage, always, dif_pos, found, Group.gensAny, List.map_cons, List.map_nil,
      Group.gensPoint, bare, pari, hg]
    rfl

/-- the subsets of 65 prime factors are counted by a shift of one by 65 places -/
theorem course6_undefined (g : E66.Pt) : act pari c6 (always E66 1 [g] 1) 7 (course6 g 7) = none := by
  have : (exhaustiveSetup c6).gens.points = some .pointsAll := by decide +kernel
  have hn : Group.pointsAll1 pari.isprime pari.fac (⟨g, 3 * 2 ^ 64, 1⟩ : Group.Pt E66.Pt) = none := by
    cases h : Subgroup.all pari.isprime pari.fac (3 * 2 ^ 64) with
    | none => simp only [Group.pointsAll1, h, Option.bind_none, Option.map_none]
    | some r =>
      have := few_factors pari.isprime pari_ok.isprime pari.fac pari_ok.fac (3 * 2 ^ 64) (by decide) (Or.inl (by rw [h]; rfl))
      rw [many_factors] at this
      omega
  have hs : ∀ arg, pointsStage pari (always E66 1 [g] 1) E66 [⟨g, 3 * 2 ^ 64, 1⟩] arg .pointsAll = none := by
    intro arg
    cases h : pointsStage pari (always E66 1 [g] 1) E66 [⟨g, 3 * 2 ^ 64, 1⟩] arg .pointsAll with
    | none => rfl
    | some r =>
      have := mapM_some _ _ _ h _ List.mem_cons_self
      rw [hn] at this
      cases this
  simp only [act, stageOf, this, Option.bind_some, id, call, call.withPoints, course6, course, if_true, List.map_cons, List.map_nil, hs, Option.map_none]

/-- **C76, for all subgroups, is false**: with `--fp --random --koblitz --points=all 66` and the prime `3 * 2^64 - 1`, the curve `y² = x³ + 1` has
`3 * 2^64` points, one generator, and 65 prime factors, and the number of subsets of these, a shift of one by 65 places, is undefined -/
theorem subgroups_undefined_false : ∃ (os : List Opt) (c : Config) (w : W) (st st' : Engine.St W), commandLine 5 os = some c ∧ Covered c ∧
    (c.unique = true ∨ c.cofactor = false) ∧ c.pointsType = .all ∧ TapeOk c w.tape ∧ w.ub = false ∧
    Engine.Reaches (setup pari c) 0 9 0 (Engine.init 0 { w with cur := {} }) st ∧ st.state < 9 ∧
    Engine.step (setup pari c) 0 0 st = .inr st' ∧ st'.w.ub = true := by
  obtain ⟨g, hg, hall⟩ := cyclic66
  obtain ⟨st, h1, h2, h3⟩ := reach_straight (setup pari c6) (fun s => ({ world E66 1 [g] 1 with cur := course6 g s, pos := s } : W)) 7 (by omega)
    fun s hs => succeeds_act pari c6 (by decide +kernel) (by decide +kernel) (always E66 1 [g] 1) rfl (fun _ => rfl) s _ _ (course6_act g hg s hs)
      (fun h => by subst h; exact ⟨E66, rfl, E66_delta⟩) (world E66 1 [g] 1) rfl s
  have hg7 : (setup pari c6).gen 7 st.w = ({ st.w.next with ub := true }, .ret Engine.INT_MIN) :=
    gen_undefined pari c6 (always E66 1 [g] 1) rfl 7 rfl st.w (by rw [h3]; rfl) (by rw [h3]; exact course6_undefined g)
  have hstep : ∃ st', Engine.step (setup pari c6) 0 0 st = .inr st' ∧ st'.w.ub = true := by
    have he : Engine.execStage (setup pari c6) 0 st.state st.w st.log =
        ({ st.w.next with ub := true }, Engine.INT_MIN, Engine.Ev.gen 7 (.ret Engine.INT_MIN) :: st.log) := by
      rw [h2]
      unfold Engine.execStage
      rw [hg7]
      rfl
    unfold Engine.step
    rw [he]
    simp only
    rw [if_pos (by decide), if_pos (Or.inl trivial)]
    exact ⟨_, rfl, rfl⟩
  obtain ⟨st', h4, h5⟩ := hstep
  have hf : FieldAsked c6 E66.field.1 := ⟨by decide +kernel, fun _ _ => by decide +kernel, by decide +kernel⟩
  have hc : c6.koblitz = true ∧ c6.seedAlgo = .none := by decide +kernel
  have hne : g ≠ 0 := by
    rintro rfl
    rw [addOrderOf_zero] at hg
    omega
  refine ⟨_, c6, world E66 1 [g] 1, st, st', c6_some, covered 5 _ c6 c6_some (by decide +kernel) (by decide +kernel), by decide +kernel, by decide +kernel,
    always_tape c6 E66 hf ⟨by decide +kernel, fun h => absurd (Nat.zero_and 2) h, by decide +kernel⟩ 1 (by decide) [g] 1 ⟨hne, hall⟩ ?_ ?_, rfl, h1, by omega, h4, h5⟩
  · intro e he
    rw [ComesA, if_pos hc] at he
    rw [he]
    have : c6.koblitzValue.toNat = 0 := by decide +kernel
    rw [this]
    rfl
  · intro e he
    rw [ComesB, if_pos hc] at he
    rw [he]
    rfl

end Ecgen.Whole
