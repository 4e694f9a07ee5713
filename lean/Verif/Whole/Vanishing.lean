import Verif.Whole.Subgroups
import Mathlib.GroupTheory.Index

/-!
# A first generator at infinity (C76)

The curve `y² = x³ + 1` over the field of seven elements has twelve points, of which three have order two.
-/

namespace Ecgen.Whole

open Output Output.Spec Cli

open AddSubgroup in
/-- a group of twelve elements with two of order two -/
theorem gens12 {A : Type} [AddCommGroup A] [Finite A] (hA : Nat.card A = 12) (s t : A) (hs : 2 • s = 0) (ht : 2 • t = 0) (hs0 : s ≠ 0) (ht0 : t ≠ 0)
    (hst : t ≠ s) : addOrderOf t = 2 ∧ ∃ g : A, addOrderOf g = 6 ∧ Group.GensSpec A [g, t] := by
  have : Fact (Nat.Prime 3) := ⟨Nat.prime_three⟩
  have : Fact (Nat.Prime 2) := ⟨Nat.prime_two⟩
  obtain ⟨u, hu⟩ := exists_prime_addOrderOf_dvd_card' (G := A) 3 (by rw [hA]; decide)
  have os : addOrderOf s = 2 := addOrderOf_eq_prime hs hs0
  have ot : addOrderOf t = 2 := addOrderOf_eq_prime ht ht0
  have og : addOrderOf (u + s) = 6 := by
    rw [(AddCommute.all u s).addOrderOf_add_eq_mul_addOrderOf_of_coprime (by rw [hu, os]; decide), hu, os]
  have h3 : (3 : ℤ) • (u + s) = s := by
    have h1 : (3 : ℤ) • u = 0 := by
      have := addOrderOf_nsmul_eq_zero u
      rw [hu] at this
      exact_mod_cast this
    have h2 : (3 : ℤ) • s = s := by
      have e : (3 : ℤ) • s = (2 : ℕ) • s + s := by
        rw [show (3 : ℤ) = ((3 : ℕ) : ℤ) from rfl, natCast_zsmul, succ_nsmul]
      rw [e, hs, zero_add]
    rw [smul_add, h1, h2, zero_add]
  have hn : t ∉ zmultiples (u + s) := by
    intro h
    obtain ⟨a, rfl⟩ := mem_zmultiples_iff.1 h
    have h6 : ((6 : Nat) : ℤ) ∣ 2 * a := by
      rw [← og, addOrderOf_dvd_iff_zsmul_eq_zero, mul_zsmul']
      rw [← ht, ← natCast_zsmul, ← mul_zsmul', ← mul_zsmul', mul_comm]
      norm_num
    obtain ⟨d, hd⟩ : (3 : ℤ) ∣ a := by omega
    subst hd
    rw [mul_zsmul', h3] at ht0 hst
    rcases Int.even_or_odd d with ⟨e, he⟩ | ⟨e, he⟩
    · apply ht0
      rw [he, add_zsmul, ← zsmul_add, ← two_nsmul, hs, zsmul_zero]
    · apply hst
      rw [he, add_zsmul, one_zsmul, mul_comm, mul_zsmul, show (2 : ℤ) • s = 0 from by exact_mod_cast hs, zsmul_zero, zero_add]
  refine ⟨ot, u + s, og, ht0, by rw [og, ot]; decide, ?_, ?_⟩
  · rw [disjoint_iff_inf_le]
    rintro x ⟨h1, h2⟩
    obtain ⟨b, rfl⟩ := mem_zmultiples_iff.1 h2
    rw [mem_bot]
    rcases Int.even_or_odd b with ⟨e, he⟩ | ⟨e, he⟩
    · rw [he, add_zsmul, ← zsmul_add, ← two_nsmul, ht, zsmul_zero]
    · exfalso
      apply hn
      have : b • t = t := by
        rw [he, add_zsmul, one_zsmul, mul_comm, mul_zsmul, show (2 : ℤ) • t = 0 from by exact_mod_cast ht, zsmul_zero, zero_add]
      rw [← this]
      exact h1
  · intro x
    let H := zmultiples (u + s) ⊔ zmultiples t
    have hd1 : Nat.card H ∣ 12 := hA ▸ card_addSubgroup_dvd_card H
    have hd2 : 6 ∣ Nat.card H := by
      have := card_dvd_of_le (le_sup_left : zmultiples (u + s) ≤ H)
      rwa [Nat.card_zmultiples, og] at this
    have hne : Nat.card H ≠ 6 := by
      intro h
      apply hn
      have : zmultiples (u + s) = H := eq_of_le_of_card_ge le_sup_left (by rw [Nat.card_zmultiples, og, h])
      rw [this]
      exact (le_sup_right : zmultiples t ≤ H) (mem_zmultiples t)
    have h12 : Nat.card H = 12 := by
      have := Nat.le_of_dvd (by decide) hd1
      obtain ⟨k, hk⟩ := hd2
      have : k ≤ 2 := by omega
      interval_cases k
      · rw [hk] at hd1; exact absurd hd1 (by decide)
      · exact absurd hk hne
      · exact hk
    have htop : H = ⊤ := eq_top_of_card_eq H (by rw [h12, hA])
    have hx : x ∈ H := by rw [htop]; exact mem_top x
    obtain ⟨y, hy, z, hz, rfl⟩ := mem_sup.1 hx
    obtain ⟨a, rfl⟩ := mem_zmultiples_iff.1 hy
    obtain ⟨b, rfl⟩ := mem_zmultiples_iff.1 hz
    exact ⟨a, b, rfl⟩

/-! ## The curve -/

/-- the curve object `y² = x³ + 1` over the field of seven elements -/
def E12 : Crv := ⟨F7, .int 0, .int 1⟩

theorem E12_delta : E12.eqn.Δ ≠ 0 := by
  have : (Invalid.primeCurve (0 : ZMod 7) 1).Δ ≠ 0 := by
    have := Cm.Construct.elliptic (K := ZMod 7) (by decide) 0 1 (by decide)
    rw [WeierstrassCurve.isElliptic_iff, isUnit_iff_ne_zero] at this
    exact this
  exact this

theorem E12_card : Nat.card E12.Pt = 12 := by
  have : Nat.card (Invalid.primeCurve (0 : ZMod 7) 1).Point = 12 := by
    rw [Cm.Construct.natCard_point (by decide) 0 1 (by decide)]
    decide +kernel
  exact this

theorem E12_regular : (2 : ZMod 7) ≠ 0 ∧ Cm.Construct.Regular ((0, 1) : ZMod 7 × ZMod 7) := by decide
theorem roots : (3 : ZMod 7) ^ 3 + 1 = 0 ∧ (5 : ZMod 7) ^ 3 + 1 = 0 ∧ (5 : ZMod 7) ≠ 3 := by decide

theorem two_torsion (_ : DecidableEq (ZMod 7)) (x : ZMod 7) (hx : x ^ 3 + 1 = 0) :
    ∃ h, 2 • (WeierstrassCurve.Affine.Point.some (W' := Invalid.primeCurve (0 : ZMod 7) 1) x 0 h) = 0 := by
  have h : (Invalid.primeCurve (0 : ZMod 7) 1).Nonsingular x 0 := by
    have := Cm.Construct.elliptic (K := ZMod 7) E12_regular.1 0 1 E12_regular.2
    rw [← WeierstrassCurve.Affine.equation_iff_nonsingular, Cm.Construct.equation_prime]
    linear_combination -hx
  refine ⟨h, ?_⟩
  rw [two_nsmul]
  refine WeierstrassCurve.Affine.Point.add_self_of_Y_eq ?_
  simp [WeierstrassCurve.Affine.negY, Invalid.primeCurve]

theorem gens_prime (_ : DecidableEq (ZMod 7)) : ∃ g t : (Invalid.primeCurve (0 : ZMod 7) 1).Point, addOrderOf g = 6 ∧ addOrderOf t = 2 ∧
    Group.GensSpec (Invalid.primeCurve (0 : ZMod 7) 1).Point [g, t] := by
  have hc : Nat.card (Invalid.primeCurve (0 : ZMod 7) 1).Point = 12 := E12_card
  have : Finite (Invalid.primeCurve (0 : ZMod 7) 1).Point := Nat.finite_of_card_ne_zero (by rw [hc]; decide)
  obtain ⟨h3, e3⟩ := two_torsion inferInstance 3 roots.1
  obtain ⟨h5, e5⟩ := two_torsion inferInstance 5 roots.2.1
  obtain ⟨ht, g, hg, hs⟩ := gens12 hc _ _ e3 e5 (WeierstrassCurve.Affine.Point.some_ne_zero _) (WeierstrassCurve.Affine.Point.some_ne_zero _)
    (fun h => by injection h with h _; exact roots.2.2 h)
  exact ⟨g, _, hg, ht, hs⟩

theorem gens_E12 : ∃ g t : E12.Pt, addOrderOf g = 6 ∧ addOrderOf t = 2 ∧ Group.GensSpec E12.Pt [g, t] := gens_prime _

/-! ## The run -/

/-- `ecgen --fp --random --koblitz --cofactor=6 3` -/
def c12 : Config := (commandLine 5 [.fp, .random none, .koblitz none, .cofactor "6".toList, .arg "3".toList]).get (by decide +kernel)

theorem c12_some : commandLine 5 [.fp, .random none, .koblitz none, .cofactor "6".toList, .arg "3".toList] = some c12 := (Option.some_get _).symm

/-- the generators found: six times the first of PARI's is infinity -/
noncomputable def first12 (g t : E12.Pt) : List (Group.Pt E12.Pt) := [⟨6 • g, 1, 6⟩, ⟨g, 6, 2⟩, ⟨t, 2, 6⟩]

/-- the course of the run -/
noncomputable def course12 (g t : E12.Pt) : Nat → Cur
  | 0 | 1 => {}
  | 2 => { field := some F7 }
  | 3 => { field := some F7, a := some (.int 0) }
  | 4 => { field := some F7, a := some (.int 0), b := some (.int 1) }
  | 5 => { field := some F7, a := some (.int 0), b := some (.int 1), crv := some E12 }
  | 6 => { field := some F7, a := some (.int 0), b := some (.int 1), crv := some E12, order := some 12 }
  | 7 => { field := some F7, a := some (.int 0), b := some (.int 1), crv := some E12, order := some 12,
           gens := some ⟨E12, bare (first12 g t)⟩ }
  | _ => { field := some F7, a := some (.int 0), b := some (.int 1), crv := some E12, order := some 12,
           gens := some ⟨E12, Group.pointsPrime pari.isprime pari.fac (first12 g t)⟩ }

theorem course12_act (g t : E12.Pt) (hg : addOrderOf g = 6) (ht : addOrderOf t = 2) (s : Nat) (hs : s < 9) :
    act pari c12 (always E12 1 [g, t] 1) s (course12 g t s) = some (course12 g t (s + 1), 1) := by
  match s, hs with
  | 0, _ =>
    have : (exhaustiveSetup c12).gens.seed = some .skip := by decide +kernel
    simp only [act, stageOf, this, Option.bind_some, id, call, course12]
  | 1, _ =>
    have : (exhaustiveSetup c12).gens.field = some .fieldRandom := by decide +kernel
    simp only [act, stageOf, this, Option.bind_some, id, call, course12, always]
    rfl
  | 2, _ =>
    have : (exhaustiveSetup c12).gens.a = some .aZero := by decide +kernel
    simp only [act, stageOf, this, Option.bind_some, id, call, course12]
  | 3, _ =>
    have : (exhaustiveSetup c12).gens.b = some .bOne := by decide +kernel
    simp only [act, stageOf, this, Option.bind_some, id, call, course12]
  | 4, _ =>
    have : (exhaustiveSetup c12).gens.curve = some .curveAny := by decide +kernel
    simp only [act, stageOf, this, Option.bind_some, id, call, course12]
    rfl
  | 5, _ =>
    have : (exhaustiveSetup c12).gens.order = some .orderCofactor := by decide +kernel
    have ha : (exhaustiveSetup c12).genArgs.order = some (.long 6) := by decide +kernel
    have h5 : Order.genCofactor pari.isprime 6 12 = some 12 := by
      have : pari.isprime 2 = true := (pari_ok.isprime 2).2 (by decide)
      simp [Order.genCofactor, this]
    have h6 : argNat (.long 6) = 6 := by decide
    simp only [act, stageOf, this, ha, Option.bind_some, id, call, course12, orderStage, Option.map_some, pari, E12_card, h6]
    rw [show (fun n => decide (Nat.Prime n)) = pari.isprime from rfl, h5]
    rfl
  | 6, _ =>
    have : (exhaustiveSetup c12).gens.gens = some .gensCofactor := by decide +kernel
    have ha : (exhaustiveSetup c12).genArgs.gens = some (.long 6) := by decide +kernel
    have h6 : argNat (.long 6) = 6 := by decide
    have h7 : Group.gensCofactor (pari.ord E12) 12 6 [g, t] = some (first12 g t) := by
      simp only [Group.gensCofactor, Group.findCofactor, Group.gensAny, Group.gensPoint, List.map_cons, List.map_nil, pari, hg, ht]
      rfl
    simp only [act, stageOf, this, ha, Option.bind_some, id, call, course12, gensStage, always, dif_pos, found, Option.map_some, h6]
    rw [h7]
  | 7, _ =>
    have : (exhaustiveSetup c12).gens.points = some .pointsPrime := by decide +kernel
    simp only [act, stageOf, this, Option.bind_some, id, call, call.withPoints, course12, pointsStage, if_true, Option.map_some, List.map_map]
    rfl
  | 8, _ =>
    have : (exhaustiveSetup c12).gens.metadata = some .skip := by decide +kernel
    simp only [act, stageOf, this, Option.bind_some, id, call, course12]

/-- **C76, for cofactors that the prime divides properly, is false**: with `--fp --random --koblitz --cofactor=6 3` the curve `y² = x³ + 1` over the field
of seven elements is found, with the point at infinity for its first generator, which has no coordinates to print -/
theorem cofactor_not_printed_false : ∃ (os : List Opt) (c : Config) (w : W) (st : Engine.St W), commandLine 5 os = some c ∧ Covered c ∧
    c.pointsType = .prime ∧ TapeOk c w.tape ∧ Engine.gen (setup pari c) 0 9 9 { w with cur := {} } = some (1, st) ∧ outCurve st.w.cur = none := by
  obtain ⟨g, t, hg, ht, hs⟩ := gens_E12
  obtain ⟨st, h1, h2, -⟩ := straight pari c12 (by decide +kernel) (by decide +kernel) (always E12 1 [g, t] 1) rfl (fun _ => rfl)
    (course12 g t) rfl (course12_act g t hg ht) ⟨E12, rfl, E12_delta⟩ (world E12 1 [g, t] 1) rfl
  have hf : FieldAsked c12 E12.field.1 := ⟨by decide +kernel, fun _ _ => by decide +kernel, by decide +kernel⟩
  have hc : c12.koblitz = true ∧ c12.seedAlgo = .none := by decide +kernel
  refine ⟨_, c12, world E12 1 [g, t] 1, st, c12_some, covered 5 _ c12 c12_some (by decide +kernel) (by decide +kernel), by decide +kernel,
    always_tape c12 E12 hf ⟨by decide +kernel, fun h => absurd (Nat.zero_and 2) h, by decide +kernel⟩ 1 (by decide) [g, t] 1 hs ?_ ?_, h1, ?_⟩
  · intro e he
    rw [ComesA, if_pos hc] at he
    rw [he]
    have : c12.koblitzValue.toNat = 0 := by decide +kernel
    rw [this]
    rfl
  · intro e he
    rw [ComesB, if_pos hc] at he
    rw [he]
    rfl
  · rw [h2]
    have h0 : 6 • g = 0 := by
      rw [← hg]
      exact addOrderOf_nsmul_eq_zero g
    have hp : ∀ k n m, outPoint E12 k ⟨6 • g, n, m⟩ = none := by
      intro k n m
      rw [h0]
      rfl
    simp only [course12, outCurve, first12, Group.pointsPrime, List.map_cons, List.map_nil, outSub, hp, Option.bind_none, allSome, Option.map_none]

end Ecgen.Whole
