import Verif.Special.Props
import Verif.Special.Torsion
import Mathlib.GroupTheory.SpecificGroups.Cyclic

/-!
# `--supersingular --unique` (C85)

For primes that are 3 modulo 4 the program takes `y² = x³ - x`, which has three points of order two: its group is never cyclic.
-/

namespace Ecgen.Special

open Whole Output Output.Spec Cli
open Seeded (Fp curveOf)

/-- a cyclic group has at most one element of order two -/
theorem not_cyclic {A : Type} [AddCommGroup A] [Finite A] (x y G : A) (hx : x ≠ 0) (hy : y ≠ 0) (hxy : x ≠ y) (h2x : 2 • x = 0) (h2y : 2 • y = 0)
    (hG : addOrderOf G = Nat.card A) : False := by
  have : Fintype A := Fintype.ofFinite A
  classical
  have hc : IsAddCyclic A := isAddCyclic_of_addOrderOf_eq_card G hG
  have hle := IsAddCyclic.card_nsmul_eq_zero_le (α := A) (n := 2) (by decide)
  have hsub : ({0, x, y} : Finset A) ⊆ Finset.univ.filter fun a => 2 • a = 0 := by
    intro z hz
    simp only [Finset.mem_insert, Finset.mem_singleton] at hz
    rcases hz with rfl | rfl | rfl
    · simp
    · simpa using h2x
    · simpa using h2y
  have h3 : ({0, x, y} : Finset A).card = 3 := by
    rw [Finset.card_insert_of_notMem (by simp [hx.symm, hy.symm]), Finset.card_insert_of_notMem (by simpa using hxy), Finset.card_singleton]
  have := Finset.card_le_card hsub
  omega

/-- `y² = x³ - x` has no generator -/
theorem full_two {K : Type} [_root_.Field K] [Finite K] [DecidableEq K] (a : K) (ha : a = -1) (b : K) (hb : b = 0) (W : WeierstrassCurve.Affine K)
    (hW : W = Invalid.primeCurve a b) (hd : W.Δ ≠ 0) (G : W.Point) (hG : addOrderOf G = Nat.card W.Point) : False := by
  subst hW ha hb
  have ns : ∀ u : K, u ^ 3 - u = 0 → (Invalid.primeCurve (-1 : K) 0).Nonsingular u 0 := by
    intro u hu
    refine (WeierstrassCurve.Affine.equation_iff_nonsingular_of_Δ_ne_zero hd).1 ?_
    rw [WeierstrassCurve.Affine.equation_iff]
    simp only [Invalid.primeCurve]
    linear_combination -hu
  have hfin : Finite (Invalid.primeCurve (-1 : K) 0).Point := by
    refine Finite.of_injective (fun P : (Invalid.primeCurve (-1 : K) 0).Point => match P with | .zero => none | .some x y _ => some (x, y)) ?_
    intro P Q h
    cases P <;> cases Q <;> simp_all
  refine not_cyclic (WeierstrassCurve.Affine.Point.some 0 0 (ns 0 (by ring))) (WeierstrassCurve.Affine.Point.some 1 0 (ns 1 (by ring))) G
    (WeierstrassCurve.Affine.Point.some_ne_zero _) (WeierstrassCurve.Affine.Point.some_ne_zero _) ?_ (point_two _ _ _ _) (point_two _ _ _ _) hG
  intro h
  injection h with h
  exact zero_ne_one h

/-- a supersingular curve with a single generator is over a prime that is 1 modulo 4 -/
theorem unique_one (c : Config) (hu : c.unique = true) (v : CurveV) (h : SupersingularAsked c v) : ∃ p : Nat, v.field = .prime p ∧ p.Prime ∧ p ≤ 2 ^ c.bits ∧ p % 4 = 1 := by
  obtain ⟨-, p, hp, ⟨h1, ha, hb, hd, ho, gs, -, -, hun, -⟩, hf, hn, s1, s2, -⟩ := h
  refine ⟨p, h1, hp, hf.2.2, ?_⟩
  have : Fact p.Prime := ⟨hp⟩
  have hodd := hp.eq_two_or_odd.resolve_left s1
  by_contra h4
  obtain ⟨e1, e2⟩ := s2 (by omega)
  rcases hun hu with ⟨h0, -⟩ | ⟨G, -, hG⟩
  · have := hp.two_le
    omega
  · have hp2 := hp.two_le
    have e : curveOf p hp v.a v.b = Invalid.primeCurve ((v.a : Nat) : ZMod p) ((v.b : Nat) : ZMod p) := by
      rw [← eqn_obj p hp]
      change curveOf p hp v.a v.b = curveOf p hp (v.a % p) (v.b % p)
      rw [Nat.mod_eq_of_lt ha, Nat.mod_eq_of_lt hb]
    have : NeZero p := ⟨hp.ne_zero⟩
    have hfin : Finite (ZMod p) := inferInstance
    refine @full_two (ZMod p) _ hfin (instDecidableEqCarrier (Fp p hp)) ((v.a : Nat) : ZMod p) ?_ ((v.b : Nat) : ZMod p) (by rw [e2, Nat.cast_zero])
      (curveOf p hp v.a v.b) e hd G (hG.trans ho)
    rw [e1, Nat.cast_sub (by omega), ZMod.natCast_self, Nat.cast_one, zero_sub]

/-- **C85** A run of `--supersingular --unique` that ends with the status 0 has printed only curves over primes that are 1 modulo 4, whatever field was
asked for: for the others the program tries the same curve again and again. -/
theorem supersingular_unique (malloc : Nat → List Parson.Byte) (hm : ∀ n, (malloc n).length = n) (P : Pari) (hP : P.toPari.Ok)
    (n : Int) (os : List Opt) (c : Config) (h : commandLine n os = some c) (ha : c.method = METHOD_SUPERSINGULAR) (hu : c.unique = true)
    (fuel : Nat) (w : W) (hT : TapeOk P c w.tape) (hD : Deuring P c w.tape) (hstatus : (produce P c fuel w).2 = 0)
    (hs : ∀ v ∈ Json.generated (one P c fuel) (toSize c.count) w, ∀ j, Parson.outputJjson c.hexDigits v = .ok j →
      (Parson.render true 0 j).length ≤ 2147483646) :
    ∃ js : List Output.Json, (∀ j, Parson.Spec.Document (bytes malloc P c fuel w) (Parson.encode j) ↔ j = .arr js) ∧ js.length = toSize c.count ∧
      ∀ j ∈ js, ∃ v, readCurve j = some v ∧ ∃ p : Nat, v.field = .prime p ∧ p.Prime ∧ p ≤ 2 ^ c.bits ∧ p % 4 = 1 := by
  obtain ⟨js, h1, h2, h3⟩ := supersingular_run_prints malloc hm P hP n os c h ha fuel w hT hD hstatus hs
  refine ⟨js, h1, h2, fun j hj => ?_⟩
  obtain ⟨v, h4, h5⟩ := h3 j hj
  exact ⟨v, h4, unique_one c hu v h5⟩

/-- **C85** hence `ecgen --fp --supersingular --unique 2` never prints a curve: however many calls it is given, no search succeeds -/
theorem supersingular_unique_none (P : Pari) (hP : P.toPari.Ok) (n : Int) (os : List Opt) (c : Config) (h : commandLine n os = some c)
    (ha : c.method = METHOD_SUPERSINGULAR) (hu : c.unique = true) (hb : c.bits ≤ 2)
    (fuel : Nat) (w : W) (hT : TapeOk P c w.tape) (hD : Deuring P c w.tape) : (one P c fuel w).1 = none := by
  unfold one
  split
  · rename_i r st hg
    obtain ⟨-, ⟨rfl, h2⟩ | h2⟩ := search P hP c (covered n os c h (Or.inr (Or.inl ha))) hT ⟨fun h => absurd (ha ▸ h) (by decide), fun _ => hD⟩ fuel (fresh w) rfl
      (inv_low (by omega) (fun _ => rfl) (fun _ => rfl) (fun h => by omega)) r st hg
    · cases hv : outCurve st.w.st.cur with
      | none => rfl
      | some v =>
        obtain ⟨p, -, h0, h3, h4⟩ := unique_one c hu _ (supersingular_asked ha _ h2 v hv)
        have h5 : (2 : Nat) ^ c.bits ≤ 2 ^ 2 := Nat.pow_le_pow_right (by omega) hb
        have : p = 1 := by omega
        exact absurd h0 (this ▸ Nat.not_prime_one)
    · rw [if_pos h2]
  · rfl

end Ecgen.Special
