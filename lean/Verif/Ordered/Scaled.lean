import Verif.Ordered.Examples

/-!
# Isomorphic curves have isomorphic groups (C90, C110)

The substitution `x = u² x'`, `y = u³ y'` that makes the curves of a run of `--order` out of each other respects the addition of points.
-/

namespace Ecgen.Ordered

open Invalid (primeCurve)

variable {K : Type} [_root_.Field K] [DecidableEq K]

/-- a point of `y² = x³ + a x + b` gives a point of `y² = x³ + u⁴ a x + u⁶ b` -/
theorem scaled_nonsingular {u : K} (hu : u ≠ 0) (a b x y : K) (h : (primeCurve a b).Nonsingular x y) :
    (primeCurve (u ^ 4 * a) (u ^ 6 * b)).Nonsingular (u ^ 2 * x) (u ^ 3 * y) := by
  rw [WeierstrassCurve.Affine.nonsingular_iff, WeierstrassCurve.Affine.equation_iff] at h ⊢
  simp only [primeCurve, zero_mul, add_zero, mul_zero, sub_zero] at h ⊢
  obtain ⟨h1, h2⟩ := h
  refine ⟨by linear_combination u ^ 6 * h1, ?_⟩
  rcases h2 with h2 | h2
  · refine Or.inl fun e => h2 ?_
    refine mul_left_cancel₀ (pow_ne_zero 4 hu) ?_
    linear_combination e
  · refine Or.inr fun e => h2 ?_
    refine mul_left_cancel₀ (pow_ne_zero 3 hu) ?_
    linear_combination e

/-- the substitution on points -/
def scaled {u : K} (hu : u ≠ 0) (a b : K) : (primeCurve a b).Point → (primeCurve (u ^ 4 * a) (u ^ 6 * b)).Point
  | .zero => .zero
  | .some x y h => .some _ _ (scaled_nonsingular hu a b x y h)

theorem scaled_slope {u : K} (hu : u ≠ 0) (a b x₁ x₂ y₁ y₂ : K) :
    (primeCurve (u ^ 4 * a) (u ^ 6 * b)).slope (u ^ 2 * x₁) (u ^ 2 * x₂) (u ^ 3 * y₁) (u ^ 3 * y₂) = u * (primeCurve a b).slope x₁ x₂ y₁ y₂ := by
  unfold WeierstrassCurve.Affine.slope
  have e1 : (u ^ 2 * x₁ = u ^ 2 * x₂) ↔ x₁ = x₂ := mul_right_inj' (pow_ne_zero 2 hu)
  have e2 : (u ^ 3 * y₁ = (primeCurve (u ^ 4 * a) (u ^ 6 * b)).negY (u ^ 2 * x₂) (u ^ 3 * y₂)) ↔ y₁ = (primeCurve a b).negY x₂ y₂ := by
    unfold WeierstrassCurve.Affine.negY
    simp only [primeCurve, zero_mul, sub_zero]
    rw [← mul_neg, mul_right_inj' (pow_ne_zero 3 hu)]
  rw [if_congr e1 (if_congr e2 rfl rfl) rfl]
  split
  · split
    · rw [mul_zero]
    · unfold WeierstrassCurve.Affine.negY
      simp only [primeCurve, zero_mul, sub_zero, mul_zero, add_zero]
      rw [show u ^ 3 * y₁ - -(u ^ 3 * y₁) = u ^ 3 * (y₁ - -y₁) by ring, show 3 * (u ^ 2 * x₁) ^ 2 + u ^ 4 * a = u ^ 3 * (u * (3 * x₁ ^ 2 + a)) by ring,
        mul_div_mul_left _ _ (pow_ne_zero 3 hu), mul_div_assoc]
  · rw [show u ^ 3 * y₁ - u ^ 3 * y₂ = u ^ 2 * (u * (y₁ - y₂)) by ring, ← mul_sub, mul_div_mul_left _ _ (pow_ne_zero 2 hu), mul_div_assoc]

/-- the substitution respects the addition -/
theorem scaled_add {u : K} (hu : u ≠ 0) (a b : K) (P Q : (primeCurve a b).Point) : scaled hu a b (P + Q) = scaled hu a b P + scaled hu a b Q := by
  match P, Q with
  | .zero, Q => exact (congrArg (scaled hu a b) (zero_add Q)).trans (zero_add _).symm
  | .some x y h, .zero => exact (congrArg (scaled hu a b) (add_zero _)).trans (add_zero _).symm
  | .some x₁ y₁ h₁, .some x₂ y₂ h₂ =>
    have e2 : (u ^ 3 * y₁ = (primeCurve (u ^ 4 * a) (u ^ 6 * b)).negY (u ^ 2 * x₂) (u ^ 3 * y₂)) ↔ y₁ = (primeCurve a b).negY x₂ y₂ := by
      unfold WeierstrassCurve.Affine.negY
      simp only [primeCurve, zero_mul, sub_zero]
      rw [← mul_neg, mul_right_inj' (pow_ne_zero 3 hu)]
    by_cases hxy : x₁ = x₂ ∧ y₁ = (primeCurve a b).negY x₂ y₂
    · rw [WeierstrassCurve.Affine.Point.add_of_Y_eq hxy.1 hxy.2]
      exact (WeierstrassCurve.Affine.Point.add_of_Y_eq (by rw [hxy.1]) (e2.2 hxy.2)).symm
    · have hxy' : ¬ (u ^ 2 * x₁ = u ^ 2 * x₂ ∧ u ^ 3 * y₁ = (primeCurve (u ^ 4 * a) (u ^ 6 * b)).negY (u ^ 2 * x₂) (u ^ 3 * y₂)) := by
        rw [e2, mul_right_inj' (pow_ne_zero 2 hu)]
        exact hxy
      rw [WeierstrassCurve.Affine.Point.add_some hxy]
      unfold scaled
      rw [WeierstrassCurve.Affine.Point.add_some hxy', WeierstrassCurve.Affine.Point.some.injEq, scaled_slope hu]
      simp only [WeierstrassCurve.Affine.addX, WeierstrassCurve.Affine.addY, WeierstrassCurve.Affine.negAddY, WeierstrassCurve.Affine.negY, primeCurve]
      constructor <;> ring

theorem scaled_injective {u : K} (hu : u ≠ 0) (a b : K) : Function.Injective (scaled hu a b) := by
  intro P Q h
  match P, Q with
  | .zero, .zero => rfl
  | .zero, .some x y h' => cases h
  | .some x y h', .zero => cases h
  | .some x₁ y₁ h₁, .some x₂ y₂ h₂ =>
    unfold scaled at h
    rw [WeierstrassCurve.Affine.Point.some.injEq] at h ⊢
    exact ⟨mul_left_cancel₀ (pow_ne_zero 2 hu) h.1, mul_left_cancel₀ (pow_ne_zero 3 hu) h.2⟩

theorem scaled_surjective {u : K} (hu : u ≠ 0) (a b : K) : Function.Surjective (scaled hu a b) := by
  intro Q
  match Q with
  | .zero => exact ⟨.zero, rfl⟩
  | .some x y h =>
    have e : primeCurve (u⁻¹ ^ 4 * (u ^ 4 * a)) (u⁻¹ ^ 6 * (u ^ 6 * b)) = primeCurve a b := by
      rw [← mul_assoc, ← mul_assoc, ← mul_pow, ← mul_pow, inv_mul_cancel₀ hu, one_pow, one_pow, one_mul, one_mul]
    have h' := scaled_nonsingular (inv_ne_zero hu) _ _ _ _ h
    rw [e] at h'
    refine ⟨.some _ _ h', ?_⟩
    unfold scaled
    rw [WeierstrassCurve.Affine.Point.some.injEq, ← mul_assoc, ← mul_assoc, ← mul_pow, ← mul_pow, mul_inv_cancel₀ hu, one_pow, one_pow, one_mul, one_mul]
    exact ⟨rfl, rfl⟩

/-- the groups are isomorphic -/
noncomputable def scaledEquiv {u : K} (hu : u ≠ 0) (a b : K) : (primeCurve a b).Point ≃+ (primeCurve (u ^ 4 * a) (u ^ 6 * b)).Point :=
  { Equiv.ofBijective (scaled hu a b) ⟨scaled_injective hu a b, scaled_surjective hu a b⟩ with map_add' := scaled_add hu a b }

theorem groups (W W' : WeierstrassCurve.Affine K) (a b u : K) (hu : u ≠ 0) (h : W = primeCurve a b) (h' : W' = primeCurve (u ^ 4 * a) (u ^ 6 * b)) :
    Nonempty (W.Point ≃+ W'.Point) := by
  subst h
  subst h'
  exact ⟨scaledEquiv hu a b⟩

/-! ## All runs for an order find the same curve -/

section

open Whole Output Output.Spec Cli Cm.Construct
open Seeded (Fp curveOf)
open Special (obj eqn_obj card_obj)

variable {P : Pari}

/-- curves that are made out of each other have isomorphic groups -/
theorem isomorphic_groups (p : Nat) (hp : p.Prime) (v v' : CurveV) (h : Isomorphic p v v') :
    Nonempty ((curveOf p hp v.a v.b).Point ≃+ (curveOf p hp v'.a v'.b).Point) := by
  obtain ⟨u, hu, h1, h2⟩ := h
  exact groups (K := Carrier (Fp p hp)) (curveOf p hp v.a v.b) (curveOf p hp v'.a v'.b) (elem (Fp p hp) v.a) (elem (Fp p hp) v.b) u hu rfl
    (show primeCurve (K := Carrier (Fp p hp)) (elem (Fp p hp) v'.a) (elem (Fp p hp) v'.b) = _ from congrArg₂ primeCurve h1 h2)

/-- what is printed was built -/
theorem printed_built (hP : P.Ok) (ns : List Nat) (h50 : 50 ≤ ns.prod) (h3 : ns.prod % 3 = 2)
    (n : Int) (os : List Opt) (c : Config) (h : commandLine n os = some c) (ha : c.method = METHOD_CM) (hf : ∀ s, Opt.order s ∈ os → Factors s ns)
    (fuel : Nat) (w : W) (hT : ∀ N prime, accepted P c = some (N, prime) → TapeOk P c prime N w.tape) (hC : Calls.Ok P w.tape)
    (hd : ¬ (ns.length = 1 ∧ ns.prod.Prime) → Decided P ns.prod w.tape) (v : Output.Curve) (hv : v ∈ Json.objects (produce P c fuel w).1) :
    ∃ prime, (prime = true ↔ ns.length = 1 ∧ ns.prod.Prime) ∧ Right P prime ns.prod w.tape ∧
      ∃ i r, built P (w.tape i) prime ns.prod = some r ∧ r.p.Prime ∧ (curveV v).field = .prime r.p ∧ (curveV v).a = r.a.val ∧ (curveV v).b = r.b.val ∧
        OrderedAsked c ns (curveV v) := by
  have hF := typed n os c h ha ns hf
  unfold produce at hv
  split at hv
  · cases hv
  · rename_i q hacc
    obtain ⟨N, prime⟩ := q
    rw [(Json.generate_objects _ _ _).1] at hv
    obtain ⟨x, hx, hxv⟩ := generated_complete P hP c ha hacc w.tape (hT N prime hacc) fuel _ w rfl v hv
    obtain ⟨rfl, -, -, h6⟩ := accepted_factors hP ns hF hacc
    have hR : Right P prime ns.prod w.tape := right hP hC h50 (fun e => (h6.1 e).2) (fun i r hb => by
      obtain ⟨-, -, u, hu⟩ := built_found hP hC hb
      exact disc_ne _ _ _ u h3 hu) fun e => hd fun k => by
        rw [h6.2 k] at e
        cases e
    obtain ⟨-, -, i, r, hb, hp, h4, h5, h6', -⟩ := curve_sound x hx v hxv
    exact ⟨prime, h6, hR, i, r, hb, hp, h4, h5, h6', ordered_asked hP ns hF hacc x hx v hxv fun i r hb _ => hR i r hb⟩

/-- **C110** Whatever two runs of `--order` do, with whatever options: for an odd order of at least 50 that leaves the remainder 2 modulo 3 the curves they
print are over the same field, can be made out of each other, and have isomorphic groups. (Partial as C88 and C90.) -/
theorem order_runs_agree_partial (P : Pari) (hP : P.Ok) (ns : List Nat) (h50 : 50 ≤ ns.prod) (h3 : ns.prod % 3 = 2) (hodd : ns.prod % 2 = 1)
    (n : Int) (os : List Opt) (c : Config) (h : commandLine n os = some c) (ha : c.method = METHOD_CM) (hf : ∀ s, Opt.order s ∈ os → Factors s ns)
    (n' : Int) (os' : List Opt) (c' : Config) (h' : commandLine n' os' = some c') (ha' : c'.method = METHOD_CM) (hf' : ∀ s, Opt.order s ∈ os' → Factors s ns)
    (fuel : Nat) (w : W) (hT : ∀ N prime, accepted P c = some (N, prime) → TapeOk P c prime N w.tape) (hC : Calls.Ok P w.tape)
    (hd : ¬ (ns.length = 1 ∧ ns.prod.Prime) → Decided P ns.prod w.tape)
    (fuel' : Nat) (w' : W) (hT' : ∀ N prime, accepted P c' = some (N, prime) → TapeOk P c' prime N w'.tape) (hC' : Calls.Ok P w'.tape)
    (hd' : ¬ (ns.length = 1 ∧ ns.prod.Prime) → Decided P ns.prod w'.tape)
    (v v' : Output.Curve) (hv : v ∈ Json.objects (produce P c fuel w).1) (hv' : v' ∈ Json.objects (produce P c' fuel' w').1) :
    ∃ (p : Nat) (hp : p.Prime), (curveV v).field = .prime p ∧ (curveV v').field = .prime p ∧ Isomorphic p (curveV v) (curveV v') ∧
      Nat.card (curveOf p hp (curveV v).a (curveV v).b).Point = ns.prod ∧
      Nonempty ((curveOf p hp (curveV v).a (curveV v).b).Point ≃+ (curveOf p hp (curveV v').a (curveV v').b).Point) := by
  obtain ⟨prime, e1, hR, i, r, hb, hp, f1, f2, f3, hA⟩ := printed_built hP ns h50 h3 n os c h ha hf fuel w hT hC hd v hv
  obtain ⟨prime', e1', hR', i', r', hb', -, f1', f2', f3', -⟩ := printed_built hP ns h50 h3 n' os' c' h' ha' hf' fuel' w' hT' hC' hd' v' hv'
  have e : prime' = prime := by rw [Bool.eq_iff_iff, e1, e1']
  subst e
  let T : Nat → Pick := fun k => if k = 0 then w.tape i else w'.tape i'
  have hCT : Calls.Ok P T :=
    { cornacchia2 := hC.cornacchia2, traces := hC.traces, roots := hC.roots
      twist := fun k => by
        by_cases hk : k = 0
        · simpa only [T, if_pos hk] using hC.twist i
        · simpa only [T, if_neg hk] using hC'.twist i'
      rand := fun k => by
        by_cases hk : k = 0
        · simpa only [T, if_pos hk] using hC.rand i
        · simpa only [T, if_neg hk] using hC'.rand i'
      rands := fun k => by
        by_cases hk : k = 0
        · simpa only [T, if_pos hk] using hC.rands i
        · simpa only [T, if_neg hk] using hC'.rands i' }
  have hRT : Right P prime' ns.prod T := by
    intro k
    by_cases hk : k = 0
    · simpa only [T, if_pos hk] using hR i
    · simpa only [T, if_neg hk] using hR' i'
  obtain ⟨ep, hiso⟩ := isomorphic hCT hodd hRT (fun k r hb => by
    have := (interval ns.prod r.p h50 (hRT k r hb).2).1
    omega) (i := 0) (i' := 1) hb hb' (curveV v) (curveV v') f2 f3 f2' f3'
  refine ⟨r.p, hp, f1, by rw [f1', ep], hiso, ?_, isomorphic_groups r.p hp _ _ hiso⟩
  obtain ⟨-, p, hp', ⟨g1, -, -, -, g2, -⟩, g3, -⟩ := hA
  rw [f1] at g1
  cases g1
  rw [← g2, g3]

/-- **C110** With `--unique`: when a run prints a curve, the groups of all curves that any run for this order prints are cyclic, with or without
`--unique`. In other words, when a run prints a curve whose group is not cyclic, no run for this order with `--unique` prints a curve. -/
theorem order_unique_partial (P : Pari) (hP : P.Ok) (ns : List Nat) (h50 : 50 ≤ ns.prod) (h3 : ns.prod % 3 = 2) (hodd : ns.prod % 2 = 1)
    (n : Int) (os : List Opt) (c : Config) (h : commandLine n os = some c) (ha : c.method = METHOD_CM) (hf : ∀ s, Opt.order s ∈ os → Factors s ns)
    (n' : Int) (os' : List Opt) (c' : Config) (h' : commandLine n' os' = some c') (ha' : c'.method = METHOD_CM) (hf' : ∀ s, Opt.order s ∈ os' → Factors s ns)
    (hu : c.unique = true)
    (fuel : Nat) (w : W) (hT : ∀ N prime, accepted P c = some (N, prime) → TapeOk P c prime N w.tape) (hC : Calls.Ok P w.tape)
    (hd : ¬ (ns.length = 1 ∧ ns.prod.Prime) → Decided P ns.prod w.tape)
    (fuel' : Nat) (w' : W) (hT' : ∀ N prime, accepted P c' = some (N, prime) → TapeOk P c' prime N w'.tape) (hC' : Calls.Ok P w'.tape)
    (hd' : ¬ (ns.length = 1 ∧ ns.prod.Prime) → Decided P ns.prod w'.tape)
    (v v' : Output.Curve) (hv : v ∈ Json.objects (produce P c fuel w).1) (hv' : v' ∈ Json.objects (produce P c' fuel' w').1) :
    ∃ (p : Nat) (hp : p.Prime), (curveV v').field = .prime p ∧ IsAddCyclic (curveOf p hp (curveV v').a (curveV v').b).Point := by
  obtain ⟨p, hp, e1, e2, -, e3, ⟨E⟩⟩ := order_runs_agree_partial P hP ns h50 h3 hodd n os c h ha hf n' os' c' h' ha' hf' fuel w hT hC hd fuel' w' hT' hC' hd' v v' hv hv'
  obtain ⟨-, -, -, i, r, hb, hp', f1, f2, f3, -, q, hq, ⟨g1, -, -, -, g2, gs, -, g3, g4, -⟩, g5, -⟩ := printed_built hP ns h50 h3 n os c h ha hf fuel w hT hC hd v hv
  rw [e1] at g1
  cases g1
  refine ⟨p, hp, e2, ?_⟩
  have hG : ∃ G : (curveOf p hp (curveV v).a (curveV v).b).Point, addOrderOf G = Nat.card (curveOf p hp (curveV v).a (curveV v).b).Point := by
    rcases g4 hu with ⟨h1, -⟩ | ⟨G, -, hG⟩
    · omega
    · exact ⟨G, by rw [hG, g2]⟩
  obtain ⟨G, hG⟩ := hG
  have : Finite (curveOf p hp (curveV v).a (curveV v).b).Point := Nat.finite_of_card_ne_zero (by omega)
  have : IsAddCyclic (curveOf p hp (curveV v).a (curveV v).b).Point := isAddCyclic_of_addOrderOf_eq_card G hG
  exact isAddCyclic_of_surjective E E.surjective

end

end Ecgen.Ordered
