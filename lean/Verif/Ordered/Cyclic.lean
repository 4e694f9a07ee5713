import Verif.Ordered.Scaled

/-!
# The order 125 (C110)

`--order=125` finds the discriminant -19 and the curve `y² = x³ + 90 x + 6` over the field of 131 elements. Its group has 125 elements and is not cyclic.
With `--unique` the search for this order never finds anything.
-/

namespace Ecgen.Ordered

open Whole Output Output.Spec Cli Cm.Construct
open Seeded (Fp curveOf)
open Special (obj eqn_obj card_obj)
open Invalid (primeCurve coords)

/-! ## The group -/

open AddSubgroup in
/-- a group of 125 elements with an element of order 25 and another one of order 5 outside of what it generates -/
theorem gens_125 {A : Type} [AddCommGroup A] [Finite A] (hc : Nat.card A = 125) (g h : A) (hg : addOrderOf g = 25) (hh : addOrderOf h = 5)
    (hout : h ∉ zmultiples g) : Group.GensSpec A [g, h] ∧ ¬ IsAddCyclic A := by
  have h5 : (5 : ℤ) • h = 0 := by
    have := addOrderOf_nsmul_eq_zero h
    rw [hh] at this
    exact_mod_cast this
  have hdis : Disjoint (zmultiples g) (zmultiples h) := by
    rw [AddSubgroup.disjoint_def]
    intro x hx1 hx2
    obtain ⟨k, hk⟩ := mem_zmultiples_iff.1 hx2
    by_cases hk5 : (5 : ℤ) ∣ k
    · obtain ⟨m, rfl⟩ := hk5
      rw [← hk, mul_comm, mul_smul, h5, smul_zero]
    · exfalso
      have hcop : IsCoprime (5 : ℤ) k := (Int.isCoprime_iff_gcd_eq_one).2 (by
        have : Nat.Coprime 5 k.natAbs := (Nat.Prime.coprime_iff_not_dvd (by norm_num)).2 (fun h => hk5 (by omega))
        exact this)
      obtain ⟨a, b, hab⟩ := hcop
      apply hout
      have : h = b • x := by
        rw [← hk, ← mul_smul]
        calc h = (1 : ℤ) • h := (one_smul _ _).symm
          _ = (a * 5 + b * k) • h := by rw [hab]
          _ = (b * k) • h := by rw [add_smul, mul_smul a, h5, smul_zero, zero_add]
      rw [this]
      exact zsmul_mem hx1 b
  have hall : ∀ x : A, ∃ a b : ℤ, x = a • g + b • h := by
    intro x
    let f : zmultiples g × zmultiples h → A := fun a => a.1.1 + a.2.1
    have hinj : Function.Injective f := by
      rintro ⟨a, b⟩ ⟨a', b'⟩ h
      have h' : a.1 + b.1 = a'.1 + b'.1 := h
      have e : a.1 - a'.1 = b'.1 - b.1 := by
        rw [sub_eq_sub_iff_add_eq_add, h', add_comm]
      have h0 : a.1 - a'.1 = 0 := AddSubgroup.disjoint_def.1 hdis (sub_mem a.2 a'.2) (e ▸ sub_mem b'.2 b.2)
      rw [h0] at e
      exact Prod.ext (Subtype.ext (sub_eq_zero.1 h0)) (Subtype.ext (sub_eq_zero.1 e.symm).symm)
    have hbij := hinj.bijective_of_nat_card_le (by rw [Nat.card_prod, Nat.card_zmultiples, Nat.card_zmultiples, hg, hh, hc])
    obtain ⟨⟨⟨a, ha⟩, ⟨b, hb⟩⟩, hab⟩ := hbij.2 x
    obtain ⟨m, rfl⟩ := mem_zmultiples_iff.1 ha
    obtain ⟨n, rfl⟩ := mem_zmultiples_iff.1 hb
    exact ⟨m, n, hab.symm⟩
  refine ⟨⟨?_, by rw [hg, hh]; decide, hdis, hall⟩, fun hcy => ?_⟩
  · rintro rfl
    rw [addOrderOf_zero] at hh
    cases hh
  · obtain ⟨x, hx⟩ := hcy.exists_zsmul_surjective
    have ho : addOrderOf x = 125 := by
      rw [← hc]
      exact addOrderOf_eq_card_of_forall_mem_zmultiples fun y => by
        obtain ⟨k, hk⟩ := hx y
        exact mem_zmultiples_iff.2 ⟨k, hk⟩
    have h25 : 25 • x = 0 := by
      obtain ⟨a, b, rfl⟩ := hall x
      have e1 : (25 : ℤ) • g = 0 := by
        have := addOrderOf_nsmul_eq_zero g
        rw [hg] at this
        exact_mod_cast this
      have : (25 : ℤ) • (a • g + b • h) = 0 := by
        rw [smul_add, ← mul_smul, ← mul_smul, mul_comm 25 a, mul_smul, e1, smul_zero, show 25 * b = (b * 5) * 5 by ring, mul_smul, h5, smul_zero, add_zero]
      exact_mod_cast this
    have := addOrderOf_dvd_of_nsmul_eq_zero h25
    rw [ho] at this
    exact absurd this (by decide)

theorem p131 : Nat.Prime 131 := by norm_num
local instance fact131 : Fact (Nat.Prime 131) := ⟨p131⟩

/-- the group in question: the order, generators, and it is not cyclic -/
theorem group_131 : Nat.card (primeCurve (90 : ZMod 131) 6).Point = 125 ∧ (∃ l, Group.GensSpec (primeCurve (90 : ZMod 131) 6).Point l) ∧
    ¬ IsAddCyclic (primeCurve (90 : ZMod 131) 6).Point := by
  have h2 : (2 : ZMod 131) ≠ 0 := by decide +kernel
  have hreg : Regular ((90 : ZMod 131), (6 : ZMod 131)) := by decide +kernel
  have hcard : Nat.card (primeCurve (90 : ZMod 131) 6).Point = 125 := by
    rw [natCard_point h2 90 6 hreg]
    decide +kernel
  have : Finite (primeCurve (90 : ZMod 131) 6).Point := Nat.finite_of_card_ne_zero (by rw [hcard]; decide)
  obtain ⟨g, hg, hg0⟩ := exists_point h2 90 6 hreg 3 33 (by decide +kernel)
  obtain ⟨h, hh, hh0⟩ := exists_point h2 90 6 hreg 2 60 (by decide +kernel)
  have e25 : 25 • g = 0 := by
    rw [← coords_none, ← ellmul_coords, hg]
    decide +kernel
  have e5 : 5 • g ≠ 0 := by
    rw [Ne, ← coords_none, ← ellmul_coords, hg]
    decide +kernel
  have e5' : 5 • h = 0 := by
    rw [← coords_none, ← ellmul_coords, hh]
    decide +kernel
  have : Fact (Nat.Prime 5) := ⟨by norm_num⟩
  have og : addOrderOf g = 25 := addOrderOf_eq_prime_pow (p := 5) (n := 1) (by simpa using e5) (by simpa using e25)
  have oh : addOrderOf h = 5 := addOrderOf_eq_prime e5' hh0
  have hout : h ∉ AddSubgroup.zmultiples g := by
    intro hm
    rw [mem_zmultiples_iff_mem_range_addOrderOf, og, Finset.mem_image] at hm
    obtain ⟨k, hk, e⟩ := hm
    have e' : ellmul (90 : ZMod 131) k (some (3, 33)) = some (2, 60) := by
      rw [← hg, ellmul_coords, ← hh]
      exact congrArg coords e
    have key : ∀ k ∈ Finset.range 25, ellmul (90 : ZMod 131) k (some (3, 33)) ≠ some (2, 60) := by decide +kernel
    exact key k hk e'
  obtain ⟨h1, h2⟩ := gens_125 hcard g h og oh hout
  exact ⟨hcard, ⟨_, h1⟩, h2⟩

theorem group_any (inst : DecidableEq (ZMod 131)) :
    letI : AddCommGroup (primeCurve (90 : ZMod 131) 6).Point := @WeierstrassCurve.Affine.Point.instAddCommGroup _ _ _ inst
    Nat.card (primeCurve (90 : ZMod 131) 6).Point = 125 ∧ (∃ l, Group.GensSpec (primeCurve (90 : ZMod 131) 6).Point l) ∧
    ¬ IsAddCyclic (primeCurve (90 : ZMod 131) 6).Point := by
  obtain rfl : inst = ZMod.decidableEq 131 := Subsingleton.elim _ _
  exact group_131

/-! ## The run -/

/-- `--fp --order=125 8` -/
def cN : Config := (commandLine 3 [.fp, .order "125".toList, .arg "8".toList]).get (by decide +kernel)

theorem cN_some : commandLine 3 [.fp, .order "125".toList, .arg "8".toList] = some cN := (Option.some_get _).symm

theorem cN_method : cN.method = METHOD_CM := by decide +kernel

/-- `--fp --unique --order=125 8` -/
def cU : Config := (commandLine 4 [.fp, .unique, .order "125".toList, .arg "8".toList]).get (by decide +kernel)

theorem cU_some : commandLine 4 [.fp, .unique, .order "125".toList, .arg "8".toList] = some cU := (Option.some_get _).symm

theorem cU_method : cU.method = METHOD_CM := by decide +kernel

/-- PARI for the order 125: `5² + 19 · 5² = 4 · 125` -/
noncomputable def pariN : Pari :=
  { pari (fun _ _ => none) (oneRoot (-19) 131 38) with traces := fun D n => if D = -19 ∧ n = 125 then [-5] else [] }

theorem pariN_ok : pariN.Ok where
  base := Whole.pari_ok
  strtoi _ := Nat.ofDigitChars_ten_toDigits

theorem pariN_prime : pariN.isprimeI = exactPrime := by
  funext n
  exact Bool.eq_iff_iff.2 ((isprimeI_spec pariN_ok n).trans (exactPrime_spec n).symm)

/-- every call: the random point (3, 33) of the curve, and (1, 4) of the twist -/
noncomputable def pickN : Pick :=
  { pick 2 131 (90, 6) (3, 33) 18 with
    rands := fun p e => if p = 131 ∧ e = (((90 : Int) : ZMod p), ((6 : Int) : ZMod p)) then
      [(some (((3 : Int) : ZMod p), ((33 : Int) : ZMod p)), some (((1 : Int) : ZMod p), ((4 : Int) : ZMod p)))] else [] }

theorem pickN_T : pickN.T 131 = 2 :=
  someCalls_T_eq (fun _ _ => []) (fun p => ((2 : Int) : ZMod p)) (fun _ _ => []) 131 (by decide +kernel)

theorem accN : accepted pariN cN = some (125, false) := by
  unfold accepted
  rw [Option.join_eq_some_iff, order_accepted, pariN_prime]
  decide +kernel

theorem accU : accepted pariN cU = some (125, false) := by
  unfold accepted
  rw [Option.join_eq_some_iff, order_accepted, pariN_prime]
  decide +kernel

theorem rootsN : RootsSpec (oneRoot (-19) 131 38) := by
  refine oneRoot_spec 7 ?_ ?_
  · intro s v h
    have hv : v ^ 2 < 6 ^ 2 := by push_cast at h; nlinarith [sq_nonneg s]
    have hv' := abs_lt_of_sq_lt_sq hv (by norm_num)
    have hs : s ^ 2 < 23 ^ 2 := by push_cast at h; nlinarith [sq_nonneg v]
    have hs' := abs_lt_of_sq_lt_sq hs (by norm_num)
    rw [abs_lt] at hv' hs'
    obtain ⟨v1, v2⟩ := hv'
    obtain ⟨s1, s2⟩ := hs'
    push_cast at h
    have key : ∀ v ∈ Finset.Ioo (-6 : Int) 6, ∀ s ∈ Finset.Ioo (-23 : Int) 23, 4 * 131 = s ^ 2 + 19 * v ^ 2 → s = 7 ∨ s = -7 := by
      decide +kernel
    exact key v (Finset.mem_Ioo.2 ⟨v1, v2⟩) s (Finset.mem_Ioo.2 ⟨s1, s2⟩) (by linarith)
  · have e1 : fromJ ((38 : Int) : ZMod 131) = (90, 6) := by decide +kernel
    have e2 : Count.card (90 : ZMod 131) 6 = 125 := by decide +kernel
    intro _
    rw [e1, e2]
    norm_num

theorem builtN : built pariN pickN false 125 = some ⟨-19, 131, 90, 6⟩ := by
  unfold built cmGenAny
  rw [if_neg (by decide), pariN_prime]
  have h1 : qdiscMinimal exactPrime pariN.issquarefree pariN.traces 125 pickN.rounds 2 = some (-19, 131) := by
    change qdiscMinimal exactPrime (fun _ => true) (fun D n => if D = -19 ∧ n = 125 then [-5] else []) 125 18 2 = some (-19, 131)
    decide +kernel
  rw [h1]
  have hp' : Nat.Prime (Int.toNat 131) := p131
  simp only [hp', dite_true]
  change ((constructAny 125 131 (pickN.T 131) (pickN.rands 131) (oneRoot (-19) 131 38 (-19) 131)).map fun r => r.map fun e => (⟨-19, 131, e.1, e.2⟩ : Result)).join = _
  have h2 : oneRoot (-19) 131 38 (-19) 131 = [(38 : ZMod 131)] := by
    unfold oneRoot
    rw [if_pos ⟨rfl, rfl⟩]
    rfl
  have h3 : fromJ (38 : ZMod 131) = (90, 6) := by decide +kernel
  have h4 : pickN.rands 131 (90, 6) = [(some ((3 : ZMod 131), (33 : ZMod 131)), some ((1 : ZMod 131), (4 : ZMod 131)))] := by
    simp only [pickN]
    rw [if_pos ⟨trivial, by decide +kernel⟩]
    rfl
  unfold constructAny
  rw [h2, pickN_T, List.find?_cons_of_pos (by rw [h3]; decide +kernel)]
  simp only [h3, h4]
  have h5 : chooseAny (125 / Nat.gcd 125 (2 * 131 + 2 - 125)) ((2 * 131 + 2 - 125) / Nat.gcd 125 (2 * 131 + 2 - 125)) (2 : ZMod 131) (90, 6)
      [(some ((3 : ZMod 131), (33 : ZMod 131)), some ((1 : ZMod 131), (4 : ZMod 131)))] = some (90, 6) := by decide +kernel
  rw [h5]
  rfl

theorem on_curve : ((33 : Int) : ZMod 131) ^ 2 = ((3 : Int) : ZMod 131) ^ 3 + (((90 : Int) : ZMod 131), ((6 : Int) : ZMod 131)).1 * ((3 : Int) : ZMod 131) +
    (((90 : Int) : ZMod 131), ((6 : Int) : ZMod 131)).2 := by decide +kernel

theorem on_twist : ((4 : Int) : ZMod 131) ^ 2 = ((1 : Int) : ZMod 131) ^ 3 + (twist (2 : ZMod 131) (((90 : Int) : ZMod 131), ((6 : Int) : ZMod 131))).1 * ((1 : Int) : ZMod 131) +
    (twist (2 : ZMod 131) (((90 : Int) : ZMod 131), ((6 : Int) : ZMod 131))).2 := by decide +kernel

theorem other_mul : ellmul ((90 : Int) : ZMod 131) ((2 * 131 + 2 - 125) / Nat.gcd 125 (2 * 131 + 2 - 125)) (some (((1 : Int) : ZMod 131), ((4 : Int) : ZMod 131))) ≠ none ∧
    ellmul ((90 : Int) : ZMod 131) (125 / Nat.gcd 125 (2 * 131 + 2 - 125)) (some (((1 : Int) : ZMod 131), ((4 : Int) : ZMod 131))) ≠ none := by
  decide +kernel

theorem callsN : Calls.Ok pariN fun _ => pickN where
  cornacchia2 N D t s h := (nomatch h)
  traces D n t ht := by
    simp only [pariN] at ht
    split at ht
    · rename_i h
      obtain ⟨rfl, rfl⟩ := h
      rw [List.mem_singleton] at ht
      subst ht
      exact ⟨5, by norm_num⟩
    · cases ht
  roots := rootsN
  twist _ := someCalls_T (fun _ _ => []) (fun p => ((2 : Int) : ZMod p)) fun _ _ => []
  rand _ := pick_rand 2 131 (90, 6) (3, 33) 18 (by
    have h : ((33 : Int) : ZMod 131) ^ 2 = ((3 : Int) : ZMod 131) ^ 3 + ((90 : Int) : ZMod 131) * ((3 : Int) : ZMod 131) + ((6 : Int) : ZMod 131) := by decide +kernel
    exact fun _ => h)
  rands _ p hp e q hq := by
    change q ∈ pickN.rands p e at hq
    change _ ∧ On (twist (pickN.T p) e) q.2
    simp only [pickN] at hq
    split at hq
    · rename_i h
      obtain ⟨rfl, rfl⟩ := h
      rw [List.mem_singleton] at hq
      subst hq
      rw [pickN_T]
      exact ⟨⟨_, _, rfl, on_curve⟩, ⟨_, _, rfl, on_twist⟩⟩
    · cases hq

theorem decidedN : Decided pariN 125 fun _ => pickN := by
  intro i r hb
  rw [builtN] at hb
  cases hb
  refine ⟨by decide +kernel, fun _ e q hq => ?_⟩
  simp only [pickN] at hq
  split at hq
  · rename_i h
    obtain ⟨-, rfl⟩ := h
    rw [List.mem_singleton] at hq
    subst hq
    exact other_mul
  · cases hq

theorem deltaN : (obj 131 p131 (90 : ZMod 131).val (6 : ZMod 131).val).eqn.Δ ≠ 0 := by
  rw [Ne, Special.disc_iff]
  decide +kernel

theorem gensN : ∃ l, Group.GensSpec (obj 131 p131 (90 : ZMod 131).val (6 : ZMod 131).val).Pt l := by
  exact (group_any (Classical.decEq _)).2.1

theorem tapeN (c : Config) : TapeOk pariN c false 125 fun _ => pickN := by
  refine ⟨fun _ => ?_, fun i j r hp hb' hd' => ?_⟩
  · have := pick_behaves c 2 131 (90, 6) (3, 33) 18
    exact ⟨this.cut, this.fail, this.which, this.mul, this.info, this.verdict⟩
  · rw [builtN] at hb'
    cases hb'
    exact gensBy_spec _ gensN

/-- `--order=125` prints a curve -/
theorem printedN : ∃ v, v ∈ Json.objects (produce pariN cN 9 ⟨{}, fun _ => pickN, 0, false⟩).1 := by
  have hf : Fine pariN cN false 125 fun _ => pickN := by
    intro i r hp hb hd
    refine ⟨fun h => absurd h (by decide +kernel), fun h => ?_⟩
    rcases h with h | h
    · exact absurd h (by decide +kernel)
    · exact absurd h (by decide +kernel)
  obtain ⟨st, hst⟩ := order_search_ends pariN pariN_ok cN cN_method accN ⟨{}, fun _ => pickN, 0, false⟩ (tapeN cN) callsN hf
    ⟨fun _ => rfl, fun _ _ => rfl, fun _ => rfl⟩ (fun _ => ⟨_, builtN, p131, deltaN⟩) (fun h => absurd h (by decide +kernel))
  obtain h0 | ⟨v, hv⟩ := order_found_is_printed_partial pariN pariN_ok cN cN_method accN (Or.inl (by decide +kernel)) 9 _ (tapeN cN) 1 st hst
  · cases h0
  · refine ⟨v, ?_⟩
    simp only [produce, accN]
    rw [(Json.generate_objects _ _ _).1, show toSize cN.count = 1 by decide +kernel]
    simp only [Json.generated, hv, List.mem_singleton]

theorem factors_125 (s : List Char) (h : s = "125".toList) : Factors s [125] := by
  subst h
  exact ⟨by simp, by decide +kernel⟩

/-- the conditions of C110 are met: `--order=125` prints a curve with 125 points over the field of 131 elements whose group is not cyclic -/
theorem order_125_met : commandLine 3 [.fp, .order "125".toList, .arg "8".toList] = some cN ∧ cN.method = METHOD_CM ∧
    (∀ s, Opt.order s ∈ [Opt.fp, .order "125".toList, .arg "8".toList] → Factors s [125]) ∧ 50 ≤ [125].prod ∧ [125].prod % 3 = 2 ∧ [125].prod % 2 = 1 ∧ pariN.Ok ∧
    (∀ N prime, accepted pariN cN = some (N, prime) → TapeOk pariN cN prime N fun _ => pickN) ∧ Calls.Ok pariN (fun _ => pickN) ∧ Decided pariN 125 (fun _ => pickN) ∧
    ∃ v ∈ Json.objects (produce pariN cN 9 ⟨{}, fun _ => pickN, 0, false⟩).1, (curveV v).field = .prime 131 ∧ (curveV v).a = 90 ∧ (curveV v).b = 6 ∧
      Nat.card (curveOf 131 p131 90 6).Point = 125 ∧ ¬ IsAddCyclic (curveOf 131 p131 90 6).Point := by
  have hfac : ∀ s, Opt.order s ∈ [Opt.fp, .order "125".toList, .arg "8".toList] → Factors s [125] := by
    intro s hs
    simp only [List.mem_cons, List.not_mem_nil, or_false, reduceCtorEq, false_or, Opt.order.injEq] at hs
    exact factors_125 s hs
  have hT : ∀ N prime, accepted pariN cN = some (N, prime) → TapeOk pariN cN prime N fun _ => pickN := fun N prime h => by
    rw [accN] at h
    cases h
    exact tapeN cN
  obtain ⟨v, hv⟩ := printedN
  obtain ⟨prime, e1, -, i, r, hb, -, f1, f2, f3, -⟩ := printed_built pariN_ok [125] (by decide) (by decide) 3 _ cN cN_some cN_method hfac 9
    ⟨{}, fun _ => pickN, 0, false⟩ hT callsN (fun _ => decidedN) v hv
  have : prime = false := by
    rw [← Bool.not_eq_true, e1]
    rintro ⟨-, h⟩
    exact absurd h (by norm_num)
  subst this
  have hb' : built pariN pickN false 125 = some r := hb
  rw [builtN] at hb'
  cases hb'
  exact ⟨cN_some, cN_method, hfac, by decide, by decide, by decide, pariN_ok, hT, callsN, decidedN, v, hv, f1, f2, f3,
    (group_any (Classical.decEq _)).1, (group_any (Classical.decEq _)).2.2⟩

/-- **C110** no run of `--order=125` with `--unique` prints a curve, whatever the other options, the random points and the twists are -/
theorem order_125_unique (n : Int) (os : List Opt) (c : Config) (h : commandLine n os = some c) (ha : c.method = METHOD_CM)
    (hf : ∀ s, Opt.order s ∈ os → Factors s [125]) (hu : c.unique = true) (fuel : Nat) (w : W)
    (hT : ∀ N prime, accepted pariN c = some (N, prime) → TapeOk pariN c prime N w.tape) (hC : Calls.Ok pariN w.tape) (hd : Decided pariN 125 w.tape) :
    Json.objects (produce pariN c fuel w).1 = [] := by
  rw [List.eq_nil_iff_forall_not_mem]
  intro v hv
  obtain ⟨h1, h2, h3, h4, h5, h6, h7, h8, h9, h10, v', hv', g1, g2, g3, -, g4⟩ := order_125_met
  obtain ⟨p, hp, e1, e2⟩ := order_unique_partial pariN pariN_ok [125] h4 h5 h6 n os c h ha hf 3 _ cN h1 h2 h3 hu fuel w hT hC (fun _ => hd)
    9 ⟨{}, fun _ => pickN, 0, false⟩ h8 h9 (fun _ => h10) v v' hv hv'
  rw [g1] at e1
  cases e1
  rw [g2, g3] at e2
  exact g4 e2

/-- such a run: `--unique --order=125` with the same answers -/
theorem order_125_unique_met : commandLine 4 [.fp, .unique, .order "125".toList, .arg "8".toList] = some cU ∧ cU.method = METHOD_CM ∧
    (∀ s, Opt.order s ∈ [Opt.fp, .unique, .order "125".toList, .arg "8".toList] → Factors s [125]) ∧ cU.unique = true ∧
    accepted pariN cU = some (125, false) ∧ TapeOk pariN cU false 125 (fun _ => pickN) ∧ Calls.Ok pariN (fun _ => pickN) ∧ Decided pariN 125 (fun _ => pickN) := by
  refine ⟨cU_some, cU_method, ?_, by decide +kernel, accU, tapeN cU, callsN, decidedN⟩
  intro s hs
  simp only [List.mem_cons, List.not_mem_nil, or_false, reduceCtorEq, false_or, Opt.order.injEq] at hs
  exact factors_125 s hs

end Ecgen.Ordered
