import Verif.Ordered.Short
import Verif.Ordered.Defined
import Verif.Ordered.Same
import Verif.Special.Examples

/-!
# Runs of `--order` (C88, C89, C90)

`--order=71` with 7 bits finds the discriminant -115, the field of 59 elements and a curve with 71 points, the twist of one with 49. `--order=61` finds
the discriminant -3, the field of 61 elements and the curve `y² = x³ + 8`, which has 76 points, not 61.
-/

namespace Ecgen.Ordered

open Whole Output Output.Spec Cli Cm.Construct
open Seeded (Fp)
open Special (obj eqn_obj card_obj)

/-! ## Groups -/

open AddSubgroup in
/-- a group of `4 q` elements with two elements of order 2 has two generators, of the orders `2 q` and 2 -/
theorem gens_four {A : Type} [AddCommGroup A] [Finite A] (q : Nat) (hq : q.Prime) (hodd : q % 2 = 1) (hc : Nat.card A = 4 * q) (t u : A)
    (ht : addOrderOf t = 2) (hu : addOrderOf u = 2) (hne : t ≠ u) : ∃ g, Group.GensSpec A [g, u] := by
  have : Fact q.Prime := ⟨hq⟩
  obtain ⟨y, hy⟩ := exists_prime_addOrderOf_dvd_card' (G := A) q (by rw [hc]; exact Dvd.intro_left _ rfl)
  have hcop : Nat.Coprime (addOrderOf y) (addOrderOf t) := by
    rw [hy, ht]
    exact (Nat.coprime_primes hq Nat.prime_two).2 (by rintro rfl; omega)
  have hg : addOrderOf (y + t) = q * 2 := by
    rw [(AddCommute.all y t).addOrderOf_add_eq_mul_addOrderOf_of_coprime hcop, hy, ht]
  have hqt : q • (y + t) = t := by
    have e : q • t = t := by
      have h2 : 2 • t = 0 := by rw [← ht]; exact addOrderOf_nsmul_eq_zero t
      obtain ⟨k, rfl⟩ : ∃ k, q = k * 2 + 1 := ⟨q / 2, by omega⟩
      rw [add_smul, mul_smul, h2, smul_zero, zero_add, one_smul]
    rw [smul_add, e, ← hy, addOrderOf_nsmul_eq_zero, zero_add]
  have hdis : Disjoint (zmultiples (y + t)) (zmultiples u) := by
    rw [AddSubgroup.disjoint_def]
    intro x hx1 hx2
    by_contra hx0
    have hox : addOrderOf x = 2 := by
      have h1 := addOrderOf_dvd_of_mem_zmultiples hx2
      rw [hu] at h1
      rcases (Nat.dvd_prime Nat.prime_two).1 h1 with h | h
      · exact absurd (AddMonoid.addOrderOf_eq_one_iff.1 h) hx0
      · exact h
    have hxu : x = u := by
      obtain ⟨k, rfl⟩ := mem_zmultiples_iff.1 hx2
      have h2 : (2 : ℤ) • u = 0 := by
        have := addOrderOf_nsmul_eq_zero u
        rw [hu] at this
        exact_mod_cast this
      rcases Int.emod_two_eq_zero_or_one k with h | h
      · exfalso
        apply hx0
        change k • u = 0
        rw [show k = k / 2 * 2 by omega, mul_smul, h2, smul_zero]
      · change k • u = u
        rw [show k = k / 2 * 2 + 1 by omega, add_smul, mul_smul, h2, smul_zero, zero_add, one_smul]
    obtain ⟨k, hk⟩ := mem_zmultiples_iff.1 hx1
    have hk2 : ((q * 2 : Nat) : ℤ) ∣ 2 * k := by
      rw [← hg, addOrderOf_dvd_iff_zsmul_eq_zero, mul_smul, hk]
      have := addOrderOf_nsmul_eq_zero x
      rw [hox] at this
      exact_mod_cast this
    obtain ⟨m, hm⟩ : (q : ℤ) ∣ k := by
      obtain ⟨m, hm⟩ := hk2
      exact ⟨m, by push_cast at hm; linarith⟩
    have hx : x = m • t := by
      rw [← hk, hm, mul_comm, mul_smul]
      congr 1
      rw [natCast_zsmul]
      exact hqt
    have h2 : (2 : ℤ) • t = 0 := by
      have := addOrderOf_nsmul_eq_zero t
      rw [ht] at this
      exact_mod_cast this
    rcases Int.emod_two_eq_zero_or_one m with h | h
    · apply hx0
      rw [hx, show m = m / 2 * 2 by omega, mul_smul, h2, smul_zero]
    · apply hne
      rw [← hxu, hx, show m = m / 2 * 2 + 1 by omega, add_smul, mul_smul, h2, smul_zero, zero_add, one_smul]
  refine ⟨y + t, ?_, by rw [hg, hu]; exact Dvd.intro_left _ rfl, hdis, fun x => ?_⟩
  · intro h0
    rw [h0, addOrderOf_zero] at hu
    cases hu
  · let f : zmultiples (y + t) × zmultiples u → A := fun a => a.1.1 + a.2.1
    have hinj : Function.Injective f := by
      rintro ⟨a, b⟩ ⟨a', b'⟩ h
      have h' : a.1 + b.1 = a'.1 + b'.1 := h
      have e : a.1 - a'.1 = b'.1 - b.1 := by
        rw [sub_eq_sub_iff_add_eq_add, h', add_comm]
      have h0 : a.1 - a'.1 = 0 := AddSubgroup.disjoint_def.1 hdis (sub_mem a.2 a'.2) (e ▸ sub_mem b'.2 b.2)
      rw [h0] at e
      exact Prod.ext (Subtype.ext (sub_eq_zero.1 h0)) (Subtype.ext (sub_eq_zero.1 e.symm).symm)
    have hbij := hinj.bijective_of_nat_card_le (by rw [Nat.card_prod, Nat.card_zmultiples, Nat.card_zmultiples, hg, hu, hc]; omega)
    obtain ⟨⟨⟨a, ha⟩, ⟨b, hb⟩⟩, hab⟩ := hbij.2 x
    obtain ⟨m, rfl⟩ := mem_zmultiples_iff.1 ha
    obtain ⟨n, rfl⟩ := mem_zmultiples_iff.1 hb
    exact ⟨m, n, hab.symm⟩

open Classical in
/-- generators as `ellff_get_gens` promises them, if there are any -/
noncomputable def gensBy (E : Crv) : List E.Pt := if h : ∃ l, Group.GensSpec E.Pt l then Classical.choose h else []

theorem gensBy_spec (E : Crv) (h : ∃ l, Group.GensSpec E.Pt l) : Group.GensSpec E.Pt (gensBy E) := by
  unfold gensBy
  rw [dif_pos h]
  exact Classical.choose_spec h

/-! ## PARI and the user -/

/-- functions as PARI promises them, as far as they are needed; 4 is the rounded logarithm of 71 and of 61 -/
noncomputable def pari (co : Nat → Nat → Option (Int × Int)) (roots : (D : Int) → (p : Nat) → List (ZMod p)) : Pari where
  toPari := Whole.pari
  strtoi s := Nat.ofDigitChars 10 s 0
  issquarefree _ := true
  logN _ := 4
  cornacchia2 := co
  traces _ _ := []
  roots := roots

theorem pari_ok (co roots) : (pari co roots).Ok where
  base := Whole.pari_ok
  strtoi _ := Nat.ofDigitChars_ten_toDigits

theorem pari_prime (co roots) : (pari co roots).isprimeI = exactPrime := by
  funext n
  exact Bool.eq_iff_iff.2 ((isprimeI_spec (pari_ok co roots) n).trans (exactPrime_spec n).symm)

open Classical in
/-- every call: no failures, the nonsquare `T`, and the random point `g` of the curve `e` over the field of `q` elements -/
noncomputable def pick (T : Int) (q : Nat) (e g : Int × Int) (rounds : Nat) : Pick :=
  { cut := none, fail := fun _ => none, seed := ⟨[], false, 0, 0⟩, randomField := Fp 2 Nat.prime_two, typedField := Fp 2 Nat.prime_two,
    elt := fun _ => .int 0, sea := fun E => Nat.card E.Pt, gens := gensBy, which := fun _ _ => 0, mul := fun _ _ _ => 1, mul0 := 1,
    info := [], verdict := none,
    T := (someCalls (fun _ _ => []) (fun p => (T : ZMod p)) fun _ _ => []).T
    rand := fun p e' => if p = q ∧ e' = ((e.1 : ZMod p), (e.2 : ZMod p)) then some ((g.1 : ZMod p), (g.2 : ZMod p)) else
      (someCalls (fun _ _ => []) (fun _ => 0) fun _ _ => []).rand p e'
    rands := fun _ _ => []
    rounds := rounds
    tries := 1 }

theorem pick_behaves (c : Config) (T q e g rounds) : (pick T q e g rounds).Ok c where
  cut x h := by cases h
  fail s d h := by cases h
  which n i h := h
  mul o i j h := ⟨Nat.le_refl 1, by simp only [pick]; omega⟩
  info := ⟨fun x h => (nomatch h), List.nodup_nil⟩
  verdict d h := by cases h

theorem pick_rand (T : Int) (q : Nat) (e g : Int × Int) (rounds : Nat) (h : ∀ _ : Fact q.Prime, (g.2 : ZMod q) ^ 2 = (g.1 : ZMod q) ^ 3 + e.1 * g.1 + e.2) :
    RandSpec (pick T q e g rounds).rand := by
  intro p hp e' he
  simp only [pick]
  split
  · rename_i h'
    obtain ⟨rfl, rfl⟩ := h'
    exact ⟨_, _, rfl, h hp⟩
  · exact someCalls_rand _ _ _ p e' he

theorem calls_ok (co roots) (hco : CornacchiaSpec co) (hr : RootsSpec roots) (T : Int) (q : Nat) (e g : Int × Int) (rounds : Nat)
    (h : ∀ _ : Fact q.Prime, (g.2 : ZMod q) ^ 2 = (g.1 : ZMod q) ^ 3 + e.1 * g.1 + e.2) :
    Calls.Ok (pari co roots) fun _ => pick T q e g rounds where
  cornacchia2 := hco
  traces D n t ht := (nomatch ht)
  roots := hr
  twist _ := someCalls_T (fun _ _ => []) (fun p => (T : ZMod p)) fun _ _ => []
  rand _ := pick_rand T q e g rounds h
  rands _ p _ e' x hx := (nomatch hx)

/-- what is built -/
theorem built_one (co roots) (T : Int) (q : Nat) [hq : Fact q.Prime] (e g : Int × Int) (rounds N : Nat) (D t : Int) (s : QState) (j a b : ZMod q)
    (h1 : qdiscNext exactPrime co 4 N rounds ⟨0, 0, []⟩ = some (⟨D, q, t⟩, s)) (h2 : roots D q = [j]) (h3 : Regular (fromJ j))
    (h4 : fromJ j = ((e.1 : ZMod q), (e.2 : ZMod q))) (hT : ¬ IsSquare (T : ZMod q))
    (h5 : choosePrime N (T : ZMod q) ((e.1 : ZMod q), (e.2 : ZMod q)) (some ((g.1 : ZMod q), (g.2 : ZMod q))) = (a, b)) :
    built (pari co roots) (pick T q e g rounds) true N = some ⟨D, q, a, b⟩ := by
  unfold built cmGenPrime
  rw [if_pos rfl, pari_prime]
  have ht : (pick T q e g rounds).tries = 1 := rfl
  rw [ht]
  unfold genPrime
  have h1' : qdiscNext exactPrime (pari co roots).cornacchia2 ((pari co roots).logN N) N (pick T q e g rounds).rounds ⟨0, 0, []⟩ = some (⟨D, q, t⟩, s) := h1
  rw [h1']
  have hp' : Nat.Prime (Int.toNat q) := hq.1
  simp only [hp', dite_true]
  have : constructAt (calls (pari co roots) (pick T q e g rounds)) N D (Int.toNat q) hp' = some ⟨D, q, a, b⟩ := by
    change Option.map _ (constructPrime N ((pick T q e g rounds).T q) ((pick T q e g rounds).rand q) (roots D q)) = _
    have e1 : (pick T q e g rounds).T q = (T : ZMod q) := someCalls_T_eq (fun _ _ => []) (fun p => (T : ZMod p)) (fun _ _ => []) q hT
    have e2 : (pick T q e g rounds).rand q (fromJ j) = some ((g.1 : ZMod q), (g.2 : ZMod q)) := by
      simp only [pick]
      rw [if_pos ⟨trivial, h4⟩]
    unfold constructPrime
    rw [h2, e1, List.find?_cons_of_pos (by simpa using h3), Option.map_some, e2, h4, h5]
    rfl
  rw [this]

/-- the run succeeds -/
theorem run_ends (co roots) (hco : CornacchiaSpec co) (hr : RootsSpec roots) (c : Config) (h : c.method = METHOD_CM) (hu : c.unique = false) (hcount : toSize c.count = 1)
    (N : Nat) (hacc : accepted (pari co roots) c = some (N, true)) (T : Int) (q : Nat) (e g : Int × Int) (rounds : Nat) (D : Int) (a b : ZMod q) (hq : q.Prime)
    (hg : ∀ _ : Fact q.Prime, (g.2 : ZMod q) ^ 2 = (g.1 : ZMod q) ^ 3 + e.1 * g.1 + e.2)
    (hb : built (pari co roots) (pick T q e g rounds) true N = some ⟨D, q, a, b⟩) (hd : (obj q hq a.val b.val).eqn.Δ ≠ 0)
    (hgens : ∃ l, Group.GensSpec (obj q hq a.val b.val).Pt l) :
    TapeOk (pari co roots) c true N (fun _ => pick T q e g rounds) ∧ Fine (pari co roots) c true N (fun _ => pick T q e g rounds) ∧
    (produce (pari co roots) c 9 ⟨{}, fun _ => pick T q e g rounds, 0, false⟩).2 = 0 ∧
    ∃ v, Json.generated (one (pari co roots) c 9) (toSize c.count) ⟨{}, fun _ => pick T q e g rounds, 0, false⟩ = [v] := by
  have hT : TapeOk (pari co roots) c true N (fun _ => pick T q e g rounds) := by
    refine ⟨fun _ => pick_behaves c T q e g rounds, fun i j r hp hb' hd' => ?_⟩
    rw [hb] at hb'
    cases hb'
    exact gensBy_spec _ hgens
  have hf : Fine (pari co roots) c true N (fun _ => pick T q e g rounds) := by
    intro i r hp hb' hd'
    refine ⟨fun h => (nomatch h), fun h => ?_⟩
    rcases h with h | h <;> cases h
  obtain ⟨st, hst⟩ := order_search_ends (pari co roots) (pari_ok co roots) c h hacc ⟨{}, fun _ => pick T q e g rounds, 0, false⟩ hT (calls_ok co roots hco hr T q e g rounds hg) hf
    ⟨fun _ => rfl, fun _ _ => rfl, fun _ => rfl⟩ (fun _ => ⟨_, hb, hq, hd⟩) (fun h => by rw [hu] at h; cases h)
  obtain h0 | ⟨v, hv⟩ := order_found_is_printed_partial (pari co roots) (pari_ok co roots) c h hacc (Or.inr (Or.inr rfl)) 9 _ hT 1 st hst
  · cases h0
  · have hgen : Json.generated (one (pari co roots) c 9) 1 ⟨{}, fun _ => pick T q e g rounds, 0, false⟩ = [v] := by
      simp only [Json.generated, hv]
    refine ⟨hT, hf, ?_, v, by rw [hcount]; exact hgen⟩
    simp only [produce, hacc]
    rw [(Json.generate_objects _ _ _).2, hcount, hgen]
    rfl

/-! ## A curve of order 71 -/

theorem p59 : Nat.Prime 59 := by norm_num
theorem p61 : Nat.Prime 61 := by norm_num
local instance : Fact (Nat.Prime 59) := ⟨p59⟩
local instance : Fact (Nat.Prime 61) := ⟨p61⟩

/-- `--fp --order=71 7` -/
def cR : Config := (commandLine 3 [.fp, .order "71".toList, .arg "7".toList]).get (by decide +kernel)

theorem cR_some : commandLine 3 [.fp, .order "71".toList, .arg "7".toList] = some cR := (Option.some_get _).symm

theorem cR_method : cR.method = METHOD_CM := by decide +kernel

/-- `--fp --order=61 6` -/
def cX : Config := (commandLine 3 [.fp, .order "61".toList, .arg "6".toList]).get (by decide +kernel)

theorem cX_some : commandLine 3 [.fp, .order "61".toList, .arg "6".toList] = some cX := (Option.some_get _).symm

theorem cX_method : cX.method = METHOD_CM := by decide +kernel

/-- PARI for the order 71 -/
noncomputable def pariR : Pari := pari (oneSolution 115 71 13 1) (oneRoot (-115) 59 3)

/-- the class polynomial of -3 is the variable -/
def cubeRoots (D : Int) (p : Nat) : List (ZMod p) := if D = -3 then [0] else []

/-- PARI for the order 61 -/
noncomputable def pariX : Pari := pari (oneSolution 3 61 1 9) cubeRoots

theorem accR : accepted pariR cR = some (71, true) := by
  unfold accepted
  rw [Option.join_eq_some_iff, order_accepted, show pariR.isprimeI = exactPrime from pari_prime _ _]
  decide +kernel

theorem accX : accepted pariX cX = some (61, true) := by
  unfold accepted
  rw [Option.join_eq_some_iff, order_accepted, show pariX.isprimeI = exactPrime from pari_prime _ _]
  decide +kernel

theorem rootsR : RootsSpec (oneRoot (-115) 59 3) := by
  refine oneRoot_spec 11 ?_ ?_
  · intro s v h
    have hv : v ^ 2 < 2 ^ 2 := by push_cast at h; nlinarith [sq_nonneg s]
    have hv' := abs_lt_of_sq_lt_sq hv (by norm_num)
    have hs : s ^ 2 < 16 ^ 2 := by push_cast at h; nlinarith [sq_nonneg v]
    have hs' := abs_lt_of_sq_lt_sq hs (by norm_num)
    rw [abs_lt] at hv' hs'
    obtain ⟨v1, v2⟩ := hv'
    obtain ⟨s1, s2⟩ := hs'
    push_cast at h
    have key : ∀ v ∈ Finset.Ioo (-2 : Int) 2, ∀ s ∈ Finset.Ioo (-16 : Int) 16, 4 * 59 = s ^ 2 + 115 * v ^ 2 → s = 11 ∨ s = -11 := by
      decide +kernel
    exact key v (Finset.mem_Ioo.2 ⟨v1, v2⟩) s (Finset.mem_Ioo.2 ⟨s1, s2⟩) (by linarith)
  · have e1 : fromJ ((3 : Int) : ZMod 59) = (8, 55) := by decide +kernel
    have e2 : Count.card (8 : ZMod 59) 55 = 49 := by decide +kernel
    intro _
    rw [e1, e2]
    norm_num

theorem rootsX : RootsSpec cubeRoots := by
  intro D p _ hD _ s v _ j hj
  unfold cubeRoots at hj
  rw [if_neg (by omega)] at hj
  cases hj

noncomputable def pickR : Pick := pick 2 59 (8, 55) (1, 8) 44
noncomputable def pickX : Pick := pick 2 61 (0, 1) (2, 3) 9

theorem builtR : built pariR pickR true 71 = some ⟨-115, 59, 32, 27⟩ := by
  have hq : qdiscNext exactPrime (oneSolution 115 71 13 1) 4 71 44 ⟨0, 0, []⟩ = some (⟨-115, 59, 13⟩, ⟨7, 37, [2, 5, -7, -11, -23, 29, -31]⟩) := by
    have : ((qdiscNext exactPrime (oneSolution 115 71 13 1) 4 71 44 ⟨0, 0, []⟩).map fun q => (q.1, q.2.r, q.2.i, q.2.Sp)) =
        some (⟨-115, 59, 13⟩, 7, 37, [2, 5, -7, -11, -23, 29, -31]) := by decide +kernel
    obtain ⟨⟨f, ⟨r, i, Sp⟩⟩, h1, h2⟩ := Option.map_eq_some_iff.1 this
    cases h2
    exact h1
  refine built_one _ _ 2 59 (8, 55) (1, 8) 44 71 (-115) 13 _ 3 32 27 hq ?_ (by decide +kernel) (by decide +kernel) (by decide +kernel) (by decide +kernel)
  unfold oneRoot
  rw [if_pos ⟨rfl, rfl⟩]
  rfl

theorem builtX : built pariX pickX true 61 = some ⟨-3, 61, 0, 8⟩ := by
  have hq : qdiscNext exactPrime (oneSolution 3 61 1 9) 4 61 9 ⟨0, 0, []⟩ = some (⟨-3, 61, 1⟩, ⟨0, 2, [-3]⟩) := by
    have : ((qdiscNext exactPrime (oneSolution 3 61 1 9) 4 61 9 ⟨0, 0, []⟩).map fun q => (q.1, q.2.r, q.2.i, q.2.Sp)) =
        some (⟨-3, 61, 1⟩, 0, 2, [-3]) := by decide +kernel
    obtain ⟨⟨f, ⟨r, i, Sp⟩⟩, h1, h2⟩ := Option.map_eq_some_iff.1 this
    cases h2
    exact h1
  refine built_one _ _ 2 61 (0, 1) (2, 3) 9 61 (-3) 1 _ 0 0 8 hq ?_ (by decide +kernel) (by decide +kernel) (by decide +kernel) (by decide +kernel)
  unfold cubeRoots
  rw [if_pos rfl]

theorem deltaR : (obj 59 p59 (32 : ZMod 59).val (27 : ZMod 59).val).eqn.Δ ≠ 0 := by
  rw [Ne, Special.disc_iff]
  decide +kernel

theorem deltaX : (obj 61 p61 (0 : ZMod 61).val (8 : ZMod 61).val).eqn.Δ ≠ 0 := by
  rw [Ne, Special.disc_iff]
  decide +kernel

theorem cardR : Nat.card (obj 59 p59 (32 : ZMod 59).val (27 : ZMod 59).val).Pt = 71 := by
  rw [(card_obj 59 p59 _ _ deltaR).2]
  decide +kernel

theorem cardX : Nat.card (obj 61 p61 (0 : ZMod 61).val (8 : ZMod 61).val).Pt = 76 := by
  rw [(card_obj 61 p61 _ _ deltaX).2]
  decide +kernel

theorem gensR : ∃ l, Group.GensSpec (obj 59 p59 (32 : ZMod 59).val (27 : ZMod 59).val).Pt l := by
  have : Finite (obj 59 p59 (32 : ZMod 59).val (27 : ZMod 59).val).Pt := Nat.finite_of_card_ne_zero (by rw [cardR]; decide)
  obtain ⟨g, hg⟩ := Special.cyclic_two 71 1 (by norm_num) (Or.inr rfl) (by decide) (show Nat.card (obj 59 p59 (32 : ZMod 59).val (27 : ZMod 59).val).Pt = 71 * 1 by rw [cardR])
  exact ⟨[g], Special.gens_of_order g hg (by rw [cardR]; decide)⟩

/-- points with `y = 0` have order 2 -/
theorem two_torsion {K : Type} [_root_.Field K] [DecidableEq K] (W : WeierstrassCurve.Affine K) (h1 : W.a₁ = 0) (h3 : W.a₃ = 0) (x : K) (h : W.Nonsingular x 0) :
    addOrderOf (WeierstrassCurve.Affine.Point.some x 0 h) = 2 := by
  apply addOrderOf_eq_prime
  · rw [two_nsmul]
    apply WeierstrassCurve.Affine.Point.add_self_of_Y_eq
    simp [WeierstrassCurve.Affine.negY, h1, h3]
  · exact WeierstrassCurve.Affine.Point.some_ne_zero h

theorem gensX : ∃ l, Group.GensSpec (obj 61 p61 (0 : ZMod 61).val (8 : ZMod 61).val).Pt l := by
  have : Finite (obj 61 p61 (0 : ZMod 61).val (8 : ZMod 61).val).Pt := Nat.finite_of_card_ne_zero (by rw [cardX]; decide)
  have he : (obj 61 p61 (0 : ZMod 61).val (8 : ZMod 61).val).eqn = Invalid.primeCurve (0 : ZMod 61) 8 := eqn_obj 61 p61 _ _
  have hns : ∀ x : ZMod 61, x ^ 3 + 8 = 0 → (obj 61 p61 (0 : ZMod 61).val (8 : ZMod 61).val).eqn.Nonsingular (show Carrier (Fp 61 p61) from x) 0 := by
    intro x hx
    refine (WeierstrassCurve.Affine.equation_iff_nonsingular_of_Δ_ne_zero deltaX).1 ?_
    have : (Invalid.primeCurve (0 : ZMod 61) 8).Equation x 0 := by
      refine (WeierstrassCurve.Affine.equation_iff (W := Invalid.primeCurve (0 : ZMod 61) 8) x 0).2 ?_
      simp only [Invalid.primeCurve]
      linear_combination -hx
    rw [← he] at this
    exact this
  have h1 : (obj 61 p61 (0 : ZMod 61).val (8 : ZMod 61).val).eqn.a₁ = 0 := congrArg WeierstrassCurve.a₁ he
  have h3 : (obj 61 p61 (0 : ZMod 61).val (8 : ZMod 61).val).eqn.a₃ = 0 := congrArg WeierstrassCurve.a₃ he
  obtain ⟨g, hg⟩ := gens_four 19 (by norm_num) (by decide) (show Nat.card (obj 61 p61 (0 : ZMod 61).val (8 : ZMod 61).val).Pt = 4 * 19 by rw [cardX])
    (WeierstrassCurve.Affine.Point.some _ _ (hns 59 (by decide +kernel))) (WeierstrassCurve.Affine.Point.some _ _ (hns 35 (by decide +kernel)))
    (two_torsion _ h1 h3 _ _) (two_torsion _ h1 h3 _ _) (fun h => by
      rw [WeierstrassCurve.Affine.Point.some.injEq] at h
      exact absurd (show (59 : ZMod 61) = 35 from h.1) (by decide +kernel))
  exact ⟨_, hg⟩

/-- the conditions of C88, C89 and C90 are met: `--order=71` prints a curve, and 71 is an odd order of at least 50 that leaves the remainder 2 modulo 3 -/
theorem order_run_met : commandLine 3 [.fp, .order "71".toList, .arg "7".toList] = some cR ∧ cR.method = METHOD_CM ∧
    (∀ s, Opt.order s ∈ [Opt.fp, .order "71".toList, .arg "7".toList] → s = Nat.toDigits 10 71) ∧ Nat.Prime 71 ∧ 50 ≤ 71 ∧ 71 % 3 = 2 ∧ 71 % 2 = 1 ∧ cR.bits ≤ 3000 ∧ cR.metadata = false ∧ pariR.Ok ∧
    accepted pariR cR = some (71, true) ∧ TapeOk pariR cR true 71 (fun _ => pickR) ∧ Calls.Ok pariR (fun _ => pickR) ∧
    Fine pariR cR true 71 (fun _ => pickR) ∧ (produce pariR cR 9 ⟨{}, fun _ => pickR, 0, false⟩).2 = 0 := by
  have hg : ∀ _ : Fact (Nat.Prime 59), (((1, 8) : Int × Int).2 : ZMod 59) ^ 2 = (((1, 8) : Int × Int).1 : ZMod 59) ^ 3 +
      ((8, 55) : Int × Int).1 * ((1, 8) : Int × Int).1 + ((8, 55) : Int × Int).2 := by
    have h : ((8 : Int) : ZMod 59) ^ 2 = ((1 : Int) : ZMod 59) ^ 3 + ((8 : Int) : ZMod 59) * ((1 : Int) : ZMod 59) + ((55 : Int) : ZMod 59) := by decide +kernel
    exact fun _ => h
  have hco : CornacchiaSpec (oneSolution 115 71 13 1) := oneSolution_spec (by norm_num)
  obtain ⟨h1, h2, h3, -⟩ := run_ends _ _ hco rootsR cR cR_method (by decide +kernel) (by decide +kernel) 71 accR 2 59 (8, 55) (1, 8) 44 (-115) 32 27 p59 hg builtR deltaR gensR
  refine ⟨cR_some, cR_method, ?_, by norm_num, by decide, by decide, by decide, by decide +kernel, by decide +kernel, pari_ok _ _, accR, h1, calls_ok _ _ hco rootsR _ _ _ _ _ hg, h2, h3⟩
  intro s hs
  simp only [List.mem_cons, List.not_mem_nil, or_false, reduceCtorEq, false_or, Opt.order.injEq] at hs
  rw [hs]
  decide +kernel

/-- all conditions of C88 and C90 hold for this run: the theorems say of it that a curve with 71 points is printed, and that all that is printed is isomorphic -/
theorem order_run_applies (malloc : Nat → List Parson.Byte) (hm : ∀ n, (malloc n).length = n) :
    (∃ js : List Output.Json, (∀ j, Parson.Spec.Document (bytes malloc pariR cR 9 ⟨{}, fun _ => pickR, 0, false⟩) (Parson.encode j) ↔ j = .arr js) ∧ js.length = 1 ∧
      ∀ j ∈ js, ∃ v, readCurve j = some v ∧ OrderedAsked cR [71] v) ∧
    ∃ js : List Output.Json, (∀ j, Parson.Spec.Document (bytes malloc pariR cR 9 ⟨{}, fun _ => pickR, 0, false⟩) (Parson.encode j) ↔ j = .arr js) ∧ js.length = 1 ∧
      ∀ j ∈ js, ∀ j' ∈ js, ∃ v v' p, readCurve j = some v ∧ readCurve j' = some v' ∧ v.field = .prime p ∧ v'.field = .prime p ∧ Isomorphic p v v' := by
  obtain ⟨h1, h2, h3, h4, h5, h6, h7, h8, h9, h10, h11, h12, h13, h14, h15⟩ := order_run_met
  have hcount : toSize cR.count = 1 := by decide +kernel
  have hacc : ∀ N prime, accepted pariR cR = some (N, prime) → TapeOk pariR cR prime N fun _ => pickR := fun N prime ha => by
    rw [h11] at ha
    cases ha
    exact h12
  have e : [71].prod = 71 := by decide
  rw [← hcount]
  exact ⟨prime_order_run_prints_partial malloc hm pariR h10 3 _ cR h1 h2 71 h4 h3 h5 h6 h8 h9 9 ⟨{}, fun _ => pickR, 0, false⟩ h12 h13 h15,
    order_run_same_partial malloc hm pariR h10 3 _ cR h1 h2 [71] (fun s hs => ⟨by simp, by rw [h3 s hs]; simp [List.intercalate]⟩) (by rw [e]; exact h5)
      (by decide) (by decide) 9 ⟨{}, fun _ => pickR, 0, false⟩ hacc h13 (fun hn => absurd ⟨rfl, by rw [e]; exact h4⟩ hn) h15
      (fun v hv j hj => run_short h10 h2 h13 h12 h11 h9 (Or.inr rfl) h8 (by decide +kernel) 9 _ _ rfl v hv j hj)⟩

/-- **C88** fails in a whole run: `--order=61` ends with the status 0 and prints a single curve, with the order 61; the curve is `y² = x³ + 8` over the
field of 61 elements and has 76 points. PARI, the random point and the nonsquare are as they have to be. -/
theorem wrong_order_printed (malloc : Nat → List Parson.Byte) (hm : ∀ n, (malloc n).length = n) :
    pariX.Ok ∧ TapeOk pariX cX true 61 (fun _ => pickX) ∧ Calls.Ok pariX (fun _ => pickX) ∧ (produce pariX cX 9 ⟨{}, fun _ => pickX, 0, false⟩).2 = 0 ∧
    ∃ js : List Output.Json, (∀ j, Parson.Spec.Document (bytes malloc pariX cX 9 ⟨{}, fun _ => pickX, 0, false⟩) (Parson.encode j) ↔ j = .arr js) ∧ js.length = 1 ∧
      ∀ j ∈ js, ∃ v, readCurve j = some v ∧ v.field = .prime 61 ∧ v.a = 0 ∧ v.b = 8 ∧ v.order = 61 ∧ Nat.card (Seeded.curveOf 61 p61 0 8).Point = 76 := by
  have hg : ∀ _ : Fact (Nat.Prime 61), (((2, 3) : Int × Int).2 : ZMod 61) ^ 2 = (((2, 3) : Int × Int).1 : ZMod 61) ^ 3 +
      ((0, 1) : Int × Int).1 * ((2, 3) : Int × Int).1 + ((0, 1) : Int × Int).2 := by
    have h : ((3 : Int) : ZMod 61) ^ 2 = ((2 : Int) : ZMod 61) ^ 3 + ((0 : Int) : ZMod 61) * ((2 : Int) : ZMod 61) + ((1 : Int) : ZMod 61) := by decide +kernel
    exact fun _ => h
  have hco : CornacchiaSpec (oneSolution 3 61 1 9) := oneSolution_spec (by norm_num)
  have hcount : toSize cX.count = 1 := by decide +kernel
  obtain ⟨h1, h2, h3, -⟩ := run_ends _ _ hco rootsX cX cX_method (by decide +kernel) hcount 61 accX 2 61 (0, 1) (2, 3) 9 (-3) 0 8 p61 hg builtX deltaX gensX
  have hC := calls_ok _ _ hco rootsX 2 61 (0, 1) (2, 3) 9 hg
  refine ⟨pari_ok _ _, h1, hC, h3, ?_⟩
  obtain ⟨js, j1, j2, j3⟩ := run_prints malloc hm pariX (pari_ok _ _) cX cX_method 9 ⟨{}, fun _ => pickX, 0, false⟩
    (fun N prime ha => by rw [accX] at ha; cases ha; exact h1) h3
    (fun v hv j hj => run_short (pari_ok _ _) cX_method hC h1 accX (by decide +kernel) (Or.inr rfl) (by decide +kernel) (by decide +kernel) 9 _ _ rfl v hv j hj)
    (fun v => v.field = .prime 61 ∧ v.a = 0 ∧ v.b = 8 ∧ v.order = 61 ∧ Nat.card (Seeded.curveOf 61 p61 0 8).Point = 76)
    (fun N prime x v ha hx hv => by
      rw [accX] at ha
      cases ha
      obtain ⟨-, e1, i, r, e2, hp, e3, e4, e5, e6, e7, -⟩ := curve_sound x hx v hv
      have e2' : built pariX pickX true 61 = some r := e2
      rw [builtX] at e2'
      cases e2'
      refine ⟨e3, e4.trans (by decide), e5.trans (by decide), e1, ?_⟩
      have := e7 ⟨p61⟩
      rw [e4, e5] at this
      refine this.trans ?_
      decide +kernel)
  exact ⟨js, j1, by rw [j2, hcount], j3⟩

end Ecgen.Ordered
