import Verif.Special.Model
import Verif.Special.Anomalous
import Verif.Whole.Props
import Verif.Family.Props
import Verif.Cm.ConstructLemmas

/-!
# The search of the three methods keeps what it has established
-/

namespace Ecgen.Special

open Whole Output Output.Spec Cli
open Seeded (Fp)

/-- the configurations that are covered -/
structure Covered (c : Config) : Prop where
  method : c.method = METHOD_ANOMALOUS ∨ c.method = METHOD_SUPERSINGULAR ∨ c.method = METHOD_FAMILY
  algo : c.seedAlgo = .none
  field : c.method = METHOD_SUPERSINGULAR → c.field = 1

/-- the theorems on complex multiplication that the methods rest on -/
structure Cited (P : Pari) (c : Config) (T : Nat → Pick) : Prop where
  gross : c.method = METHOD_ANOMALOUS → Gross P c T
  deuring : c.method = METHOD_SUPERSINGULAR → Deuring P c T

/-- what the options say about the generators; `--cofactor` is not heeded by the three methods, nor is `--unique` by `--family` -/
def view (c : Config) : Config := { c with cofactor := false, unique := c.unique && decide (c.method ≠ METHOD_FAMILY) }

/-- what the field stage establishes of the prime -/
structure FieldKnown (P : Pari) (c : Config) (T : Nat → Pick) (x : St) (q : Nat) : Prop where
  drawn : Drawn P c T q
  anomalous : c.method = METHOD_ANOMALOUS → ∃ lo hi b, Cm.Bounds 163 c.bits lo hi ∧ lo ≤ b ∧ b ≤ hi ∧ (q : Int) = Cm.anomalousP 163 b
  super : c.method = METHOD_SUPERSINGULAR → FieldAsked c (.prime q)
  family : c.method = METHOD_FAMILY → ∃ i, x.z = some (T i).z ∧ Family.genField P.isprimeI (fam c.family) (T i).z = some (q : Int)

/-- the coefficients of a supersingular curve -/
def Shape (q a b : Nat) : Prop := q ≠ 2 ∧ (q % 4 = 3 → a = q - 1 ∧ b = 0) ∧ (q % 12 = 5 → a = 0 ∧ b = 1) ∧ (q % 12 = 1 → q ∣ a + b)

/-- what is known once there are coefficients -/
structure CurveKnown (P : Pari) (c : Config) (T : Nat → Pick) (s : Nat) (x : St) (q : Nat) (hq : q.Prime) (a b : Nat) : Prop where
  counts : (obj q hq a b).eqn.Δ ≠ 0 →
    (c.method = METHOD_ANOMALOUS → Nat.card (obj q hq a b).Pt = q) ∧ (c.method = METHOD_SUPERSINGULAR → Nat.card (obj q hq a b).Pt = q + 1)
  zero : (c.method = METHOD_FAMILY → c.family ≠ .kss16 → c.family ≠ .kss40 → a = 0) ∧ (c.method = METHOD_SUPERSINGULAR → Shape q a b)
  crv : 5 ≤ s → x.cur.crv = some (obj q hq a b) ∧ (obj q hq a b).eqn.Δ ≠ 0
  order : 6 ≤ s → x.cur.order = some (Nat.card (obj q hq a b).Pt) ∧ Sized P c T q (Nat.card (obj q hq a b).Pt) ∧
    (c.method = METHOD_FAMILY → ∃ z, x.z = some z ∧ ∃ r : Nat, Family.rz (fam c.family) (Family.nz (fam c.family) z) = r ∧ r ∣ Nat.card (obj q hq a b).Pt)
  gens : 7 ≤ s → ∃ l, x.cur.gens = some ⟨obj q hq a b, l⟩ ∧ GensKnown (obj q hq a b).Pt (view c) (l.map Group.Sub.gen) ∧
    (s = 7 → ∀ g ∈ l, g.points = []) ∧ (8 ≤ s → (∀ g ∈ l, g.gen.point ≠ 0) → PointsKnown c l)

/-- what is known once there is a field -/
structure Known (P : Pari) (c : Config) (T : Nat → Pick) (s : Nat) (x : St) (q : Nat) (hq : q.Prime) : Prop where
  field : x.cur.field = some (Fp q hq)
  prime : FieldKnown P c T x q
  ab : 4 ≤ s → ∃ a b, x.cur.a = some (.intmod a q) ∧ x.cur.b = some (.intmod b q) ∧ a < q ∧ b < q ∧ CurveKnown P c T s x q hq a b

/-- what is known of the curve at the beginning of a stage -/
structure Inv (P : Pari) (c : Config) (T : Nat → Pick) (s : Nat) (x : St) : Prop where
  quiet : c.metadata = false → x.cur.info = []
  noseed : c.method ≠ METHOD_FAMILY → x.cur.seed = none
  seed : 1 ≤ s → c.method = METHOD_FAMILY → ∃ i sd, x.z = some (T i).z ∧ x.cur.seed = some sd ∧ Bits.fromI (T i).z = some sd
  known : 2 ≤ s → ∃ q hq, Known P c T s x q hq
  info : 9 ≤ s → (∀ i ∈ x.cur.info, i.1 ∈ Parson.metaNames) ∧ (x.cur.info.map (·.1)).Nodup

variable {P : Pari} {c : Config} {T : Nat → Pick}

theorem inv_low {s : Nat} {x : St} (hs : s ≤ 1) (h1 : c.metadata = false → x.cur.info = []) (h2 : c.method ≠ METHOD_FAMILY → x.cur.seed = none)
    (h3 : s = 1 → c.method = METHOD_FAMILY → ∃ i sd, x.z = some (T i).z ∧ x.cur.seed = some sd ∧ Bits.fromI (T i).z = some sd) : Inv P c T s x where
  quiet := h1
  noseed := h2
  seed h := h3 (by omega)
  known h := absurd h (by omega)
  info h := absurd h (by omega)

/-- what a failure falls back to -/
theorem Inv.low {s : Nat} {x : St} (h : Inv P c T s x) (k : Nat) (hk : k ≤ 1) (hs : k ≤ s) : Inv P c T k x :=
  inv_low hk h.quiet h.noseed fun _ => h.seed (by omega)

/-- the generator of a stage -/
noncomputable def act (P : Pari) (c : Config) (p : Pick) (s : Nat) (x : St) : Option (St × Int) :=
  ((stageOf (tables c).gens s).bind id).bind (call P c p ((stageOf (tables c).genArgs s).bind id) x)

/-- the checks of a stage -/
def checksOf (c : Config) (s : Nat) : List Check := (stageOf (tables c).checks s).getD []

/-! ## The tables -/

theorem tables_cm (c : Config) (h : c.method = METHOD_ANOMALOUS ∨ c.method = METHOD_SUPERSINGULAR) : tables c = cmSetup id (fun _ => false) c := by
  unfold tables run
  rw [if_pos (by rcases h with h | h <;> simp [h])]

theorem tables_family (c : Config) (h : c.method = METHOD_FAMILY) : tables c = exhaustiveSetup c := by
  unfold tables run
  rw [if_neg (by rw [h]; decide), if_neg (by rw [h]; decide)]

/-- the generators of the methods -/
theorem table (c : Config) (h : Covered c) :
    (c.method = METHOD_ANOMALOUS ∧ (tables c).gens.seed = some .skip ∧ (tables c).gens.field = some .anomalousField ∧
      (tables c).gens.b = some .anomalousEquation ∧ (tables c).gens.order = some .anomalousOrder ∧ (tables c).genArgs.field = some .counter ∧
      (tables c).genArgs.b = some .counter) ∨
    (c.method = METHOD_SUPERSINGULAR ∧ (tables c).gens.seed = some .skip ∧
      (tables c).gens.field = some (if has c.random RANDOM_FIELD then .fieldRandom else .fieldInput) ∧
      (tables c).gens.b = some .supersingularEquation ∧ (tables c).gens.order = some .supersingularOrder) ∨
    (c.method = METHOD_FAMILY ∧ (tables c).gens.seed = some (if c.random ≠ 0 then .familySeedRandom else .familySeedInput) ∧
      (tables c).gens.field = some .familyField ∧
      (tables c).gens.b = some (if c.family = .kss16 ∨ c.family = .kss40 then .familyEquationCm else .familyEquationIter) ∧
      (tables c).gens.order = some .familyOrder) := by
  rcases h.method with h1 | h1 | h1
  · refine Or.inl ⟨h1, ?_⟩
    rw [tables_cm c (Or.inl h1)]
    have e1 : ¬ METHOD_ANOMALOUS = METHOD_CM := by decide
    simp only [cmSetup, cmGinit, cmAinit, h1, if_neg e1, if_true]
    refine ⟨trivial, trivial, trivial, trivial, ?_, ?_⟩ <;> split <;> rfl
  · refine Or.inr (Or.inl ⟨h1, ?_⟩)
    rw [tables_cm c (Or.inr h1)]
    have e1 : ¬ METHOD_SUPERSINGULAR = METHOD_CM := by decide
    have e2 : ¬ METHOD_SUPERSINGULAR = METHOD_ANOMALOUS := by decide
    simp only [cmSetup, cmGinit, h1, if_neg e1, if_neg e2, if_true]
    exact ⟨trivial, trivial, trivial, trivial⟩
  · refine Or.inr (Or.inr ⟨h1, ?_⟩)
    rw [tables_family c h1]
    simp [exhaustiveSetup, ginit, ginitMethod, h.algo, h1]

/-- the stages that the methods have in common -/
theorem table_common (c : Config) (h : Covered c) : (tables c).gens.a = some .skip ∧ (tables c).gens.curve = some .curveAny ∧
    (tables c).gens.gens = some (if (view c).unique then .gensOne else .gensAny) ∧
    (tables c).gens.points = some (pointsChoice c) ∧ (tables c).genArgs.points = (ainit c).points ∧
    (tables c).gens.metadata = some (if c.metadata then .metadata else .skip) := by
  have ea : (ainit c).points = if c.pointsType = .random then some (.size c.pointsAmount) else none := by
    unfold ainit
    simp only
    split <;> split <;> split <;> rfl
  rcases h.method with h1 | h1 | h1
  · rw [tables_cm c (Or.inl h1), ea]
    have e1 : ¬ METHOD_ANOMALOUS = METHOD_CM := by decide
    have e2 : decide (METHOD_ANOMALOUS ≠ METHOD_FAMILY) = true := by decide
    simp only [cmSetup, cmGinit, cmAinit, h1, if_neg e1, if_true, view, e2, Bool.and_true]
    refine ⟨trivial, trivial, trivial, trivial, ?_, trivial⟩
    split <;> rfl
  · rw [tables_cm c (Or.inr h1), ea]
    have e1 : ¬ METHOD_SUPERSINGULAR = METHOD_CM := by decide
    have e3 : ¬ METHOD_SUPERSINGULAR = METHOD_ANOMALOUS := by decide
    have e2 : decide (METHOD_SUPERSINGULAR ≠ METHOD_FAMILY) = true := by decide
    simp only [cmSetup, cmGinit, cmAinit, h1, if_neg e1, if_neg e3, if_true, view, e2, Bool.and_true]
    refine ⟨trivial, trivial, trivial, trivial, ?_, trivial⟩
    split <;> rfl
  · rw [tables_family c h1]
    have e1 : ¬ METHOD_FAMILY = METHOD_TWIST := by decide
    refine ⟨?_, ?_, ?_, rfl, rfl, rfl⟩
    · simp [exhaustiveSetup, ginit, ginitMethod, h.algo, h1]
    · simp [exhaustiveSetup, ginit, h1, e1]
    · simp [exhaustiveSetup, ginit, ginitMethod, h.algo, h1, view]

/-- the checks of the stages -/
theorem table_checks (c : Config) (h : Covered c) (s : Nat) : checksOf c s =
    if s = 4 then [.curveNonzero] else if s = 7 ∧ c.hexCheck.isSome then [.hexParam] else [] := by
  have hc : (tables c).checks = cmCinit c := by
    rcases h.method with h1 | h1 | h1
    · rw [tables_cm c (Or.inl h1)]; rfl
    · rw [tables_cm c (Or.inr h1)]; rfl
    · rw [tables_family c h1]
      have e1 : ¬ METHOD_FAMILY = METHOD_SEED := by decide
      simp only [exhaustiveSetup, cinit, h1, if_neg e1, cmCinit]
  unfold checksOf
  rw [hc]
  match s with
  | 0 | 1 | 2 | 3 | 4 | 5 | 6 | 7 | 8 => simp [stageOf, Table.const, cmCinit]
  | n + 9 => simp [stageOf]

/-! ## Curves -/

theorem isprimeI_spec (P : Pari) (hP : P.toPari.Ok) : IsPrimeSpec P.isprimeI := by
  intro p
  unfold Pari.isprimeI
  rw [Bool.and_eq_true, decide_eq_true_iff, hP.isprime]
  refine and_congr_right fun h => ?_
  rw [show p.toNat = p.natAbs by omega]

/-- the curve of two numbers -/
theorem eqn_obj (q : Nat) (hq : q.Prime) (a b : Nat) :
    haveI : Fact q.Prime := ⟨hq⟩
    (obj q hq a b).eqn = Invalid.primeCurve ((a : Nat) : ZMod q) ((b : Nat) : ZMod q) := by
  have e : ∀ n : Nat, elem (Fp q hq) (Spec.eltV (.intmod n q)) = ((n : Nat) : ZMod q) := by
    intro n
    change ((n % q : Nat) : ZMod q) = _
    exact ZMod.natCast_mod n q
  change equation (Fp q hq) (elem (Fp q hq) (Spec.eltV (.intmod a q))) (elem (Fp q hq) (Spec.eltV (.intmod b q))) = _
  rw [e, e]
  rfl

theorem disc_obj {K : Type} [_root_.Field K] (a b : K) : (Invalid.primeCurve a b).Δ = -16 * (4 * a ^ 3 + 27 * b ^ 2) := by
  simp only [Invalid.primeCurve, WeierstrassCurve.Δ, WeierstrassCurve.b₂, WeierstrassCurve.b₄, WeierstrassCurve.b₆, WeierstrassCurve.b₈]
  ring

theorem disc_iff (q : Nat) (hq : q.Prime) (a b : Nat) :
    haveI : Fact q.Prime := ⟨hq⟩
    (obj q hq a b).eqn.Δ = 0 ↔ (-16 * (4 * ((a : Nat) : ZMod q) ^ 3 + 27 * ((b : Nat) : ZMod q) ^ 2) : ZMod q) = 0 := by
  have : Fact q.Prime := ⟨hq⟩
  rw [← disc_obj, ← eqn_obj q hq a b]
  rfl

/-- the number of points of a nonsingular curve -/
theorem card_obj (q : Nat) (hq : q.Prime) (a b : Nat) (hd : (obj q hq a b).eqn.Δ ≠ 0) :
    haveI : Fact q.Prime := ⟨hq⟩
    q ≠ 2 ∧ Nat.card (obj q hq a b).Pt = Count.card ((a : Nat) : ZMod q) ((b : Nat) : ZMod q) := by
  have : Fact q.Prime := ⟨hq⟩
  have hd' : (Invalid.primeCurve ((a : Nat) : ZMod q) ((b : Nat) : ZMod q)).Δ ≠ 0 := by
    rw [← eqn_obj q hq a b]; exact hd
  rw [disc_obj] at hd'
  have h16 : (-16 : ZMod q) ≠ 0 := fun h => hd' (by rw [h, zero_mul])
  have h2 : (2 : ZMod q) ≠ 0 := by
    intro h
    apply h16
    linear_combination -8 * h
  have hreg : Cm.Construct.Regular (((a : Nat) : ZMod q), ((b : Nat) : ZMod q)) := fun h => hd' (by rw [h, mul_zero])
  refine ⟨?_, ?_⟩
  · rintro rfl
    exact h2 (ZMod.natCast_self 2)
  · rw [← Cm.Construct.natCard_point h2 _ _ hreg]
    change Nat.card (obj q hq a b).eqn.Point = _
    rw [eqn_obj]
    rfl

/-! ## Equations -/

theorem row_three : row Cm.discIndex = some ⟨163, (-640320) ^ 3, 3717878010⟩ := by
  unfold row
  rw [Cm.row_used]
  rfl

theorem row_zero : row 0 = some ⟨11, (-32) ^ 3, 21⟩ := rfl

theorem anomalousDraw_spec (hP : P.toPari.Ok) (p : Pick) (r r0 : Cm.Disc) (q : Nat) (h : anomalousDraw P p r r0 = some q) :
    q.Prime ∧ ∃ n, (q : Int) = Cm.anomalousP r.d (p.bs n) := by
  unfold anomalousDraw at h
  rw [Option.map_eq_some_iff] at h
  obtain ⟨n, hn, rfl⟩ := h
  have := List.find?_some hn
  rw [Bool.and_eq_true] at this
  obtain ⟨h1, h2⟩ := (isprimeI_spec P hP _).1 this.1
  exact ⟨by rw [show (Cm.anomalousP r.d (p.bs n)).toNat = (Cm.anomalousP r.d (p.bs n)).natAbs by omega]; exact h2, n, by omega⟩

/-- the anomalous curves have as many points as the field -/
theorem anomalous_counts (q : Nat) (hq : q.Prime) (b : Int) (hb : (q : Int) = Cm.anomalousP 163 b)
    (hG : haveI : Fact q.Prime := ⟨hq⟩; Count.card (-34790720 : ZMod q) 78984748304 = q + 2) (n : Nat)
    (hn : jacobiSym n q = -jacobiSym 3717878010 q) :
    ∃ ab : Nat × Nat, anomalousAB q hq ((-640320) ^ 3) n = some ab ∧ ab.1 < q ∧ ab.2 < q ∧
      ((obj q hq ab.1 ab.2).eqn.Δ ≠ 0 → Nat.card (obj q hq ab.1 ab.2).Pt = q) := by
  have : Fact q.Prime := ⟨hq⟩
  obtain ⟨h1, h2⟩ := anomalous_order q b hb hG n hn
  refine ⟨((Cm.anomalousCoeffs (((-640320) ^ 3 : Int) : ZMod q) (n : ZMod q)).1.val,
    (Cm.anomalousCoeffs (((-640320) ^ 3 : Int) : ZMod q) (n : ZMod q)).2.val), ?_, ?_, ?_, fun hd => ?_⟩
  · unfold anomalousAB
    exact if_neg h1
  · exact ZMod.val_lt _
  · exact ZMod.val_lt _
  · rw [(card_obj q hq _ _ hd).2]
    simp only [ZMod.natCast_val, ZMod.cast_id', id]
    exact h2

theorem search_symbol (nextprime : Nat → Nat) (p : Nat) : ∀ (fuel q0 q : Nat), Cm.superSearch nextprime p fuel q0 = some q →
    q % 4 = 3 ∧ jacobiSym (p : Int) q = -1 := by
  intro fuel
  induction fuel with
  | zero => intro q0 q h; simp [Cm.superSearch] at h
  | succ f ih =>
    intro q0 q h
    unfold Cm.superSearch at h
    split at h
    · rename_i h0; cases h; exact h0
    · exact ih _ _ h

theorem symbol_three (p : Nat) (h : jacobiSym (p : Int) 3 = -1) : p % 3 = 2 := by
  rw [jacobiSym.mod_left] at h
  have e : ((p : Int) % (3 : Nat)) = ((p % 3 : Nat) : Int) := by push_cast; rfl
  rw [e] at h
  have h3 : p % 3 < 3 := Nat.mod_lt _ (by omega)
  have : p % 3 = 0 ∨ p % 3 = 1 ∨ p % 3 = 2 := by omega
  rcases this with h0 | h0 | h0
  · rw [h0] at h; norm_num at h
  · rw [h0] at h; norm_num at h
  · exact h0

/-- the curves that need no class polynomial -/
theorem super_counts (nextprime : Nat → Nat) (q fuel : Nat) (hq : q.Prime) (a b : Int) (h : Cm.superEquation nextprime q fuel = some (.curve a b)) :
    haveI : Fact q.Prime := ⟨hq⟩
    Count.card (a : ZMod q) (b : ZMod q) = q + 1 := by
  have : Fact q.Prime := ⟨hq⟩
  have h2 : q ≠ 2 := by
    rintro rfl
    simp [Cm.superEquation] at h
  have hcase : (q % 4 = 3 ∨ q % 3 = 2) ∧ Cm.superEquation nextprime q (fuel + 1) = some (.curve a b) := by
    unfold Cm.superEquation at h ⊢
    rw [if_neg h2] at h ⊢
    by_cases h4 : q % 4 = 3
    · rw [if_pos h4] at h ⊢
      exact ⟨Or.inl h4, h⟩
    · rw [if_neg h4] at h ⊢
      cases hs : Cm.superSearch nextprime q fuel 3 with
      | none => rw [hs] at h; cases h
      | some n =>
        rw [hs] at h
        simp only at h
        split at h
        · rename_i hn
          subst hn
          have h3 := symbol_three q (search_symbol nextprime q fuel 3 3 hs).2
          refine ⟨Or.inr h3, ?_⟩
          have e : Cm.superSearch nextprime q (fuel + 1) 3 = some 3 := by
            unfold Cm.superSearch
            rw [if_pos ⟨by decide, (search_symbol nextprime q fuel 3 3 hs).2⟩]
          rw [e]
          exact h
        · cases h
  obtain ⟨a', b', e1, e2, -⟩ := Cm.supersingular_order nextprime q (fuel + 1) (by omega) h2 hcase.1
  rw [hcase.2] at e1
  cases e1
  exact e2

theorem cast_mod (q : Nat) [NeZero q] (a : Int) : (((a % (q : Int)).toNat : Nat) : ZMod q) = (a : ZMod q) := by
  have h0 := Int.emod_nonneg a (b := (q : Int)) (by have := NeZero.ne q; omega)
  have : (((a % (q : Int)).toNat : Int) : ZMod q) = ((a % (q : Int) : Int) : ZMod q) := by rw [Int.toNat_of_nonneg h0]
  rw [Int.cast_natCast] at this
  rw [this]
  exact ZMod.intCast_mod a q

theorem mod_lt' (q : Nat) (hq : 0 < q) (a : Int) : (a % (q : Int)).toNat < q := by
  have h0 := Int.emod_nonneg a (b := (q : Int)) (by omega)
  have h1 := Int.emod_lt_of_pos a (b := (q : Int)) (by omega)
  omega

/-- their coefficients -/
theorem super_shape (nextprime : Nat → Nat) (q fuel : Nat) (hq : q.Prime) (a b : Int) (h : Cm.superEquation nextprime q fuel = some (.curve a b)) :
    Shape q (a % (q : Int)).toNat (b % (q : Int)).toNat := by
  have h2 : q ≠ 2 := by
    rintro rfl
    simp [Cm.superEquation] at h
  have hq2 := hq.two_le
  unfold Cm.superEquation at h
  rw [if_neg h2] at h
  by_cases h4 : q % 4 = 3
  · rw [if_pos h4] at h
    cases h
    have e1 : ((q : Int) - 1) % (q : Int) = q - 1 := Int.emod_eq_of_lt (by omega) (by omega)
    rw [e1, Int.zero_emod]
    exact ⟨h2, fun _ => ⟨by omega, rfl⟩, fun h => by omega, fun h => by omega⟩
  · rw [if_neg h4] at h
    cases hs : Cm.superSearch nextprime q fuel 3 with
    | none => rw [hs] at h; cases h
    | some n =>
      rw [hs] at h
      simp only at h
      split at h
      · rename_i hn
        subst hn
        have h3 := symbol_three q (search_symbol nextprime q fuel 3 3 hs).2
        cases h
        have e1 : (1 : Int) % (q : Int) = 1 := Int.emod_eq_of_lt (by omega) (by omega)
        rw [e1, Int.zero_emod]
        exact ⟨h2, fun h => absurd h h4, fun _ => ⟨rfl, rfl⟩, fun h => by omega⟩
      · cases h

theorem root_shape (q : Nat) (hq : q.Prime) (h12 : q % 12 = 1) (j : Nat) (ab : Nat × Nat) (h : superAB q hq j = some ab) : Shape q ab.1 ab.2 := by
  have : Fact q.Prime := ⟨hq⟩
  unfold superAB at h
  split at h
  · cases h
  · simp only [Option.some.injEq] at h
    subst h
    refine ⟨by rintro rfl; omega, fun h => by omega, fun h => by omega, fun _ => ?_⟩
    rw [← ZMod.natCast_eq_zero_iff, Nat.cast_add, ZMod.natCast_val, ZMod.natCast_val, ZMod.cast_id', id, id]
    simp only [Cm.superCoeffs]
    ring

/-- the curves made from a root of the class polynomial -/
theorem root_counts (q : Nat) (hq : q.Prime) (h3 : 3 < q) (j : Nat)
    (hD : haveI : Fact q.Prime := ⟨hq⟩; ∀ a b : ZMod q, Cm.HasJ a b (j : ZMod q) → Count.card a b = q + 1) (ab : Nat × Nat) (h : superAB q hq j = some ab) :
    ab.1 < q ∧ ab.2 < q ∧ ((obj q hq ab.1 ab.2).eqn.Δ ≠ 0 → Nat.card (obj q hq ab.1 ab.2).Pt = q + 1) := by
  have : Fact q.Prime := ⟨hq⟩
  unfold superAB at h
  split at h
  · cases h
  · rename_i hj
    simp only [Option.some.injEq] at h
    subst h
    refine ⟨ZMod.val_lt _, ZMod.val_lt _, fun hd => ?_⟩
    have hc := (card_obj q hq _ _ hd).2
    simp only [ZMod.natCast_val, ZMod.cast_id', id] at hc
    rw [hc]
    have n2 : (2 : ZMod q) ≠ 0 := by
      intro h
      have h : ((2 : Nat) : ZMod q) = 0 := by exact_mod_cast h
      rw [ZMod.natCast_eq_zero_iff] at h
      have := Nat.le_of_dvd (by omega) h
      omega
    have n3 : (3 : ZMod q) ≠ 0 := by
      intro h
      have h : ((3 : Nat) : ZMod q) = 0 := by exact_mod_cast h
      rw [ZMod.natCast_eq_zero_iff] at h
      have := Nat.le_of_dvd (by omega) h
      omega
    refine hD _ _ (Cm.supersingular_j n2 n3 _ ?_ ?_)
    · intro h0
      apply hd
      have e : Cm.superCoeffs (j : ZMod q) = (0, 0) := by rw [h0]; exact (Cm.j_zero_singular (0 : ZMod q)).2
      rw [disc_iff]
      simp only [ZMod.natCast_val, ZMod.cast_id', id, e]
      ring
    · intro h0
      apply hj
      rw [h0]
      ring

end Ecgen.Special
