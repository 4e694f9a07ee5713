import Verif.Special.Lemmas

/-!
# The stages of the three methods
-/

namespace Ecgen.Special

open Whole Output Output.Spec Cli
open Seeded (Fp)

variable {P : Pari} {c : Config} {T : Nat → Pick}

theorem anomalous_only : METHOD_ANOMALOUS ≠ METHOD_SUPERSINGULAR ∧ METHOD_ANOMALOUS ≠ METHOD_FAMILY ∧ METHOD_SUPERSINGULAR ≠ METHOD_FAMILY := by decide

theorem step_seed (h : Covered c) (i : Nat) (x : St) (hi : Inv P c T 0 x) (x' : St) (d : Int)
    (ha : act P c (T i) 0 x = some (x', d)) : d = 1 ∧ Inv P c T 1 x' := by
  have skip : c.method ≠ METHOD_FAMILY → (tables c).gens.seed = some .skip → d = 1 ∧ Inv P c T 1 x' := by
    intro h1 h2
    have : act P c (T i) 0 x = some (x, 1) := by simp only [act, stageOf, h2, Option.bind_some, id, call, Whole.call, Option.map_some]
    rw [this] at ha
    cases ha
    exact ⟨rfl, inv_low (by decide) hi.quiet hi.noseed fun _ h => absurd h h1⟩
  rcases table c h with ⟨h1, h2, -⟩ | ⟨h1, h2, -⟩ | ⟨h1, h2, -⟩
  · exact skip (by rw [h1]; decide) h2
  · exact skip (by rw [h1]; decide) h2
  · obtain ⟨sd, e1, -⟩ := Bits.fromI_value (T i).z
    have : act P c (T i) 0 x = some ({ x with cur := { x.cur with seed := some sd }, z := some (T i).z }, 1) := by
      simp only [act, stageOf, h2, Option.bind_some, id]
      split <;> simp only [call, e1, Option.map_some]
    rw [this] at ha
    cases ha
    exact ⟨rfl, inv_low (by decide) hi.quiet (fun h => absurd h1 h) fun _ _ => ⟨i, sd, rfl, rfl, e1⟩⟩

/-- a field has been found -/
theorem inv_field {x : St} (hi : Inv P c T 1 x) (q : Nat) (hq : q.Prime) (hf : FieldKnown P c T x q) :
    Inv P c T 2 { x with cur := { x.cur with field := some (Fp q hq) } } :=
  { quiet := hi.quiet
    noseed := hi.noseed
    seed := fun _ => hi.seed (by omega)
    known := fun _ => ⟨q, hq, { field := rfl, prime := ⟨hf.drawn, hf.anomalous, hf.super, hf.family⟩, ab := fun h => absurd h (by omega) }⟩
    info := fun h => absurd h (by omega) }

theorem setPrime_spec (x : St) (q : Nat) (hq : q.Prime) : setPrime x q = some ({ x with cur := { x.cur with field := some (Fp q hq) } }, 1) := by
  unfold setPrime
  rw [dif_pos hq]

theorem step_field (hP : P.toPari.Ok) (h : Covered c) (hT : TapeOk P c T) (i : Nat) (x : St) (hi : Inv P c T 1 x) (x' : St) (d : Int)
    (ha : act P c (T i) 1 x = some (x', d)) : (d = 1 ∧ Inv P c T 2 x') ∨ (d = -1 ∧ x' = x) ∨ d = Engine.INT_MIN := by
  obtain ⟨m1, m2, m3⟩ := anomalous_only
  rcases table c h with ⟨h1, -, h2, -, -, h3, -⟩ | ⟨h1, -, h2, -⟩ | ⟨h1, -, h2, -⟩
  · simp only [act, stageOf, h2, h3, Option.bind_some, id, call, anomalousField, row_three, row_zero] at ha
    cases hd : anomalousDraw P (T i) ⟨163, (-640320) ^ 3, 3717878010⟩ ⟨11, (-32) ^ 3, 21⟩ with
    | none => rw [hd] at ha; cases ha; exact Or.inr (Or.inr rfl)
    | some q =>
      obtain ⟨hq, n, e⟩ := anomalousDraw_spec hP (T i) _ _ q hd
      rw [hd] at ha
      simp only [setPrime_spec x q hq, Option.some.injEq, Prod.mk.injEq] at ha
      obtain ⟨rfl, rfl⟩ := ha
      obtain ⟨lo, hi', b1, b2⟩ := (hT.picks i).bs h1
      exact Or.inl ⟨rfl, inv_field hi q hq
        { drawn := ⟨fun _ => ⟨i, n, e⟩, fun h => absurd (h1 ▸ h) m1, fun h => absurd (h1 ▸ h) m2⟩
          anomalous := fun _ => ⟨lo, hi', _, b1, (b2 n).1, (b2 n).2, e⟩
          super := fun h => absurd (h1 ▸ h) m1
          family := fun h => absurd (h1 ▸ h) m2 }⟩
  · have key : ∀ f : Fld, (f = (T i).randomField ∨ f = (T i).typedField) → FieldAsked c f.1 →
        Inv P c T 2 { x with cur := { x.cur with field := some f } } := by
      rintro ⟨f, hf⟩ hff hfa
      cases f with
      | binary m e1 e2 e3 =>
        have : c.field = 2 := hfa.1
        rw [h.field h1] at this
        cases this
      | prime q =>
        exact inv_field hi q hf
          { drawn := ⟨fun h => absurd (h1.symm.trans h).symm m1, fun _ => ⟨i, by
              rcases hff with e | e
              · exact Or.inl (by rw [← e])
              · exact Or.inr (by rw [← e])⟩, fun h => absurd (h1 ▸ h) m3⟩
            anomalous := fun h => absurd (h1.symm.trans h).symm m1
            super := fun _ => hfa
            family := fun h => absurd (h1 ▸ h) m3 }
    by_cases hr : has c.random RANDOM_FIELD = true
    · rw [if_pos hr] at h2
      simp only [act, stageOf, h2, Option.bind_some, id, call, Whole.call, Option.map_some, Option.some.injEq, Prod.mk.injEq] at ha
      obtain ⟨rfl, rfl⟩ := ha
      exact Or.inl ⟨rfl, key _ (Or.inl rfl) ((hT.picks i).randomField h1)⟩
    · rw [if_neg hr] at h2
      simp only [act, stageOf, h2, Option.bind_some, id, call, Whole.call, Option.map_some, Option.some.injEq, Prod.mk.injEq] at ha
      obtain ⟨rfl, rfl⟩ := ha
      refine Or.inl ⟨rfl, key _ (Or.inr rfl) ?_⟩
      have h3 := (hT.picks i).typedField h1
      cases hf : (T i).typedField.1 with
      | binary m e1 e2 e3 => rw [hf] at h3; exact h3
      | prime q =>
        rw [hf] at h3
        refine ⟨h3.1, fun h => absurd ?_ hr, h3.2.2⟩
        unfold has
        exact decide_eq_true h
  · obtain ⟨k, sd, e1, -⟩ := hi.seed (by omega) h1
    simp only [act, stageOf, h2, Option.bind_some, id, call, e1, familyField] at ha
    cases hg : Family.genField P.isprimeI (fam c.family) (T k).z with
    | none => rw [hg] at ha; cases ha; exact Or.inr (Or.inl ⟨rfl, rfl⟩)
    | some qi =>
      obtain ⟨-, g1, g2, -⟩ := (Family.genField_some P.isprimeI (isprimeI_spec P hP) _ _ _).1 hg
      have hq : qi.toNat.Prime := by rw [show qi.toNat = qi.natAbs by omega]; exact g2
      have hqi : ((qi.toNat : Nat) : Int) = qi := by omega
      rw [hg] at ha
      simp only [setPrime_spec x qi.toNat hq, Option.some.injEq, Prod.mk.injEq] at ha
      obtain ⟨rfl, rfl⟩ := ha
      exact Or.inl ⟨rfl, inv_field hi _ hq
        { drawn := ⟨fun h => absurd (h1.symm.trans h).symm m2, fun h => absurd (h1.symm.trans h).symm m3, fun _ => ⟨k, by rw [hqi]; exact hg⟩⟩
          anomalous := fun h => absurd (h1.symm.trans h).symm m2
          super := fun h => absurd (h1.symm.trans h).symm m3
          family := fun _ => ⟨k, e1, by rw [hqi]; exact hg⟩ }⟩

theorem step_a (h : Covered c) (i : Nat) (x : St) (hi : Inv P c T 2 x) (x' : St) (d : Int)
    (ha : act P c (T i) 2 x = some (x', d)) : d = 1 ∧ Inv P c T 3 x' := by
  obtain ⟨q, hq, hk⟩ := hi.known (by omega)
  have : act P c (T i) 2 x = some (x, 1) := by
    simp only [act, stageOf, (table_common c h).1, Option.bind_some, id, call, Whole.call, Option.map_some]
  rw [this] at ha
  cases ha
  exact ⟨rfl,
    { quiet := hi.quiet
      noseed := hi.noseed
      seed := fun _ => hi.seed (by omega)
      known := fun _ => ⟨q, hq, { field := hk.field, prime := hk.prime, ab := fun h => absurd h (by omega) }⟩
      info := fun h => absurd h (by omega) }⟩

theorem withPrime_spec {x : St} {q : Nat} {hq : q.Prime} (h : x.cur.field = some (Fp q hq)) (k : (q : Nat) → q.Prime → Option (St × Int)) :
    withPrime x k = k q hq := by
  unfold withPrime
  rw [h]

/-- coefficients have been found -/
theorem inv_ab {x y : St} {q : Nat} {hq : q.Prime} (hi : Inv P c T 3 x) (hk : Known P c T 3 x q hq) (hy : y.cur = x.cur) (hz : y.z = x.z) (ab : Nat × Nat)
    (h1 : ab.1 < q) (h2 : ab.2 < q)
    (h3 : (obj q hq ab.1 ab.2).eqn.Δ ≠ 0 →
      (c.method = METHOD_ANOMALOUS → Nat.card (obj q hq ab.1 ab.2).Pt = q) ∧ (c.method = METHOD_SUPERSINGULAR → Nat.card (obj q hq ab.1 ab.2).Pt = q + 1))
    (h4 : (c.method = METHOD_FAMILY → c.family ≠ .kss16 → c.family ≠ .kss40 → ab.1 = 0) ∧ (c.method = METHOD_SUPERSINGULAR → Shape q ab.1 ab.2)) (x' : St) (d : Int) (he : setAB y q ab = some (x', d)) :
    d = 1 ∧ Inv P c T 4 x' := by
  unfold setAB at he
  cases he
  refine ⟨rfl, ?_⟩
  rw [hy]
  exact
    { quiet := hi.quiet
      noseed := hi.noseed
      seed := fun _ h => by
        obtain ⟨i, sd, e⟩ := hi.seed (by omega) h
        exact ⟨i, sd, hz ▸ e.1, e.2⟩
      known := fun _ => ⟨q, hq,
        { field := hk.field
          prime := ⟨hk.prime.drawn, hk.prime.anomalous, hk.prime.super, fun h => by
            obtain ⟨i, e1, e2⟩ := hk.prime.family h
            exact ⟨i, hz ▸ e1, e2⟩⟩
          ab := fun _ => ⟨ab.1, ab.2, rfl, rfl, h1, h2,
            { counts := h3
              zero := h4
              crv := fun h => absurd h (by omega)
              order := fun h => absurd h (by omega)
              gens := fun h => absurd h (by omega) }⟩ }⟩
      info := fun h => absurd h (by omega) }

theorem step_b (h : Covered c) (hC : Cited P c T) (i : Nat) (x : St) (hi : Inv P c T 3 x) (x' : St) (d : Int)
    (ha : act P c (T i) 3 x = some (x', d)) : (d = 1 ∧ Inv P c T 4 x') ∨ (d = -2 ∧ x' = x) ∨ d = Engine.INT_MIN := by
  obtain ⟨m1, m2, m3⟩ := anomalous_only
  obtain ⟨q, hq, hk⟩ := hi.known (by omega)
  have hqp := hq.pos
  rcases table c h with ⟨h1, -, -, h2, -, -, h3⟩ | ⟨h1, -, -, h2, -⟩ | ⟨h1, -, -, h2, -⟩
  · obtain ⟨lo, hi', b, -, -, -, e⟩ := hk.prime.anomalous h1
    simp only [act, stageOf, h2, h3, Option.bind_some, id, call, withPrime_spec hk.field, anomalousEquation, row_three] at ha
    split at ha
    · cases ha
    · cases hc : (List.range (T i).fuel).find? fun n => decide (jacobiSym ((T i).cs q n) q = -jacobiSym 3717878010 q) with
      | none => rw [hc] at ha; cases ha; exact Or.inr (Or.inr rfl)
      | some n =>
        rw [hc] at ha
        have hn := List.find?_some hc
        rw [decide_eq_true_iff] at hn
        obtain ⟨ab, g1, g2, g3, g4⟩ := anomalous_counts q hq b e (hC.gross h1 q hq hk.prime.drawn) _ hn
        simp only [g1, Option.bind_some] at ha
        exact Or.inl (inv_ab hi hk rfl rfl ab g2 g3 (fun hd => ⟨fun _ => g4 hd, fun h => absurd (h1 ▸ h) m1⟩) ⟨fun h => absurd (h1 ▸ h) m2, fun h => absurd (h1 ▸ h) m1⟩ x' d ha)
  · have nA : c.method ≠ METHOD_ANOMALOUS := fun h => m1 (h.symm.trans h1)
    have nF : c.method ≠ METHOD_FAMILY := fun h => m3 (h1.symm.trans h)
    simp only [act, stageOf, h2, Option.bind_some, id, call, withPrime_spec hk.field, superEquation] at ha
    cases hs : Cm.superEquation P.nextprime q (T i).fuel with
    | none => rw [hs] at ha; cases ha; exact Or.inr (Or.inr rfl)
    | some r =>
      rw [hs] at ha
      cases r with
      | back => cases ha; exact Or.inr (Or.inl ⟨rfl, rfl⟩)
      | curve a b =>
        have hc := super_counts P.nextprime q (T i).fuel hq a b hs
        have : NeZero q := ⟨by omega⟩
        refine Or.inl (inv_ab hi hk rfl rfl _ (mod_lt' q hqp a) (mod_lt' q hqp b) (fun hd => ⟨fun h => absurd h nA, fun _ => ?_⟩)
          ⟨fun h => absurd h nF, fun _ => super_shape P.nextprime q (T i).fuel hq a b hs⟩ x' d ha)
        rw [(card_obj q hq _ _ hd).2, cast_mod, cast_mod]
        exact hc
      | root n =>
        simp only at ha
        cases hl : P.roots n q with
        | nil => rw [hl] at ha; cases ha
        | cons j l =>
          rw [hl] at ha
          simp only at ha
          cases hab : superAB q hq j with
          | none => rw [hab] at ha; cases ha
          | some ab =>
            rw [hab] at ha
            have hr := (haveI : Fact q.Prime := ⟨hq⟩; Cm.supersingular_root_branch P.nextprime q (T i).fuel n hs)
            have h3q : 3 < q := by have := hr.1; have := hq.two_le; omega
            obtain ⟨g1, g2, g3⟩ := root_counts q hq h3q j (fun a b hj => hC.deuring h1 i q n hq hk.prime.drawn hs j (by rw [hl]; simp) a b hj) ab hab
            exact Or.inl (inv_ab hi hk rfl rfl ab g1 g2 (fun hd => ⟨fun h => absurd h nA, fun _ => g3 hd⟩) ⟨fun h => absurd h nF, fun _ => root_shape q hq hr.1 j ab hab⟩ x' d ha)
  · have nA : c.method ≠ METHOD_ANOMALOUS := fun h => m2 (h.symm.trans h1)
    have nS : c.method ≠ METHOD_SUPERSINGULAR := fun h => m3 (h.symm.trans h1)
    by_cases hf : c.family = .kss16 ∨ c.family = .kss40
    · rw [if_pos hf] at h2
      simp only [act, stageOf, h2, Option.bind_some, id, call, withPrime_spec hk.field] at ha
      refine Or.inl (inv_ab hi hk rfl rfl _ (Nat.mod_lt _ hqp) (Nat.mod_lt _ hqp) (fun _ => ⟨fun h => absurd h nA, fun h => absurd h nS⟩)
        ⟨?_, fun h => absurd h nS⟩ x' d ha)
      intro _ f1 f2
      rcases hf with hf | hf
      · exact absurd hf f1
      · exact absurd hf f2
    · rw [if_neg hf] at h2
      simp only [act, stageOf, h2, Option.bind_some, id, call, withPrime_spec hk.field, familyIter] at ha
      exact Or.inl (inv_ab (y := { x with sb := some (nextB x), scb := some x.ptr }) hi hk rfl rfl _ hqp (Nat.mod_lt _ hqp)
        (fun _ => ⟨fun h => absurd h nA, fun h => absurd h nS⟩) ⟨fun _ _ _ => rfl, fun h => absurd h nS⟩ x' d ha)

theorem inv_of {s : Nat} {x : St} {q : Nat} {hq : q.Prime} {a b : Nat} (h1 : c.metadata = false → x.cur.info = [])
    (h2 : c.method ≠ METHOD_FAMILY → x.cur.seed = none)
    (h3 : c.method = METHOD_FAMILY → ∃ i sd, x.z = some (T i).z ∧ x.cur.seed = some sd ∧ Bits.fromI (T i).z = some sd)
    (h5 : x.cur.field = some (Fp q hq)) (h6 : FieldKnown P c T x q) (h8 : x.cur.a = some (.intmod a q))
    (h9 : x.cur.b = some (.intmod b q)) (ha : a < q) (hb : b < q) (hc : CurveKnown P c T s x q hq a b)
    (h10 : 9 ≤ s → (∀ i ∈ x.cur.info, i.1 ∈ Parson.metaNames) ∧ (x.cur.info.map (·.1)).Nodup) : Inv P c T s x where
  quiet := h1
  noseed := h2
  seed _ := h3
  known _ := ⟨q, hq, ⟨h5, h6, fun _ => ⟨a, b, h8, h9, ha, hb, hc⟩⟩⟩
  info := h10

/-- every check that does not ask for hex digits accepts -/
def Accepts (c : Config) (s : Nat) (x : St) : Prop := ∀ k ∈ checksOf c s, k ≠ .hexParam → ∃ v, verdict x k = some v ∧ 0 < v

/-- what a call of a generator may come to: the next stage, if the checks accept; a failure that falls back to an earlier one -/
def Goes (P : Pari) (c : Config) (T : Nat → Pick) (s : Nat) (x' : St) (d : Int) : Prop :=
  (d = 1 ∧ Inv P c T 1 x' ∧ (Accepts c s x' → Inv P c T (s + 1) x')) ∨
  (d ≤ 0 ∧ (0 ≤ (s : Int) + d → ∃ k : Nat, (k ≤ 1 ∨ k = 3) ∧ (s : Int) + d = k ∧ Inv P c T k x'))

theorem goes_min (s : Nat) (hs : s < 9) (x' : St) : Goes P c T s x' Engine.INT_MIN :=
  Or.inr ⟨by decide, fun h => absurd h (by simp only [Engine.INT_MIN]; omega)⟩

theorem step_curve (h : Covered c) (i : Nat) (x : St) (hi : Inv P c T 4 x) (x' : St) (d : Int)
    (ha : act P c (T i) 4 x = some (x', d)) : Goes P c T 4 x' d := by
  obtain ⟨q, hq, hk⟩ := hi.known (by omega)
  obtain ⟨a, b, e1, e2, e3, e4, hc⟩ := hk.ab (by omega)
  have e : act P c (T i) 4 x = some ({ x with cur := { x.cur with crv := some (obj q hq a b) } }, 1) := by
    simp only [act, stageOf, (table_common c h).2.1, Option.bind_some, id, call, Whole.call, hk.field, e1, e2, Option.map_some]
  rw [e] at ha
  cases ha
  refine Or.inl ⟨rfl, inv_low (by omega) hi.quiet hi.noseed fun _ => hi.seed (by omega), fun hacc => ?_⟩
  obtain ⟨v, hv, h0⟩ := hacc .curveNonzero (by rw [table_checks c h]; simp) (by decide)
  simp only [verdict, Option.map_some, Option.some.injEq] at hv
  have hd : (obj q hq a b).eqn.Δ ≠ 0 := by
    intro hd
    rw [if_pos hd] at hv
    omega
  refine inv_of hi.quiet hi.noseed (hi.seed (by omega)) hk.field ⟨hk.prime.drawn, hk.prime.anomalous, hk.prime.super, hk.prime.family⟩
    e1 e2 e3 e4 ?_ (fun h => by omega)
  exact
    { counts := hc.counts
      zero := hc.zero
      crv := fun _ => ⟨rfl, hd⟩
      order := fun h => absurd h (by omega)
      gens := fun h => absurd h (by omega) }

theorem step_order (hP : P.toPari.Ok) (h : Covered c) (i : Nat) (x : St) (hi : Inv P c T 5 x) (x' : St) (d : Int)
    (ha : act P c (T i) 5 x = some (x', d)) : Goes P c T 5 x' d := by
  obtain ⟨m1, m2, m3⟩ := anomalous_only
  obtain ⟨q, hq, hk⟩ := hi.known (by omega)
  obtain ⟨a, b, e1, e2, e3, e4, hc⟩ := hk.ab (by omega)
  obtain ⟨e5, hd⟩ := hc.crv (by omega)
  have key : Sized P c T q (Nat.card (obj q hq a b).Pt) → (c.method = METHOD_FAMILY → ∃ z, x.z = some z ∧ ∃ r : Nat,
        Family.rz (fam c.family) (Family.nz (fam c.family) z) = r ∧ r ∣ Nat.card (obj q hq a b).Pt) →
      Goes P c T 5 { x with cur := { x.cur with order := some (Nat.card (obj q hq a b).Pt) } } 1 := fun ho hz =>
    Or.inl ⟨rfl, inv_low (by omega) hi.quiet hi.noseed fun _ => hi.seed (by omega), fun _ =>
      inv_of hi.quiet hi.noseed (hi.seed (by omega)) hk.field ⟨hk.prime.drawn, hk.prime.anomalous, hk.prime.super, hk.prime.family⟩ e1 e2 e3 e4
        { counts := hc.counts
          zero := hc.zero
          crv := fun _ => ⟨e5, hd⟩
          order := fun _ => ⟨rfl, ho, hz⟩
          gens := fun h => absurd h (by omega) } (fun h => by omega)⟩
  rcases table c h with ⟨h1, -, -, -, h2, -⟩ | ⟨h1, -, -, -, h2⟩ | ⟨h1, -, -, -, h2⟩
  · have hn := (hc.counts hd).1 h1
    simp only [act, stageOf, h2, Option.bind_some, id, call, withPrime_spec hk.field, e5, Option.map_some, Option.some.injEq, Prod.mk.injEq] at ha
    obtain ⟨rfl, rfl⟩ := ha
    have := key ⟨fun _ => hn, fun h => absurd (h1 ▸ h) m1, fun h => absurd (h1 ▸ h) m2⟩ (fun h => absurd (h1 ▸ h) m2)
    rw [hn] at this
    rw [← e5]
    exact this
  · have hn := (hc.counts hd).2 h1
    have nA : c.method ≠ METHOD_ANOMALOUS := fun h => m1 (h.symm.trans h1)
    have nF : c.method ≠ METHOD_FAMILY := fun h => m3 (h1.symm.trans h)
    simp only [act, stageOf, h2, Option.bind_some, id, call, withPrime_spec hk.field, e5, Option.map_some, Option.some.injEq, Prod.mk.injEq] at ha
    obtain ⟨rfl, rfl⟩ := ha
    have := key ⟨fun h => absurd h nA, fun _ => hn, fun h => absurd h nF⟩ (fun h => absurd h nF)
    rw [hn] at this
    rw [← e5]
    exact this
  · have nA : c.method ≠ METHOD_ANOMALOUS := fun h => m2 (h.symm.trans h1)
    have nS : c.method ≠ METHOD_SUPERSINGULAR := fun h => m3 (h.symm.trans h1)
    obtain ⟨k, z1, z2⟩ := hk.prime.family h1
    obtain ⟨-, -, -, r, r1, r2, r3⟩ := (Family.genField_some P.isprimeI (isprimeI_spec P hP) _ _ _).1 z2
    simp only [act, stageOf, h2, Option.bind_some, id, call, z1, e5, Option.map_some, Option.some.injEq, familyOrder, Family.genOrder, r1,
      Family.asInt_cast, hP.card _ hd] at ha
    by_cases hr : r ∣ (Nat.card (obj q hq a b).Pt : Int)
    · rw [if_pos hr] at ha
      simp only [Int.toNat_natCast, Prod.mk.injEq] at ha
      obtain ⟨rfl, rfl⟩ := ha
      obtain ⟨n, rfl⟩ : ∃ n : Nat, r = n := ⟨r.toNat, by omega⟩
      have hn : n ∣ Nat.card (obj q hq a b).Pt := by exact_mod_cast hr
      have r1' : Family.rz (fam c.family) (Family.nz (fam c.family) (T k).z) = ((n : Nat) : ℚ) := by rw [r1]; push_cast; rfl
      have := key ⟨fun h => absurd h nA, fun h => absurd h nS, fun _ => ⟨k, z2, n, r1', hn⟩⟩ fun _ => ⟨_, z1, n, r1', hn⟩
      rw [← e5, ← z1]
      exact this
    · rw [if_neg hr] at ha
      simp only [Prod.mk.injEq] at ha
      obtain ⟨rfl, rfl⟩ := ha
      refine Or.inr ⟨by decide, fun _ => ⟨3, by omega, by decide, ?_⟩⟩
      exact ⟨hi.quiet, hi.noseed, fun _ => hi.seed (by omega), fun _ => ⟨q, hq, hk.field, hk.prime, fun h => absurd h (by omega)⟩, fun h => absurd h (by omega)⟩

theorem step_gens (hP : P.toPari.Ok) (h : Covered c) (hT : TapeOk P c T) (i : Nat) (x : St) (hi : Inv P c T 6 x) (x' : St) (d : Int)
    (ha : act P c (T i) 6 x = some (x', d)) : Goes P c T 6 x' d := by
  obtain ⟨q, hq, hk⟩ := hi.known (by omega)
  obtain ⟨a, b, e1, e2, e3, e4, hc⟩ := hk.ab (by omega)
  obtain ⟨e5, hd⟩ := hc.crv (by omega)
  obtain ⟨e6, hn, hz⟩ := hc.order (by omega)
  have hg := hT.gens i q hq a b hk.prime.drawn hd hn
  have hord := hP.ord (obj q hq a b)
  have filt : ∀ o : Option (List (Group.Pt (obj q hq a b).Pt)), (∀ l, o = some l → GensKnown (obj q hq a b).Pt (view c) l) →
      ∀ r, found x.cur (obj q hq a b) o = r → Goes P c T 6 { x with cur := r.1 } r.2 := by
    intro o o1 r hr
    subst hr
    cases o with
    | none => exact Or.inr ⟨by change (-5 : Int) ≤ 0; decide, fun _ => ⟨1, by omega, by change (6 : Int) + -5 = 1; decide, hi.low 1 (by omega) (by omega)⟩⟩
    | some l =>
      refine Or.inl ⟨rfl, inv_low (by omega) hi.quiet hi.noseed fun _ => hi.seed (by omega), fun _ => ?_⟩
      exact inv_of hi.quiet hi.noseed (hi.seed (by omega)) hk.field ⟨hk.prime.drawn, hk.prime.anomalous, hk.prime.super, hk.prime.family⟩
        e1 e2 e3 e4
        { counts := hc.counts
          zero := hc.zero
          crv := fun _ => ⟨e5, hd⟩
          order := fun _ => ⟨e6, hn, hz⟩
          gens := fun _ => ⟨bare l, rfl, by rw [bare_gen]; exact o1 l rfl, fun _ g hg => by
            unfold bare at hg
            rw [List.mem_map] at hg
            obtain ⟨_, _, rfl⟩ := hg
            rfl, fun h => absurd h (by omega)⟩ } (fun h => by omega)
  have ht := (table_common c h).2.2.1
  cases hu : (view c).unique with
  | true =>
    rw [hu, if_pos rfl] at ht
    simp only [act, stageOf, ht, Option.bind_some, id, call, Whole.call, e5, e6, gensStage, Option.map_some, Option.some.injEq, Prod.mk.injEq] at ha
    obtain ⟨rfl, rfl⟩ := ha
    exact filt _ (fun l hl => known_one (view c) hu _ hord _ hg l hl) _ rfl
  | false =>
    rw [hu, if_neg (by decide)] at ht
    simp only [act, stageOf, ht, Option.bind_some, id, call, Whole.call, e5, e6, gensStage, Option.map_some, Option.some.injEq, Prod.mk.injEq] at ha
    obtain ⟨rfl, rfl⟩ := ha
    refine filt _ (fun l hl => ?_) _ rfl
    cases hl
    exact known_any (view c) hu rfl _ hord _ hg

theorem step_points (hP : P.toPari.Ok) (h : Covered c) (hT : TapeOk P c T) (i : Nat) (x : St) (hi : Inv P c T 7 x) (x' : St) (d : Int)
    (ha : act P c (T i) 7 x = some (x', d)) : d = 1 ∧ Inv P c T 8 x' := by
  obtain ⟨q, hq, hk⟩ := hi.known (by omega)
  obtain ⟨a, b, e1, e2, e3, e4, hc⟩ := hk.ab (by omega)
  obtain ⟨e5, hd⟩ := hc.crv (by omega)
  obtain ⟨l, e6, hg, e7, -⟩ := hc.gens (by omega)
  have htab := (table_common c h).2.2.2.1
  have harg := (table_common c h).2.2.2.2.1
  have key : ∀ l', l'.map Group.Sub.gen = l.map Group.Sub.gen → ((∀ g ∈ l', g.gen.point ≠ 0) → PointsKnown c l') →
      ∀ y, y = { x with cur := { x.cur with gens := some ⟨obj q hq a b, l'⟩ } } → Inv P c T 8 y := by
    rintro l' hl' hps y rfl
    exact inv_of hi.quiet hi.noseed (hi.seed (by omega)) hk.field ⟨hk.prime.drawn, hk.prime.anomalous, hk.prime.super, hk.prime.family⟩
      e1 e2 e3 e4
      { counts := hc.counts
        zero := hc.zero
        crv := fun _ => ⟨e5, hd⟩
        order := fun _ => hc.order (by omega)
        gens := fun _ => ⟨l', rfl, by rw [hl']; exact hg, fun h => by omega, fun _ => hps⟩ } (fun h => by omega)
  have hcall : call P c (T i) ((ainit c).points) x (pointsChoice c) =
      (Whole.call P.toPari c.bits (T i).toPick (ainit c).points x.cur (pointsChoice c)).map fun r => ({ x with cur := r.1 }, r.2) := by
    unfold pointsChoice
    cases c.pointsType with
    | random => simp only; split <;> rfl
    | _ => rfl
  simp only [act, stageOf, htab, harg, Option.bind_some, id] at ha
  rw [hcall, Option.map_eq_some_iff] at ha
  obtain ⟨⟨y, d'⟩, ha, he⟩ := ha
  cases he
  by_cases hn : c.pointsType = .none
  · have : pointsChoice c = .skip := by simp only [pointsChoice, hn]
    rw [this] at ha
    simp only [Whole.call, Option.some.injEq, Prod.mk.injEq] at ha
    obtain ⟨rfl, rfl⟩ := ha
    refine ⟨rfl, key l rfl (fun _ => ⟨fun s hs => ⟨[], ?_, fun q hq => (nomatch hq), fun Q hQ => ?_⟩, (fun h => by rw [hn] at h; cases h), (fun h => by rw [hn] at h; cases h)⟩) _ (by rw [← e6])⟩
    · rw [e7 rfl s hs]; rfl
    · simp only [pointOrders, hn, Option.some.injEq] at hQ
      subst hQ
      exact ⟨List.Pairwise.nil, fun d => ⟨fun h => (nomatch h), fun h => h.elim⟩⟩
  · rw [call_points _ _ _ _ _ _ hn] at ha
    simp only [call.withPoints, e6, e5, if_true, Option.map_eq_some_iff, Prod.mk.injEq] at ha
    obtain ⟨l', p1, rfl, rfl⟩ := ha
    have p2 := points_gen _ _ _ _ _ _ _ p1
    refine ⟨rfl, key l' p2 (fun hne => ?_) _ (by simp only [e5])⟩
    refine (points_known P.toPari hP c (T i).toPick (hT.picks i).which (hT.picks i).mul _ _ (fun g hg' => hg.order g hg') (fun g hg' => ?_) _ p1).2
    rw [← p2] at hg'
    obtain ⟨s, hs, rfl⟩ := List.mem_map.1 hg'
    exact hne s hs

theorem step_metadata (h : Covered c) (hT : TapeOk P c T) (i : Nat) (x : St) (hi : Inv P c T 8 x) (x' : St) (d : Int)
    (ha : act P c (T i) 8 x = some (x', d)) : d = 1 ∧ Inv P c T 9 x' := by
  obtain ⟨q, hq, hk⟩ := hi.known (by omega)
  obtain ⟨a, b, e1, e2, e3, e4, hc⟩ := hk.ab (by omega)
  obtain ⟨l, e6, hg, -, hps⟩ := hc.gens (by omega)
  have htab := (table_common c h).2.2.2.2.2
  have key : ∀ i : List (String × Text), (c.metadata = false → i = []) → (∀ y ∈ i, y.1 ∈ Parson.metaNames) ∧ (i.map (·.1)).Nodup →
      ∀ y, y = { x with cur := { x.cur with info := i } } → Inv P c T 9 y := by
    rintro i f1 f2 y rfl
    exact inv_of f1 hi.noseed (hi.seed (by omega)) hk.field ⟨hk.prime.drawn, hk.prime.anomalous, hk.prime.super, hk.prime.family⟩ e1 e2 e3 e4
      { counts := hc.counts
        zero := hc.zero
        crv := fun _ => hc.crv (by omega)
        order := fun _ => hc.order (by omega)
        gens := fun _ => ⟨l, e6, hg, fun h => by omega, fun _ => hps (by omega)⟩ } (fun _ => f2)
  cases hm : c.metadata with
  | true =>
    simp only [act, stageOf, htab, hm, if_true, Option.bind_some, id, call, Whole.call, Option.map_some, Option.some.injEq, Prod.mk.injEq] at ha
    obtain ⟨rfl, rfl⟩ := ha
    exact ⟨rfl, key _ (fun h => by rw [hm] at h; cases h) (hT.picks i).info _ rfl⟩
  | false =>
    have : act P c (T i) 8 x = some (x, 1) := by
      simp only [act, stageOf, htab, hm, Bool.false_eq_true, if_false, Option.bind_some, id, call, Whole.call, Option.map_some]
    rw [this] at ha
    cases ha
    exact ⟨rfl, key [] (fun _ => rfl) ⟨fun y hy => (nomatch hy), List.nodup_nil⟩ _ (by rw [← hi.quiet hm])⟩

/-- a call of the generator of a stage -/
theorem goes (hP : P.toPari.Ok) (h : Covered c) (hT : TapeOk P c T) (hC : Cited P c T) (i : Nat) (s : Nat) (hs : s < 9) (x : St) (hi : Inv P c T s x)
    (x' : St) (d : Int) (ha : act P c (T i) s x = some (x', d)) : Goes P c T s x' d := by
  have up : ∀ s, d = 1 ∧ Inv P c T (s + 1) x' → Goes P c T s x' d := fun s hh => Or.inl ⟨hh.1, hh.2.low 1 (by omega) (by omega), fun _ => hh.2⟩
  match s, hs with
  | 0, _ => exact up 0 (step_seed h i x hi x' d ha)
  | 1, _ =>
    rcases step_field hP h hT i x hi x' d ha with hh | ⟨rfl, rfl⟩ | rfl
    · exact up 1 hh
    · exact Or.inr ⟨by decide, fun _ => ⟨0, by omega, by decide, hi.low 0 (by omega) (by omega)⟩⟩
    · exact goes_min 1 (by omega) x'
  | 2, _ => exact up 2 (step_a h i x hi x' d ha)
  | 3, _ =>
    rcases step_b h hC i x hi x' d ha with hh | ⟨rfl, rfl⟩ | rfl
    · exact up 3 hh
    · exact Or.inr ⟨by decide, fun _ => ⟨1, by omega, by decide, hi.low 1 (by omega) (by omega)⟩⟩
    · exact goes_min 3 (by omega) x'
  | 4, _ => exact step_curve h i x hi x' d ha
  | 5, _ => exact step_order hP h i x hi x' d ha
  | 6, _ => exact step_gens hP h hT i x hi x' d ha
  | 7, _ => exact up 7 (step_points hP h hT i x hi x' d ha)
  | 8, _ => exact up 8 (step_metadata h hT i x hi x' d ha)

end Ecgen.Special
