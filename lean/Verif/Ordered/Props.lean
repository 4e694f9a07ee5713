import Verif.Ordered.Search
import Verif.Ordered.Curves

/-!
# From the command line to the printed curves of a given order (C88)
-/

namespace Ecgen.Ordered

open Whole Output Output.Spec Cli Cm.Construct
open Seeded (Fp curveOf)
open Special (obj)

variable {P : Pari} {c : Config} {prime : Bool} {N : Nat} {T : Nat → Pick}

/-- what is printed of a complete curve: field, coefficients and order are those of the construction; the rest is right if the order is -/
theorem curve_sound (x : Cur) (hi : Inv P c prime N T 9 x) (v : Output.Curve) (h : outCurve x = some v) :
    (curveV v).seed = none ∧ (curveV v).order = N ∧ ∃ i r, built P (T i) prime N = some r ∧ ∃ hp : r.p.Prime, (curveV v).field = .prime r.p ∧
      (curveV v).a = r.a.val ∧ (curveV v).b = r.b.val ∧ (curveOf r.p hp (curveV v).a (curveV v).b).Δ ≠ 0 ∧
      (∀ _ : Fact r.p.Prime, Nat.card (curveOf r.p hp (curveV v).a (curveV v).b).Point = Count.card r.a r.b) ∧
      (Nat.card (curveOf r.p hp (curveV v).a (curveV v).b).Point = N → Special.Sound (cv c prime) c.unique (curveV v) r.p hp) := by
  obtain ⟨r, hp, hk⟩ := hi.known (by omega)
  have ho := hk.order (by omega)
  obtain ⟨l, hl, hmk, -, hps⟩ := hk.gens (by omega)
  obtain ⟨j, hj⟩ := hk.built
  have : Fact r.p.Prime := ⟨hp⟩
  have ha' : r.a.val < r.p := ZMod.val_lt _
  have hb' : r.b.val < r.p := ZMod.val_lt _
  simp only [outCurve, hk.field, hk.a, hk.b, ho, hl, Option.map_eq_some_iff] at h
  obtain ⟨gs, hgs, rfl⟩ := h
  have hgs := allSome_eq _ _ hgs
  have hsub : List.Forall₂ (fun (s : Group.Sub (obj r.p hp r.a.val r.b.val).Pt) g => outSub (obj r.p hp r.a.val r.b.val) s = some g) l gs := by
    have : List.Forall₂ (· = ·) (l.map (outSub (obj r.p hp r.a.val r.b.val))) (gs.map some) := by rw [hgs]; exact List.forall₂_refl _
    rw [List.forall₂_map_left_iff, List.forall₂_map_right_iff] at this
    exact this
  have hpk := hps (by omega)
  have e0 : (curveV ⟨x.seed, out (Fp r.p hp).1, .intmod r.a.val r.p, .intmod r.b.val r.p, Nat.card (obj r.p hp r.a.val r.b.val).Pt, gs, x.info⟩).field = .prime r.p :=
    fieldV_out (Fp r.p hp)
  refine ⟨by change x.seed.map seedV = none; rw [hi.noseed]; rfl, rfl, j, r, hj, hp, e0, Nat.mod_eq_of_lt ha', Nat.mod_eq_of_lt hb', hk.disc, fun _ => ?_, fun hN => ?_⟩
  · change Nat.card (obj r.p hp r.a.val r.b.val).Pt = _
    rw [(Special.card_obj r.p hp _ _ hk.disc).2, ZMod.natCast_zmod_val, ZMod.natCast_zmod_val]
  have hN : Nat.card (obj r.p hp r.a.val r.b.val).Pt = N := hN
  have hgk := hmk.known hN
  have hmem : ∀ s ∈ l, s.gen ∈ l.map Group.Sub.gen := fun s hs => List.mem_map_of_mem hs
  have hsub2 : List.Forall₂ (fun (s : Group.Sub (obj r.p hp r.a.val r.b.val).Pt) (g : Output.Subgroup) =>
      GeneratorOk (Nat.card (obj r.p hp r.a.val r.b.val).Pt) (pointV g.generator) s.gen.point ∧
      PointsOk (cv c prime) (pointV g.generator) s.gen.point (g.points.map pointV) ∧ g.points.length = s.points.length) l gs := by
    refine List.forall₂_iff_get.2 ⟨hsub.length_eq, fun i i1 i2 => ?_⟩
    have hm : l.get ⟨i, i1⟩ ∈ l := List.get_mem _ _
    exact sub_printed (cv c prime) _ _ _ ((List.forall₂_iff_get.1 hsub).2 i i1 i2) (hgk.order _ (hmem _ hm)) (hgk.cofactor _ (hmem _ hm))
      fun _ => hpk.listed _ hm
  have hF : List.Forall₂ (fun (g : PointV × List PointV) (G : (obj r.p hp r.a.val r.b.val).Pt) =>
      GeneratorOk (Nat.card (obj r.p hp r.a.val r.b.val).Pt) g.1 G ∧ PointsOk (cv c prime) g.1 G g.2)
      (gs.map fun g => (pointV g.generator, g.points.map pointV)) ((l.map Group.Sub.gen).map Group.Pt.point) := by
    rw [List.map_map, List.forall₂_map_left_iff, List.forall₂_map_right_iff]
    exact hsub2.flip.imp fun g s h => ⟨h.1, h.2.1⟩
  have hNn : (cv c prime).pointsType = .random → (cv c prime).pointsAmount ≠ 0 →
      ((gs.map fun g => (pointV g.generator, g.points.map pointV)).map fun g => g.2.length).sum = (cv c prime).pointsAmount := by
    intro hr h0
    rw [← hpk.count hr h0, List.map_map]
    congr 1
    rw [← sum_lengths (fun s g h => h.2.2) hsub2]
    apply List.map_congr_left
    intro g _
    simp
  refine ⟨e0, Nat.mod_lt _ hp.pos, Nat.mod_lt _ hp.pos, hk.disc, hN.symm, _, ?_, hgk.all (Or.inr rfl), fun hu => ?_, hNn⟩
  · rw [← hN]; exact hF
  · rw [← hN]
    rcases hgk.unique hu with ⟨u1, u2⟩ | ⟨g, u1, u2⟩
    · exact Or.inl ⟨u1, by rw [u2]; rfl⟩
    · exact Or.inr ⟨g.point, by rw [u1]; rfl, u2⟩

/-- **the curve at the end of the search, as printed, is one that was asked for**, if its construction was right -/
theorem ordered_asked (hP : P.Ok) (ns : List Nat) (hf : Factors (c.cmOrder.getD []) ns)
    (hacc : accepted P c = some (N, prime)) (x : Cur) (hi : Inv P c prime N T 9 x) (v : Output.Curve) (h : outCurve x = some v)
    (hR : ∀ i r, built P (T i) prime N = some r → (curveV v).a = r.a.val →
      (∃ _ : Fact r.p.Prime, Count.card r.a r.b = N) ∧ ((r.p : Int) + 1 - N) ^ 2 ≤ 4 * r.p) :
    OrderedAsked c ns (curveV v) := by
  obtain ⟨h1, h3, i, r, hb, hp, -, ha, -, -, hcd, h2⟩ := curve_sound x hi v h
  obtain ⟨⟨_, hcard⟩, h4⟩ := hR i r hb ha
  have hs := h2 ((hcd ⟨hp⟩).trans hcard)
  obtain ⟨rfl, -, h5, h6⟩ := accepted_factors hP ns hf hacc
  refine ⟨h1, r.p, hp, ?_, h3, h4, h5⟩
  have : cv c prime = pointsView c ns := by
    unfold cv pointsView
    by_cases hb : prime = true
    · rw [if_pos hb, if_pos (h6.1 hb)]
    · rw [if_neg hb, if_neg fun h => hb (h6.2 h)]
  rw [← this]
  exact hs

/-- and it can be printed, if its text is not too long -/
theorem curve_printable (x : Cur) (hi : Inv P c prime N T 9 x) (v : Output.Curve) (h : outCurve x = some v)
    (hs : ∀ j, Parson.outputJjson c.hexDigits v = .ok j → (Parson.render true 0 j).length ≤ 2147483646) :
    Parson.PrintableText c.hexDigits v := by
  obtain ⟨r, hp, hk⟩ := hi.known (by omega)
  have ho := hk.order (by omega)
  obtain ⟨l, hg, -⟩ := hk.gens (by omega)
  simp only [outCurve, hk.field, hk.a, hk.b, ho, hg, Option.map_eq_some_iff] at h
  obtain ⟨gs, hgs, rfl⟩ := h
  refine ⟨⟨out_ne (Fp r.p hp).1, fun s hs => ?_⟩, terms_out (Fp r.p hp), (hi.info (by omega)).1, (hi.info (by omega)).2, hs⟩
  change x.seed = some s at hs
  rw [hi.noseed] at hs
  cases hs

/-! ## The run -/

/-- the curves of a run are complete -/
theorem generated_complete (P : Pari) (hP : P.Ok) (c : Config) (h : c.method = METHOD_CM) (hacc : accepted P c = some (N, prime)) (T : Nat → Pick)
    (hT : TapeOk P c prime N T) (fuel : Nat) :
    ∀ (n : Nat) (w : W), Behaves T w → ∀ v ∈ Json.generated (one P c fuel) n w, ∃ x, Inv P c prime N T 9 x ∧ outCurve x = some v := by
  intro n
  induction n with
  | zero => intro w _ v hv; cases hv
  | succ n ih =>
    intro w hb v hv
    unfold Json.generated at hv
    have key : ∀ o w', one P c fuel w = (o, w') → Behaves T w' ∧ ∀ u, o = some u → ∃ x, Inv P c prime N T 9 x ∧ outCurve x = some u := by
      intro o w' ho
      unfold one at ho
      cases hg : Engine.gen (setup P c) 0 9 fuel (fresh w) with
      | none => rw [hg] at ho; cases ho; exact ⟨hb, fun u hu => by cases hu⟩
      | some r =>
        obtain ⟨r, st⟩ := r
        rw [hg] at ho
        obtain ⟨h1, h2⟩ := search P hP c h hacc hT fuel (fresh w) hb (inv_low (by omega) (fun _ => rfl) rfl) r st hg
        simp only [Prod.mk.injEq] at ho
        obtain ⟨rfl, rfl⟩ := ho
        refine ⟨h1, fun u hu => ?_⟩
        rcases h2 with ⟨rfl, h2⟩ | rfl
        · rw [if_neg (by decide)] at hu
          exact ⟨_, h2, hu⟩
        · rw [if_pos rfl] at hu
          cases hu
    cases ho : one P c fuel w with
    | mk o w' =>
      obtain ⟨k1, k2⟩ := key o w' ho
      rw [ho] at hv
      cases o with
      | none => cases hv
      | some u =>
        simp only [List.mem_cons] at hv
        rcases hv with rfl | hv
        · exact k2 _ rfl
        · exact ih w' k1 v hv

/-- the curves of a run and what is printed of them -/
theorem run_prints (malloc : Nat → List Parson.Byte) (hm : ∀ n, (malloc n).length = n) (P : Pari) (hP : P.Ok) (c : Config) (h : c.method = METHOD_CM)
    (fuel : Nat) (w : W) (hT : ∀ N prime, accepted P c = some (N, prime) → TapeOk P c prime N w.tape) (hstatus : (produce P c fuel w).2 = 0)
    (hs : ∀ v ∈ Json.generated (one P c fuel) (toSize c.count) w, ∀ j, Parson.outputJjson c.hexDigits v = .ok j →
      (Parson.render true 0 j).length ≤ 2147483646) (Q : CurveV → Prop) 
    (hQ : ∀ N prime x v, accepted P c = some (N, prime) → Inv P c prime N w.tape 9 x → outCurve x = some v → Q (curveV v)) :
    ∃ js : List Output.Json, (∀ j, Parson.Spec.Document (bytes malloc P c fuel w) (Parson.encode j) ↔ j = .arr js) ∧ js.length = toSize c.count ∧
      ∀ j ∈ js, ∃ v, readCurve j = some v ∧ Q v := by
  cases hacc : accepted P c with
  | none => simp only [produce, hacc] at hstatus; exact absurd hstatus (by decide)
  | some y =>
  obtain ⟨N, prime⟩ := y
  have hby : bytes malloc P c fuel w = Parson.outputText (Parson.curveText malloc c.hexDigits) (Json.generate (one P c fuel) (toSize c.count) w).1 := by
    simp only [bytes, produce, hacc]
  simp only [produce, hacc] at hstatus
  rw [hby]
  have hgen := generated_complete P hP c h hacc w.tape (hT _ _ hacc) fuel (toSize c.count) w rfl
  have hlen := (Json.generate_objects (one P c fuel) (toSize c.count) w).2.1 hstatus
  obtain ⟨js, h1, h2⟩ := Parson.output_reads malloc hm c.hexDigits (one P c fuel) (toSize c.count) w
    (fun v hv => by
      obtain ⟨x, hx, hv'⟩ := hgen v hv
      exact curve_printable x hx v hv' (hs v hv)) hlen
  refine ⟨js, h1, ?_, fun j hj => ?_⟩
  · rw [← hlen, ← List.length_map (f := readCurve), h2, List.length_map]
  · have : readCurve j ∈ (Json.generated (one P c fuel) (toSize c.count) w).map fun v => some (curveV v) := by
      rw [← h2]; exact List.mem_map_of_mem hj
    obtain ⟨v, hv, e⟩ := List.mem_map.1 this
    obtain ⟨x, hx, hv'⟩ := hgen v hv
    exact ⟨curveV v, e.symm, hQ _ _ x v hacc hx hv'⟩

/-! ## Right and wrong curves -/

theorem chosen {K : Type} [Field K] [DecidableEq K] (m1 m2 : Nat) (T : K) (e e' : K × K) :
    ∀ l, chooseAny m1 m2 T e l = some e' → e' = e ∨ e' = twist T e := by
  intro l
  induction l with
  | nil => intro h; cases h
  | cons q l ih =>
    intro h
    unfold chooseAny at h
    split at h
    · cases h; exact Or.inl rfl
    split at h
    · cases h; exact Or.inr rfl
    split at h
    · cases h; exact Or.inl rfl
    split at h
    · cases h; exact Or.inr rfl
    exact ih h

theorem chosenPrime {K : Type} [Field K] [DecidableEq K] (N : Nat) (T : K) (e : K × K) (g : Option (K × K)) :
    choosePrime N T e g = e ∨ choosePrime N T e g = twist T e := by
  unfold choosePrime
  split
  · exact Or.inl rfl
  · exact Or.inr rfl

theorem six_ne (p : Nat) [hF : Fact p.Prime] (hp : 4 < p) : (6 : ZMod p) ≠ 0 := by
  intro h
  have : ((6 : Nat) : ZMod p) = 0 := by exact_mod_cast h
  rw [ZMod.natCast_eq_zero_iff] at this
  have h1 := Nat.le_of_dvd (by omega) this
  have h2 := hF.1
  have : p = 5 ∨ p = 6 := by omega
  rcases this with rfl | rfl
  · omega
  · revert h2; decide

/-- a curve for a prime order has a root of the class polynomial for its j-invariant: it is that curve or its twist -/
theorem prime_shape {C : Cm.Construct.Calls} {isprime : Int → Bool} {cornacchia2 : Nat → Nat → Option (Int × Int)} {logN N fuel n : Nat} {r : Result}
    (h : cmGenPrime C isprime cornacchia2 logN N fuel n = some r) :
    ∃ _ : Fact r.p.Prime, ∃ j ∈ C.roots r.D r.p, Regular (fromJ j) ∧ ((r.a, r.b) = fromJ j ∨ (r.a, r.b) = twist (C.T r.p) (fromJ j)) := by
  unfold cmGenPrime at h
  generalize (⟨0, 0, []⟩ : QState) = s at h
  induction n generalizing s with
  | zero => cases h
  | succ n ih =>
    unfold genPrime at h
    split at h
    case h_1 => cases h
    case h_2 f s' hf =>
      split at h
      case isFalse => cases h
      case isTrue hp =>
        split at h
        case h_2 => exact ih _ h
        case h_1 r' hr =>
          cases h
          unfold constructAt at hr
          obtain ⟨e, he, rfl⟩ := Option.map_eq_some_iff.1 hr
          refine ⟨⟨hp⟩, ?_⟩
          unfold constructPrime at he
          obtain ⟨j, hj, rfl⟩ := Option.map_eq_some_iff.1 he
          refine ⟨j, List.mem_of_find?_eq_some hj, by simpa using List.find?_some hj, ?_⟩
          letI : Fact f.p.toNat.Prime := ⟨hp⟩
          exact chosenPrime (K := ZMod f.p.toNat) _ _ _ _

/-- the same for a composite order -/
theorem any_shape {C : Cm.Construct.Calls} {isprime : Int → Bool} {issquarefree : Nat → Bool} {traces : Int → Nat → List Int} {N fuel : Nat} {r : Result}
    (h : cmGenAny C isprime issquarefree traces N fuel = some (some r)) :
    ∃ _ : Fact r.p.Prime, ∃ j ∈ C.roots r.D r.p, Regular (fromJ j) ∧ ((r.a, r.b) = fromJ j ∨ (r.a, r.b) = twist (C.T r.p) (fromJ j)) := by
  unfold cmGenAny at h
  split at h
  case h_1 => cases h
  case h_2 D p hmin =>
    split at h
    case isFalse => cases h
    case isTrue hp =>
      obtain ⟨r', hr', hr⟩ := Option.map_eq_some_iff.1 h
      obtain ⟨e, rfl, rfl⟩ := Option.map_eq_some_iff.1 hr
      refine ⟨⟨hp⟩, ?_⟩
      unfold constructAny at hr'
      split at hr'
      case h_1 => cases hr'
      case h_2 j hj =>
        refine ⟨j, List.mem_of_find?_eq_some hj, by simpa using List.find?_some hj, ?_⟩
        obtain ⟨e', he, hee⟩ := Option.map_eq_some_iff.1 hr'
        cases hee
        letI : Fact p.toNat.Prime := ⟨hp⟩
        exact chosen (K := ZMod p.toNat) _ _ _ _ _ _ he

theorem built_shape {i : Nat} {r : Result} (h : built P (T i) prime N = some r) :
    ∃ _ : Fact r.p.Prime, ∃ j ∈ P.roots r.D r.p, Regular (fromJ j) ∧ ((r.a, r.b) = fromJ j ∨ (r.a, r.b) = twist ((T i).T r.p) (fromJ j)) := by
  unfold built at h
  cases prime with
  | true => exact prime_shape h
  | false =>
    rw [if_neg (by decide), Option.join_eq_some_iff] at h
    exact any_shape h

/-- the curves with `a = 0` are those with the j-invariant 0, and have a point of order 2 -/
theorem zero_wrong (hP : P.Ok) (hC : Calls.Ok P T) (h50 : 50 ≤ N) (hodd : N % 2 = 1) {i : Nat} {r : Result} (h : built P (T i) prime N = some r)
    (ha : r.a = 0) (_ : Fact r.p.Prime) : Count.card r.a r.b ≠ N := by
  obtain ⟨hF, j, hj, hreg, he⟩ := built_shape h
  have hp5 : 4 < r.p := by
    have := built_hasse hP hC h
    by_contra h4
    have h4 : (r.p : Int) ≤ 4 := by omega
    nlinarith
  have hT := hC.twist i r.p (by omega)
  have hT0 : (T i).T r.p ≠ 0 := fun h => hT (h ▸ IsSquare.zero)
  have h6 := six_ne r.p hp5
  have h2 : (2 : ZMod r.p) ≠ 0 := fun h => h6 (by rw [show (6 : ZMod r.p) = 2 * 3 by norm_num, h, zero_mul])
  have h3 : (3 : ZMod r.p) ≠ 0 := fun h => h6 (by rw [show (6 : ZMod r.p) = 2 * 3 by norm_num, h, mul_zero])
  have hj0 : j = 0 := by
    by_contra hj0
    have : (fromJ j).1 ≠ 0 := by
      unfold fromJ
      rw [if_neg hj0]
      split
      · exact one_ne_zero
      · rename_i h17
        exact mul_ne_zero h3 (mul_ne_zero (sub_ne_zero.2 (Ne.symm h17)) hj0)
    rcases he with he | he
    · exact this (by rw [← he]; exact ha)
    · have e1 : r.a = (fromJ j).1 * (T i).T r.p ^ 2 := congrArg Prod.fst he
      rw [ha] at e1
      exact mul_ne_zero this (pow_ne_zero 2 hT0) e1.symm
  subst hj0
  have h01 : fromJ (0 : ZMod r.p) = (0, 1) := by unfold fromJ; rw [if_pos rfl]
  rw [h01] at hreg he
  have h27 : (27 : ZMod r.p) ≠ 0 := by
    rw [show (27 : ZMod r.p) = 3 ^ 3 by norm_num]
    exact pow_ne_zero 3 h3
  have key : ∀ t : ZMod r.p, t ≠ 0 → Count.card 0 (t ^ 3) ≠ N := by
    intro t ht h
    have := card_cube_even r.p (by omega) t (by
      unfold Regular
      simpa using ⟨h27, ht⟩)
    omega
  rcases he with he | he
  · have e2 : r.b = 1 := congrArg Prod.snd he
    rw [ha, e2]
    simpa using key 1 one_ne_zero
  · have e2 : r.b = 1 * (T i).T r.p ^ 3 := congrArg Prod.snd he
    rw [ha, e2, one_mul]
    exact key _ hT0

/-- the curves with `a ≠ 0` do not belong to the discriminant -3 -/
theorem nonzero_disc (h3 : ∀ p, P.roots (-3) p = [0]) {i : Nat} {r : Result} (h : built P (T i) prime N = some r) (ha : r.a ≠ 0) : r.D ≠ -3 := by
  intro e
  obtain ⟨hF, j, hj, -, he⟩ := built_shape h
  rw [e, h3] at hj
  obtain rfl : j = 0 := by simpa using hj
  have h01 : fromJ (0 : ZMod r.p) = (0, 1) := by unfold fromJ; rw [if_pos rfl]
  rw [h01] at he
  rcases he with he | he
  · exact ha (congrArg Prod.fst he)
  · have e1 : r.a = 0 * (T i).T r.p ^ 2 := congrArg Prod.fst he
    exact ha (by rw [e1, zero_mul])

/-- one curve is right, if it does not belong to the discriminant -3 -/
theorem right_one (hP : P.Ok) (hC : Calls.Ok P T) (h50 : 50 ≤ N) (hN : prime = true → N.Prime) (hd : prime = false → Decided P N T) {i : Nat} {r : Result}
    (h : built P (T i) prime N = some r) (h3 : r.D ≠ -3) : (∃ _ : Fact r.p.Prime, Count.card r.a r.b = N) ∧ ((r.p : Int) + 1 - N) ^ 2 ≤ 4 * r.p := by
  refine ⟨?_, built_hasse hP hC h⟩
  cases prime with
  | true =>
    exact prime_order_partial (calls P (T i)) P.isprimeI (isprimeI_spec hP) P.cornacchia2 hC.cornacchia2 hC.roots (hC.rand i) (hC.twist i) (P.logN N) N
      (T i).rounds (T i).tries (hN rfl) h50 r h h3
  | false =>
    obtain ⟨d1, d2⟩ := hd rfl i r h
    unfold built at h
    rw [if_neg (by decide), Option.join_eq_some_iff] at h
    exact any_order_partial (calls P (T i)) P.isprimeI (isprimeI_spec hP) P.issquarefree P.traces hC.traces hC.roots (hC.twist i) N (T i).rounds h50
      (hC.rands i) r h h3 d1 d2

/-! ## From the command line -/

/-- the order that was typed -/
theorem typed (n : Int) (os : List Opt) (c : Config) (h : commandLine n os = some c) (ha : c.method = METHOD_CM) (ns : List Nat)
    (hf : ∀ s, Opt.order s ∈ os → Factors s ns) : Factors (c.cmOrder.getD []) ns := by
  obtain ⟨s, h1, h2⟩ := (consistent n os c h).cmOrder ha
  rw [h2]
  exact hf s h1

/-- **C88** From the command line to the bytes, `--order` (partial): when a run for an order of at least 50 that leaves the remainder 2 modulo 3 ends with
the status 0, what it has printed is the JSON text of an array with as many curves as were asked for, each of which is, in the numbers read back from
the text, nonsingular over a prime field and has exactly as many points as the product of the numbers typed, with the subgroups and points that the
options ask for. Cited: the theorem on complex multiplication (`RootsSpec`). Missing: the other orders, for which it is false (`order_run_wrong`); for an
order that is not one prime, that the random points decide between curve and twist (`Decided`, C64). -/
theorem order_run_prints_partial (malloc : Nat → List Parson.Byte) (hm : ∀ n, (malloc n).length = n) (P : Pari) (hP : P.Ok)
    (n : Int) (os : List Opt) (c : Config) (h : commandLine n os = some c) (ha : c.method = METHOD_CM) (ns : List Nat)
    (hf : ∀ s, Opt.order s ∈ os → Factors s ns) (h50 : 50 ≤ ns.prod) (h3 : ns.prod % 3 = 2)
    (fuel : Nat) (w : W) (hT : ∀ N prime, accepted P c = some (N, prime) → TapeOk P c prime N w.tape) (hC : Calls.Ok P w.tape)
    (hd : ¬ (ns.length = 1 ∧ ns.prod.Prime) → Decided P ns.prod w.tape) (hstatus : (produce P c fuel w).2 = 0)
    (hs : ∀ v ∈ Json.generated (one P c fuel) (toSize c.count) w, ∀ j, Parson.outputJjson c.hexDigits v = .ok j →
      (Parson.render true 0 j).length ≤ 2147483646) :
    ∃ js : List Output.Json, (∀ j, Parson.Spec.Document (bytes malloc P c fuel w) (Parson.encode j) ↔ j = .arr js) ∧ js.length = toSize c.count ∧
      ∀ j ∈ js, ∃ v, readCurve j = some v ∧ OrderedAsked c ns v := by
  have hF := typed n os c h ha ns hf
  refine run_prints malloc hm P hP c ha fuel w hT hstatus hs _ fun N prime x v hacc hx hv => ?_
  obtain ⟨rfl, -, -, h6⟩ := accepted_factors hP ns hF hacc
  refine ordered_asked hP ns hF hacc x hx v hv fun i r hb _ => right hP hC h50 (fun e => (h6.1 e).2) (fun i r hb => ?_) (fun e => hd fun k => ?_) i r hb
  · obtain ⟨-, -, u, hu⟩ := built_found hP hC hb
    exact disc_ne _ _ _ u h3 hu
  · rw [h6.2 k] at e
    cases e

/-- **C88** What a run of `--order` prints for an odd order of at least 50: a curve `y² = x³ + b` never has the order that is printed with it, and every
other curve is what was asked for. -/
theorem order_run_wrong (malloc : Nat → List Parson.Byte) (hm : ∀ n, (malloc n).length = n) (P : Pari) (hP : P.Ok)
    (n : Int) (os : List Opt) (c : Config) (h : commandLine n os = some c) (ha : c.method = METHOD_CM) (ns : List Nat)
    (hf : ∀ s, Opt.order s ∈ os → Factors s ns) (h50 : 50 ≤ ns.prod) (hodd : ns.prod % 2 = 1) (h3 : ∀ p, P.roots (-3) p = [0])
    (fuel : Nat) (w : W) (hT : ∀ N prime, accepted P c = some (N, prime) → TapeOk P c prime N w.tape) (hC : Calls.Ok P w.tape)
    (hd : ¬ (ns.length = 1 ∧ ns.prod.Prime) → Decided P ns.prod w.tape) (hstatus : (produce P c fuel w).2 = 0)
    (hs : ∀ v ∈ Json.generated (one P c fuel) (toSize c.count) w, ∀ j, Parson.outputJjson c.hexDigits v = .ok j →
      (Parson.render true 0 j).length ≤ 2147483646) :
    ∃ js : List Output.Json, (∀ j, Parson.Spec.Document (bytes malloc P c fuel w) (Parson.encode j) ↔ j = .arr js) ∧ js.length = toSize c.count ∧
      ∀ j ∈ js, ∃ v, readCurve j = some v ∧ (v.a ≠ 0 → OrderedAsked c ns v) ∧
        (v.a = 0 → v.order = ns.prod ∧ ∃ (p : Nat) (hp : p.Prime), v.field = .prime p ∧ Nat.card (curveOf p hp v.a v.b).Point ≠ v.order) := by
  have hF := typed n os c h ha ns hf
  refine run_prints malloc hm P hP c ha fuel w hT hstatus hs _ fun N prime x v hacc hx hv => ?_
  obtain ⟨rfl, -, -, h6⟩ := accepted_factors hP ns hF hacc
  have hd' : prime = false → Decided P ns.prod w.tape := fun e => hd fun k => by rw [h6.2 k] at e; cases e
  obtain ⟨-, h2, i, r, hb, hp, h4, h5, -, -, h7, -⟩ := curve_sound x hx v hv
  have : Fact r.p.Prime := ⟨hp⟩
  refine ⟨fun h0 => ?_, fun h0 => ⟨h2, r.p, hp, h4, ?_⟩⟩
  · refine ordered_asked hP ns hF hacc x hx v hv fun i r hb hra => right_one hP hC h50 (fun e => (h6.1 e).2) hd' hb (nonzero_disc h3 hb fun e => ?_)
    rw [hra, e, ZMod.val_zero] at h0
    exact h0 rfl
  · have hra : r.a = 0 := by
      rw [h5] at h0
      exact (ZMod.val_eq_zero _).1 (by exact_mod_cast h0)
    rw [h7 ⟨hp⟩, h2]
    exact_mod_cast zero_wrong hP hC h50 hodd hb hra ⟨hp⟩

end Ecgen.Ordered
