import Verif.Special.Search

/-!
# From the command line to the printed anomalous, supersingular and pairing-friendly curves (C81, C82, C83)
-/

namespace Ecgen.Special

open Whole Output Output.Spec Cli
open Seeded (Fp curveOf)

variable {P : Pari} {c : Config} {T : Nat → Pick}

/-- what is printed of a complete curve -/
theorem curve_sound (x : St) (hi : Inv P c T 9 x) (v : Output.Curve) (h : outCurve x.cur = some v) :
    (curveV v).seed = x.cur.seed.map seedV ∧ ∃ p hp, Sound c (view c).unique (curveV v) p hp ∧ FieldKnown P c T x p ∧
      Sized P c T p (curveV v).order ∧
      (c.method = METHOD_FAMILY → ∃ z, x.z = some z ∧ ∃ r : Nat, Family.rz (fam c.family) (Family.nz (fam c.family) z) = r ∧ r ∣ (curveV v).order) ∧
      (c.method = METHOD_FAMILY → c.family ≠ .kss16 → c.family ≠ .kss40 → (curveV v).a = 0) ∧
      (c.method = METHOD_SUPERSINGULAR → Shape p (curveV v).a (curveV v).b) := by
  obtain ⟨q, hq, hk⟩ := hi.known (by omega)
  obtain ⟨a, b, ha, hb, ha', hb', hab⟩ := hk.ab (by omega)
  obtain ⟨hcrv, hd⟩ := hab.crv (by omega)
  obtain ⟨ho, hsz, hrz⟩ := hab.order (by omega)
  obtain ⟨l, hl, hgk, -, hps⟩ := hab.gens (by omega)
  simp only [outCurve, hk.field, ha, hb, ho, hl, Option.map_eq_some_iff] at h
  obtain ⟨gs, hgs, rfl⟩ := h
  have hgs := allSome_eq _ _ hgs
  have hsub : List.Forall₂ (fun (s : Group.Sub (obj q hq a b).Pt) g => outSub (obj q hq a b) s = some g) l gs := by
    have : List.Forall₂ (· = ·) (l.map (outSub (obj q hq a b))) (gs.map some) := by rw [hgs]; exact List.forall₂_refl _
    rw [List.forall₂_map_left_iff, List.forall₂_map_right_iff] at this
    exact this
  have hne : ∀ s ∈ l, s.gen.point ≠ 0 := by
    intro s hs
    obtain ⟨i, hi, rfl⟩ := List.mem_iff_getElem.1 hs
    have hl := hsub.length_eq
    have := (List.forall₂_iff_get.1 hsub).2 i hi (by omega)
    simp only [List.get_eq_getElem, outSub, Option.bind_eq_some_iff] at this
    obtain ⟨q, hq, -⟩ := this
    exact (point_printed _ _ _ _ hq).1
  have hpk := hps (by omega) hne
  have hmem : ∀ s ∈ l, s.gen ∈ l.map Group.Sub.gen := fun s hs => List.mem_map_of_mem hs
  have hsub2 : List.Forall₂ (fun (s : Group.Sub (obj q hq a b).Pt) (g : Output.Subgroup) =>
      GeneratorOk (Nat.card (obj q hq a b).Pt) (pointV g.generator) s.gen.point ∧
      PointsOk c (pointV g.generator) s.gen.point (g.points.map pointV) ∧ g.points.length = s.points.length) l gs := by
    refine List.forall₂_iff_get.2 ⟨hsub.length_eq, fun i i1 i2 => ?_⟩
    have hm : l.get ⟨i, i1⟩ ∈ l := List.get_mem _ _
    exact sub_printed c _ _ _ ((List.forall₂_iff_get.1 hsub).2 i i1 i2) (hgk.order _ (hmem _ hm)) (hgk.cofactor _ (hmem _ hm))
      fun _ => hpk.listed _ hm
  have hF : List.Forall₂ (fun (g : PointV × List PointV) (G : (obj q hq a b).Pt) =>
      GeneratorOk (Nat.card (obj q hq a b).Pt) g.1 G ∧ PointsOk c g.1 G g.2)
      (gs.map fun g => (pointV g.generator, g.points.map pointV)) ((l.map Group.Sub.gen).map Group.Pt.point) := by
    rw [List.map_map, List.forall₂_map_left_iff, List.forall₂_map_right_iff]
    exact hsub2.flip.imp fun g s h => ⟨h.1, h.2.1⟩
  have hN : c.pointsType = .random → c.pointsAmount ≠ 0 →
      ((gs.map fun g => (pointV g.generator, g.points.map pointV)).map fun g => g.2.length).sum = c.pointsAmount := by
    intro hr h0
    rw [← hpk.count hr h0, List.map_map]
    congr 1
    rw [← sum_lengths (fun s g h => h.2.2) hsub2]
    apply List.map_congr_left
    intro g _
    simp
  have e0 : (curveV ⟨x.cur.seed, out (Fp q hq).1, .intmod a q, .intmod b q, Nat.card (obj q hq a b).Pt, gs, x.cur.info⟩).field = .prime q :=
    fieldV_out (Fp q hq)
  refine ⟨rfl, q, hq, ⟨e0, Nat.mod_lt _ hq.pos, Nat.mod_lt _ hq.pos, hd, rfl, _, hF, hgk.all (Or.inr rfl), fun hu => ?_, hN⟩, hk.prime, hsz, hrz,
    fun h1 h2 h3 => ?_, fun h1 => ?_⟩
  · rcases hgk.unique hu with ⟨u1, u2⟩ | ⟨g, u1, u2⟩
    · exact Or.inl ⟨u1, by rw [u2]; rfl⟩
    · exact Or.inr ⟨g.point, by rw [u1]; rfl, u2⟩
  · change a % q = 0
    rw [hab.zero.1 h1 h2 h3, Nat.zero_mod]
  · change Shape q (a % q) (b % q)
    rw [Nat.mod_eq_of_lt ha', Nat.mod_eq_of_lt hb']
    exact hab.zero.2 h1

/-- **the curve at the end of the search of `--anomalous`, as printed, is one that was asked for** -/
theorem anomalous_asked (hm : c.method = METHOD_ANOMALOUS) (x : St) (hi : Inv P c T 9 x) (v : Output.Curve)
    (h : outCurve x.cur = some v) : AnomalousAsked c (curveV v) := by
  obtain ⟨h1, p, hp, h2, h3, h4, -⟩ := curve_sound x hi v h
  have hne : c.method ≠ METHOD_FAMILY := by rw [hm]; decide
  rw [hi.noseed hne] at h1
  obtain ⟨lo, hi', b, b1, b2, b3, b4⟩ := h3.anomalous hm
  have hu : (view c).unique = c.unique := by simp [view, hne]
  rw [hu] at h2
  have hpos : 0 ≤ b := by have := b1.1; omega
  have e : (p : Int) = 163 * (b * (b + 1)) + 41 := by
    rw [b4]
    exact Cm.anomalousP_163 b
  obtain ⟨n, rfl⟩ : ∃ n : Nat, b = n := ⟨b.toNat, by omega⟩
  refine ⟨h1, p, hp, h2, h4.1 hm, ⟨n, by exact_mod_cast e⟩, fun hb7 => ?_, fun hb7 => ?_⟩
  · have h0 : ((2 : Int) ^ c.bits - ((163 : Int) + 1).tdiv 4).tdiv 163 = 0 := by
      generalize c.bits = k at hb7
      have : k = 0 ∨ k = 1 ∨ k = 2 ∨ k = 3 ∨ k = 4 ∨ k = 5 ∨ k = 6 ∨ k = 7 := by omega
      rcases this with rfl | rfl | rfl | rfl | rfl | rfl | rfl | rfl <;> decide
    have h1 := b1.hi_le
    rw [h0] at h1
    have h2 : (n : Int) ≤ hi' := b3
    have hn : (n : Int) * (n + 1) ≤ 0 := by nlinarith
    have : n = 0 := by
      by_contra hne
      have : (1 : Int) ≤ n := by omega
      nlinarith
    subst this
    have : (p : Int) = 41 := by rw [e]; norm_num
    exact_mod_cast this
  · obtain ⟨g1, g2⟩ := Cm.anomalous_size_partial c.bits lo hi' n b1 b2 b3 hb7
    rw [← b4] at g1 g2
    have g2' : p ≤ 2 ^ c.bits := by exact_mod_cast g2
    refine ⟨lt_of_le_of_ne g2' fun he => ?_, ?_⟩
    · rw [he] at hp
      exact Nat.Prime.not_prime_pow (by omega) hp
    · have : (2 : Int) ^ (c.bits - 1) < p + 163 := by omega
      exact_mod_cast this

/-- **the curve at the end of the search of `--supersingular`, as printed, is one that was asked for** -/
theorem supersingular_asked (hm : c.method = METHOD_SUPERSINGULAR) (x : St) (hi : Inv P c T 9 x) (v : Output.Curve)
    (h : outCurve x.cur = some v) : SupersingularAsked c (curveV v) := by
  obtain ⟨h1, p, hp, h2, h3, h4, -, -, h5⟩ := curve_sound x hi v h
  have hne : c.method ≠ METHOD_FAMILY := by rw [hm]; decide
  rw [hi.noseed hne] at h1
  have hu : (view c).unique = c.unique := by simp [view, hne]
  rw [hu] at h2
  obtain ⟨s1, s2, s3, s4⟩ := h5 hm
  refine ⟨h1, p, hp, h2, h3.super hm, h4.2.1 hm, s1, s2, s3, fun h12 => ?_⟩
  obtain ⟨-, ha, hb, hd, -⟩ := h2
  have hpp := hp.pos
  obtain ⟨k, hk⟩ := s4 h12
  have hk2 : k < 2 := by
    by_contra hk2
    have : p * 2 ≤ p * k := Nat.mul_le_mul_left p (by omega)
    omega
  have : k ≠ 0 := by
    rintro rfl
    apply hd
    have e1 : (curveV v).a = 0 := by omega
    have e2 : (curveV v).b = 0 := by omega
    rw [e1, e2]
    exact (disc_iff p hp 0 0).2 (by simp)
  have : k = 1 := by omega
  rw [hk, this, Nat.mul_one]

/-- the polynomials of the families, without denominators -/
theorem member_of (f : Cli.Family) (z p r : Int) (h1 : Family.pz (fam f) (Family.nz (fam f) z) = p) (h2 : Family.rz (fam f) (Family.nz (fam f) z) = r) :
    Member f z p r := by
  cases f
  all_goals simp only [fam, Family.pz, Family.rz, Family.nz] at h1 h2
  all_goals simp only [Member]
  · exact ⟨by exact_mod_cast h1.symm, by exact_mod_cast h2.symm⟩
  · refine ⟨?_, by exact_mod_cast h2.symm⟩
    have : (3 * p : ℚ) = (z - 1) ^ 2 * r + 3 * z := by rw [← h1, ← h2]; ring
    exact_mod_cast this
  · refine ⟨?_, by exact_mod_cast h2.symm⟩
    have : (3 * p : ℚ) = (z - 1) ^ 2 * r + 3 * z := by rw [← h1, ← h2]; ring
    exact_mod_cast this
  all_goals
    refine ⟨_, rfl, ?_, ?_⟩
    · rw [← @Int.cast_inj ℚ]
      push_cast
      rw [← h2]
      ring
    · rw [← @Int.cast_inj ℚ]
      push_cast
      rw [← h1]
      ring

theorem seed_value (z : Int) (sd : Bits.Bits) (h : Bits.fromI z = some sd) : seedV sd = z := by
  obtain ⟨r, e1, -, e2, e3, -, -⟩ := Bits.fromI_value z
  rw [e1] at h
  cases h
  unfold seedV
  rw [e2, e3]
  by_cases hz : z < 0
  · rw [if_pos (by simpa using hz)]; omega
  · rw [if_neg (by simpa using hz)]; omega

/-- no family has a member for the parameter 0 -/
theorem seed_nonzero (hP : P.toPari.Ok) (f : Cli.Family) (z p : Int) (h : Family.genField P.isprimeI (fam f) z = some p) : z ≠ 0 := by
  rintro rfl
  obtain ⟨h1, -, h3, r, h4, -, h6⟩ := (Family.genField_some P.isprimeI (isprimeI_spec P hP) _ _ _).1 h
  have hm := member_of f 0 p r h1 h4
  cases f
  all_goals simp only [Member] at hm
  · obtain ⟨rfl, -⟩ := hm
    revert h3; norm_num
  · omega
  · omega
  · obtain ⟨x, rfl, -, hm⟩ := hm
    have : p = 105890880565 := by norm_num at hm; omega
    subst this
    revert h3; norm_num
  · obtain ⟨x, rfl, hm, -⟩ := hm
    have : r = 22249 := by norm_num at hm; omega
    subst this
    revert h6; norm_num
  · obtain ⟨x, rfl, -, hm⟩ := hm
    have : p = 882400566168216899094908646319 := by norm_num at hm; omega
    subst this
    revert h3; norm_num
  · obtain ⟨x, rfl, hm, -⟩ := hm
    have : r = 8105520827695032282051492036698608758721 := by norm_num at hm; omega
    subst this
    revert h6; norm_num

theorem fam_degree (f : Cli.Family) : Family.degree (fam f) = degree f := by cases f <;> rfl

/-- the order of `p` modulo `r` -/
theorem embedding (p r d : Nat) (hp : 0 < p) (h : orderOf ((p : Nat) : ZMod r) = d) : r ∣ p ^ d - 1 ∧ ∀ k, 1 ≤ k → k < d → ¬ r ∣ p ^ k - 1 := by
  have key : ∀ k, r ∣ p ^ k - 1 ↔ ((p : Nat) : ZMod r) ^ k = 1 := by
    intro k
    rw [← ZMod.natCast_eq_zero_iff, Nat.cast_sub (Nat.one_le_pow _ _ hp), Nat.cast_pow, Nat.cast_one, sub_eq_zero]
  refine ⟨(key d).2 (h ▸ pow_orderOf_eq_one _), fun k hk hlt hd => ?_⟩
  have := Nat.le_of_dvd hk (orderOf_dvd_of_pow_eq_one ((key k).1 hd))
  omega

/-- **the curve at the end of the search of `--family`, as printed, is one that was asked for** -/
theorem family_asked (hP : P.toPari.Ok) (hm : c.method = METHOD_FAMILY) (x : St) (hi : Inv P c T 9 x) (v : Output.Curve)
    (h : outCurve x.cur = some v) : FamilyAsked c (curveV v) := by
  obtain ⟨h1, p, hp, h2, h3, h4, h5, h6, -⟩ := curve_sound x hi v h
  have hu : (view c).unique = false := by simp [view, hm]
  rw [hu] at h2
  obtain ⟨i, e1, e2⟩ := h3.family hm
  obtain ⟨j, sd, s1, s2, s3⟩ := hi.seed (by omega) hm
  obtain ⟨z, z1, r, z2, z3⟩ := h5 hm
  rw [e1] at s1 z1
  have ez : (T j).z = (T i).z := by simpa using s1.symm
  cases z1
  rw [ez] at s3
  rw [s2, Option.map_some, seed_value _ _ s3] at h1
  obtain ⟨g1, -⟩ := (Family.genField_some P.isprimeI (isprimeI_spec P hP) _ _ _).1 e2
  obtain ⟨r', f1, f2, f3⟩ := Family.family_embedding P.isprimeI (isprimeI_spec P hP) _ _ _ e2
  have er : r' = r := by rw [z2] at f1; exact_mod_cast f1.symm
  subst er
  rw [Int.cast_natCast, fam_degree] at f3
  obtain ⟨d1, d2⟩ := embedding p r' _ hp.pos f3
  exact ⟨_, r', h1, p, hp, h2, f2, member_of _ _ _ _ g1 (by rw [z2]; norm_cast), z3, d1, d2, h6 hm⟩

/-- and it can be printed, if its text is not too long -/
theorem curve_printable (hP : P.toPari.Ok) (x : St) (hi : Inv P c T 9 x) (v : Output.Curve) (h : outCurve x.cur = some v)
    (hs : ∀ j, Parson.outputJjson c.hexDigits v = .ok j → (Parson.render true 0 j).length ≤ 2147483646) :
    Parson.PrintableText c.hexDigits v := by
  obtain ⟨q, hq, hk⟩ := hi.known (by omega)
  obtain ⟨a, b, ha, hb, -, -, hab⟩ := hk.ab (by omega)
  obtain ⟨ho, -⟩ := hab.order (by omega)
  obtain ⟨l, hg, -⟩ := hab.gens (by omega)
  simp only [outCurve, hk.field, ha, hb, ho, hg, Option.map_eq_some_iff] at h
  obtain ⟨gs, hgs, rfl⟩ := h
  refine ⟨⟨out_ne (Fp q hq).1, fun s hs => ?_⟩, terms_out (Fp q hq), (hi.info (by omega)).1, (hi.info (by omega)).2, hs⟩
  change x.cur.seed = some s at hs
  by_cases hm : c.method = METHOD_FAMILY
  · obtain ⟨i, sd, z1, e1, e2⟩ := hi.seed (by omega) hm
    obtain ⟨j, z2, e3⟩ := hk.prime.family hm
    rw [z1] at z2
    have ez : (T i).z = (T j).z := by simpa using z2
    have hz := seed_nonzero hP _ _ _ e3
    rw [← ez] at hz
    rw [e1] at hs
    cases hs
    obtain ⟨r, f1, f2, -, -, f5, -⟩ := Bits.fromI_value (T i).z
    rw [f1] at e2
    cases e2
    refine ⟨f2, fun h0 => ?_⟩
    have := f5 hz
    rw [List.head?_eq_getElem?] at this
    simp [Bits.Bits.val, h0] at this
  · rw [hi.noseed hm] at hs; cases hs

/-! ## The run -/

/-- the curves of a run are complete -/
theorem generated_complete (P : Pari) (hP : P.toPari.Ok) (c : Config) (h : Covered c) (T : Nat → Pick) (hT : TapeOk P c T) (hC : Cited P c T) (fuel : Nat) :
    ∀ (n : Nat) (w : W), Behaves T w → ∀ v ∈ Json.generated (one P c fuel) n w, ∃ x, Inv P c T 9 x ∧ outCurve x.cur = some v := by
  intro n
  induction n with
  | zero => intro w _ v hv; cases hv
  | succ n ih =>
    intro w hb v hv
    unfold Json.generated at hv
    have key : ∀ o w', one P c fuel w = (o, w') → Behaves T w' ∧ ∀ u, o = some u → ∃ x, Inv P c T 9 x ∧ outCurve x.cur = some u := by
      intro o w' ho
      unfold one at ho
      cases hg : Engine.gen (setup P c) 0 9 fuel (fresh w) with
      | none => rw [hg] at ho; cases ho; exact ⟨hb, fun u hu => by cases hu⟩
      | some r =>
        obtain ⟨r, st⟩ := r
        rw [hg] at ho
        obtain ⟨h1, h2⟩ := search P hP c h hT hC fuel (fresh w) hb (inv_low (by omega) (fun _ => rfl) (fun _ => rfl) (fun h => by omega)) r st hg
        simp only [Prod.mk.injEq] at ho
        obtain ⟨rfl, rfl⟩ := ho
        refine ⟨h1, fun u hu => ?_⟩
        rcases h2 with ⟨rfl, h2⟩ | rfl
        · rw [if_neg (by decide)] at hu
          exact ⟨_, h2, hu⟩
        · rw [if_pos rfl] at hu
          cases hu
    cases ho : one P c fuel w with
    | mk o w' =>
      obtain ⟨k1, k2⟩ := key o w' ho
      rw [ho] at hv
      cases o with
      | none => cases hv
      | some u =>
        simp only [List.mem_cons] at hv
        rcases hv with rfl | hv
        · exact k2 _ rfl
        · exact ih w' k1 v hv

/-- an accepted command line for one of the three methods is covered -/
theorem covered (n : Int) (os : List Opt) (c : Config) (h : commandLine n os = some c)
    (hm : c.method = METHOD_ANOMALOUS ∨ c.method = METHOD_SUPERSINGULAR ∨ c.method = METHOD_FAMILY) : Covered c := by
  have hc := consistent n os c h
  refine ⟨hm, ?_, fun h => ?_⟩
  · by_contra ha
    have := hc.algo.1.2 ha
    rw [this] at hm
    revert hm
    decide
  · by_contra hf
    have : ∀ o ∈ os, Cli.Spec.kind o = none := by
      intro o ho
      cases hk : Cli.Spec.kind o with
      | none => rfl
      | some k =>
        refine absurd (hc.primeField o ho k hk ?_) hf
        have hm := hc.method o ho k hk
        rw [h] at hm
        cases k <;> first | exact absurd hm (by decide) | exact Or.inr (Or.inr (Or.inr (Or.inl rfl)))
    rw [hc.method_default this] at h
    revert h
    decide

/-- the curves of a run and what is printed of them -/
theorem run_prints (malloc : Nat → List Parson.Byte) (hm : ∀ n, (malloc n).length = n) (P : Pari) (hP : P.toPari.Ok) (c : Config) (h : Covered c)
    (fuel : Nat) (w : W) (hT : TapeOk P c w.tape) (hC : Cited P c w.tape) (hstatus : (produce P c fuel w).2 = 0)
    (hs : ∀ v ∈ Json.generated (one P c fuel) (toSize c.count) w, ∀ j, Parson.outputJjson c.hexDigits v = .ok j →
      (Parson.render true 0 j).length ≤ 2147483646) (Q : CurveV → Prop) (hQ : ∀ x v, Inv P c w.tape 9 x → outCurve x.cur = some v → Q (curveV v)) :
    ∃ js : List Output.Json, (∀ j, Parson.Spec.Document (bytes malloc P c fuel w) (Parson.encode j) ↔ j = .arr js) ∧ js.length = toSize c.count ∧
      ∀ j ∈ js, ∃ v, readCurve j = some v ∧ Q v := by
  have hgen := generated_complete P hP c h w.tape hT hC fuel (toSize c.count) w rfl
  have hlen := (Json.generate_objects (one P c fuel) (toSize c.count) w).2.1 hstatus
  obtain ⟨js, h1, h2⟩ := Parson.output_reads malloc hm c.hexDigits (one P c fuel) (toSize c.count) w
    (fun v hv => by
      obtain ⟨x, hx, hv'⟩ := hgen v hv
      exact curve_printable hP x hx v hv' (hs v hv)) hlen
  refine ⟨js, h1, ?_, fun j hj => ?_⟩
  · rw [← hlen, ← List.length_map (f := readCurve), h2, List.length_map]
  · have : readCurve j ∈ (Json.generated (one P c fuel) (toSize c.count) w).map fun v => some (curveV v) := by
      rw [← h2]; exact List.mem_map_of_mem hj
    obtain ⟨v, hv, e⟩ := List.mem_map.1 this
    obtain ⟨x, hx, hv'⟩ := hgen v hv
    exact ⟨curveV v, e.symm, hQ x v hx hv'⟩

/-- **C81** From the command line to the bytes, anomalous: when a run of `--anomalous` ends with the status 0, what it has printed is the JSON text of an
array with as many curves as were asked for, each of which is, in the numbers read back from the text, nonsingular with exactly as many points as the
prime field has elements, and the prime has the size asked for, up to the discriminant. Cited: the number of points of the curve with multiplication
by `ℤ[(1 + √-163) / 2]` (Gross). -/
theorem anomalous_run_prints (malloc : Nat → List Parson.Byte) (hm : ∀ n, (malloc n).length = n) (P : Pari) (hP : P.toPari.Ok)
    (n : Int) (os : List Opt) (c : Config) (h : commandLine n os = some c) (ha : c.method = METHOD_ANOMALOUS)
    (fuel : Nat) (w : W) (hT : TapeOk P c w.tape) (hG : Gross P c w.tape) (hstatus : (produce P c fuel w).2 = 0)
    (hs : ∀ v ∈ Json.generated (one P c fuel) (toSize c.count) w, ∀ j, Parson.outputJjson c.hexDigits v = .ok j →
      (Parson.render true 0 j).length ≤ 2147483646) :
    ∃ js : List Output.Json, (∀ j, Parson.Spec.Document (bytes malloc P c fuel w) (Parson.encode j) ↔ j = .arr js) ∧ js.length = toSize c.count ∧
      ∀ j ∈ js, ∃ v, readCurve j = some v ∧ AnomalousAsked c v :=
  run_prints malloc hm P hP c (covered n os c h (Or.inl ha)) fuel w hT ⟨fun _ => hG, fun h => absurd (ha ▸ h) (by decide)⟩ hstatus hs _
    fun x v hx hv => anomalous_asked ha x hx v hv

/-- **C82** From the command line to the bytes, supersingular: each of the curves that a run of `--supersingular` prints is, in the numbers read back from
the text, nonsingular over a prime field as asked for, with one point more than the field has elements. Cited: Deuring's theorem on the roots of the
class polynomials. -/
theorem supersingular_run_prints (malloc : Nat → List Parson.Byte) (hm : ∀ n, (malloc n).length = n) (P : Pari) (hP : P.toPari.Ok)
    (n : Int) (os : List Opt) (c : Config) (h : commandLine n os = some c) (ha : c.method = METHOD_SUPERSINGULAR)
    (fuel : Nat) (w : W) (hT : TapeOk P c w.tape) (hD : Deuring P c w.tape) (hstatus : (produce P c fuel w).2 = 0)
    (hs : ∀ v ∈ Json.generated (one P c fuel) (toSize c.count) w, ∀ j, Parson.outputJjson c.hexDigits v = .ok j →
      (Parson.render true 0 j).length ≤ 2147483646) :
    ∃ js : List Output.Json, (∀ j, Parson.Spec.Document (bytes malloc P c fuel w) (Parson.encode j) ↔ j = .arr js) ∧ js.length = toSize c.count ∧
      ∀ j ∈ js, ∃ v, readCurve j = some v ∧ SupersingularAsked c v :=
  run_prints malloc hm P hP c (covered n os c h (Or.inr (Or.inl ha))) fuel w hT ⟨fun h => absurd (ha ▸ h) (by decide), fun _ => hD⟩ hstatus hs _
    fun x v hx hv => supersingular_asked ha x hx v hv

/-- **C83** From the command line to the bytes, families of pairing-friendly curves: each of the curves that a run of `--family` prints is, in the numbers
read back from the text, a member of the family for the printed parameter: the primes of the field and of a subgroup are the values of the family's
polynomials, the subgroup's order divides the number of points, and the embedding degree is the family's. -/
theorem family_run_prints (malloc : Nat → List Parson.Byte) (hm : ∀ n, (malloc n).length = n) (P : Pari) (hP : P.toPari.Ok)
    (n : Int) (os : List Opt) (c : Config) (h : commandLine n os = some c) (ha : c.method = METHOD_FAMILY)
    (fuel : Nat) (w : W) (hT : TapeOk P c w.tape) (hstatus : (produce P c fuel w).2 = 0)
    (hs : ∀ v ∈ Json.generated (one P c fuel) (toSize c.count) w, ∀ j, Parson.outputJjson c.hexDigits v = .ok j →
      (Parson.render true 0 j).length ≤ 2147483646) :
    ∃ js : List Output.Json, (∀ j, Parson.Spec.Document (bytes malloc P c fuel w) (Parson.encode j) ↔ j = .arr js) ∧ js.length = toSize c.count ∧
      ∀ j ∈ js, ∃ v, readCurve j = some v ∧ FamilyAsked c v :=
  run_prints malloc hm P hP c (covered n os c h (Or.inr (Or.inr ha))) fuel w hT
    ⟨fun h => absurd (ha ▸ h) (by decide), fun h => absurd (ha ▸ h) (by decide)⟩ hstatus hs _
    fun x v hx hv => family_asked hP ha x hx v hv

end Ecgen.Special
