import Verif.Seeded.Search

/-!
# From the command line to the printed Brainpool and NUMS curves (C77, C78)
-/

namespace Ecgen.Seeded

open Whole Output Output.Spec Cli Brainpool.Spec

/-- the value of a seed of 160 bits -/
theorem seedV_seed {s : Bits.Bits} {z : Nat} (h : Brainpool.Seed160 s z) : seedV s = (z : Int) := by
  unfold seedV
  rw [h.2.2.1, h.2.2.2.2]
  simp

/-- an element of a group of prime order -/
theorem order_prime {A : Type} [AddCommGroup A] (hn : (Nat.card A).Prime) (g : A) (h0 : g ≠ 0) : addOrderOf g = Nat.card A := by
  rcases (Nat.dvd_prime hn).1 (addOrderOf_dvd_natCard g) with h | h
  · exact absurd (AddMonoid.addOrderOf_eq_one_iff.1 h) h0
  · exact h

/-- what is known of the generator, in the printed numbers -/
structure BaseKnown (c : Config) (x : St) (v : CurveV) (q : Nat) (hq : q.Prime) (o : PointV) (G : (curveOf q hq v.a v.b).Point) : Prop where
  field : FieldKnown c q
  order : OrderKnown c q v.order
  minus3 : c.seedAlgo = .nums → (q : Int) ∣ v.a + 3
  located : At (Fp q hq) (curveOf q hq v.a v.b) o.x o.y G
  brainpool : c.seedAlgo ≠ .nums → ∃ sd zb, x.cur.seed = some sd ∧ Brainpool.Seed160 sd ((zb + 1) % 2 ^ 160) ∧ Derived (rfc c) c.bits q v.a v.b zb ∧
    ∃ i P, Least (curveOf q hq v.a v.b) 0 i P ∧ G = coeffInt c.bits (zb + 1) • P
  nums : c.seedAlgo = .nums → (∃ i, Least (curveOf q hq v.a v.b) 1 i G) ∧ ∃ u y h, G = .some u y h ∧ 2 * num (Fp q hq) y < q

/-- what is printed of a complete curve -/
theorem curve_strong (c : Config) (x : St) (hi : Inv c 9 x) (v : Output.Curve) (h : outCurve x.cur = some v) :
    (curveV v).seed = x.cur.seed.map seedV ∧ Strong c (curveV v) (BaseKnown c x (curveV v)) := by
  obtain ⟨q, hq, hk⟩ := hi.known (by omega)
  obtain ⟨a, b, ha, hb, ha', hb', hab⟩ := hk.ab (by omega)
  obtain ⟨hcrv, hd⟩ := hab.crv (by omega)
  obtain ⟨ho, hok⟩ := hab.order (by omega)
  obtain ⟨g, ps, hg, hgk, -, hps⟩ := hab.gens (by omega)
  simp only [outCurve, hk.field, ha, hb, ho, hg, Option.map_eq_some_iff] at h
  obtain ⟨gs, hgs, rfl⟩ := h
  have hgs := allSome_eq _ _ hgs
  cases gs with
  | nil => cases hgs
  | cons s gs =>
    cases gs with
    | cons _ _ => simp at hgs
    | nil =>
      rw [List.map_cons, List.map_cons, List.cons.injEq] at hgs
      have hsub := hgs.1
      have hne : g.point ≠ 0 := by
        simp only [outSub, Option.bind_eq_some_iff] at hsub
        obtain ⟨r, hr, -⟩ := hsub
        exact (point_printed _ _ _ _ hr).1
      have hord : g.order = Nat.card (obj q hq a b).Pt := by rw [hgk.order]; exact order_prime hok.prime _ hne
      have hcof : g.cofactor = 1 := by rw [hgk.cofactor, hord]; exact Nat.div_self hok.prime.pos
      have hpk := hps (by omega) hne
      obtain ⟨k1, k2, k3⟩ := sub_printed c (obj q hq a b) ⟨g, ps⟩ s hsub hgk.order (fun _ => by rw [hcof, hord]; omega)
        fun _ => hpk.listed _ List.mem_cons_self
      obtain ⟨s1, s2⟩ := hgk.strong hne
      rw [hord] at s1 s2
      have ea : a % q = a := Nat.mod_eq_of_lt ha'
      have eb : b % q = b := Nat.mod_eq_of_lt hb'
      have e0 : (curveV ⟨x.cur.seed, out (Fp q hq).1, .intmod a q, .intmod b q, Nat.card (obj q hq a b).Pt, [s], x.cur.info⟩).field = .prime q := fieldV_out (Fp q hq)
      refine ⟨rfl, q, hq, e0, hk.prime.mod, Nat.mod_lt _ hq.pos, Nat.mod_lt _ hq.pos, hd, rfl, hok.prime, Ne.symm s1, s2, pointV s.generator,
        s.points.map pointV, g.point, rfl, k1, ?_, ?_, k2, ?_, ?_⟩
      · rw [k1.2.1]; exact order_prime hok.prime _ hne
      · obtain ⟨k, e1, e2⟩ := k1.2.2
        have e3 : (pointV s.generator).order = Nat.card (obj q hq a b).Pt := by rw [k1.2.1]; exact order_prime hok.prime _ hne
        rw [e3] at e2
        rw [e1]
        congr 1
        exact Nat.eq_of_mul_eq_mul_left hok.prime.pos (by rw [e2, Nat.mul_one])
      · intro hr h0
        rw [List.length_map, k3, ← hpk.count hr h0]
        simp
      · refine ⟨hk.prime, hok, fun h => ?_, k1.1, fun h => ?_, fun h => hgk.nums h⟩
        · change (q : Int) ∣ ((a % q : Nat) : Int) + 3
          rw [ea]; exact hab.minus3 h
        · obtain ⟨sd, zb, h1, h2, h3, h4⟩ := hgk.brainpool h
          refine ⟨sd, zb, h1, h2, ?_, h4⟩
          change Derived _ _ _ (a % q) (b % q) _
          rw [ea, eb]; exact h3

theorem strong_imp {c : Config} {v : CurveV} {B B' : (p : Nat) → (hp : p.Prime) → PointV → (curveOf p hp v.a v.b).Point → Prop}
    (h : ∀ p hp g G, B p hp g G → B' p hp g G) (hs : Strong c v B) : Strong c v B' := by
  obtain ⟨p, hp, h1, h2, h3, h4, h5, h6, h7, h8, h9, g, ps, G, k1, k2, k3, k4, k5, k6, k7⟩ := hs
  exact ⟨p, hp, h1, h2, h3, h4, h5, h6, h7, h8, h9, g, ps, G, k1, k2, k3, k4, k5, k6, h _ _ _ _ k7⟩

theorem size_of (q n : Nat) (hn : 1 ≤ n) (h1 : 2 ^ (n - 1) ≤ q) (h2 : q < 2 ^ n) : q.size = n := by
  refine le_antisymm (Nat.size_le.2 h2) ?_
  have := Nat.lt_size.2 h1
  omega

/-- **the Brainpool curve at the end of the search, as printed, is one that was asked for** -/
theorem brainpool_asked (c : Config) (hne : c.seedAlgo ≠ .nums) (hb : 1 ≤ c.bits) (x : St) (hi : Inv c 9 x) (v : Output.Curve)
    (h : outCurve x.cur = some v) : BrainpoolAsked (rfc c) c (curveV v) := by
  obtain ⟨h1, h2⟩ := curve_strong c x hi v h
  obtain ⟨p, hp, s1, s2, s3, s4, s5, s6, s7, s8, s9, g, ps, G, k1, k2, k3, k4, k5, k6, k⟩ := h2
  obtain ⟨sd, zb, e1, e2, e3, e4⟩ := k.brainpool hne
  rw [e1, Option.map_some, seedV_seed e2] at h1
  exact ⟨zb, h1, p, hp, s1, s2, s3, s4, s5, s6, s7, s8, s9, g, ps, G, k1, k2, k3, k4, k5, k6,
    size_of p c.bits hb (k.field.size hne).1 (k.field.size hne).2, k.order.less hne, e3, e4⟩

/-- **the NUMS curve at the end of the search, as printed, is one that was asked for** -/
theorem nums_asked (c : Config) (he : c.seedAlgo = .nums) (x : St) (hi : Inv c 9 x) (v : Output.Curve)
    (h : outCurve x.cur = some v) : NumsAsked c (curveV v) := by
  obtain ⟨h1, h2⟩ := curve_strong c x hi v h
  rw [hi.noseed he] at h1
  refine ⟨h1, strong_imp (fun p hp g G k => ?_) h2⟩
  obtain ⟨n1, u, y, hn, e, n2⟩ := k.nums he
  refine ⟨(k.field.nums he).1, (k.field.nums he).2, k.minus3 he, k.order.twist he, n1, ?_⟩
  obtain ⟨-, hy, hn', e'⟩ := k.located
  rw [e'] at e
  injection e with e3 e4
  rw [← e4] at n2
  have : num (Fp p hp) (elem (Fp p hp) g.y) = g.y := elem_injective _ _ _ (num_lt _ _) hy (elem_num _ _)
  rw [this] at n2
  exact n2

/-- and it can be printed, if its text is not too long -/
theorem curve_printable (c : Config) (x : St) (hi : Inv c 9 x) (v : Output.Curve) (h : outCurve x.cur = some v)
    (hs : ∀ j, Parson.outputJjson c.hexDigits v = .ok j → (Parson.render true 0 j).length ≤ 2147483646) :
    Parson.PrintableText c.hexDigits v := by
  obtain ⟨q, hq, hk⟩ := hi.known (by omega)
  obtain ⟨a, b, ha, hb, -, -, hab⟩ := hk.ab (by omega)
  obtain ⟨ho, -⟩ := hab.order (by omega)
  obtain ⟨g, ps, hg, -⟩ := hab.gens (by omega)
  simp only [outCurve, hk.field, ha, hb, ho, hg, Option.map_eq_some_iff] at h
  obtain ⟨gs, hgs, rfl⟩ := h
  refine ⟨⟨out_ne (Fp q hq).1, fun s hs => ?_⟩, terms_out (Fp q hq), (hi.info (by omega)).1, (hi.info (by omega)).2, hs⟩
  change x.cur.seed = some s at hs
  by_cases hn : c.seedAlgo = .nums
  · rw [hi.noseed hn] at hs; cases hs
  · obtain ⟨sd, z, e1, e2⟩ := hi.seed (by omega) hn
    rw [e1] at hs; cases hs
    exact ⟨e2.1, by rw [e2.2.2.2.1]; decide⟩

/-! ## The run -/

/-- the curves of a run are complete -/
theorem generated_complete (P : Pari) (hP : P.Ok) (c : Config) (h : Covered c) (fuel : Nat) : ∀ (n : Nat) (w : W), Behaves c w →
    ∀ v ∈ Json.generated (one P c fuel) n w, ∃ x, Inv c 9 x ∧ outCurve x.cur = some v := by
  intro n
  induction n with
  | zero => intro w _ v hv; cases hv
  | succ n ih =>
    intro w hb v hv
    unfold Json.generated at hv
    have key : ∀ o w', one P c fuel w = (o, w') → Behaves c w' ∧ ∀ u, o = some u → ∃ x, Inv c 9 x ∧ outCurve x.cur = some u := by
      intro o w' ho
      unfold one at ho
      cases hg : Engine.gen (setup P c) 0 9 fuel { w with st := { cur := {}, upd := false, sb := w.st.sb, scb := w.st.scb, ptr := w.pick.address } } with
      | none => rw [hg] at ho; cases ho; exact ⟨hb, fun u hu => by cases hu⟩
      | some r =>
        obtain ⟨r, st⟩ := r
        rw [hg] at ho
        obtain ⟨h1, h2⟩ := search P hP c h fuel { w with st := { cur := {}, upd := false, sb := w.st.sb, scb := w.st.scb, ptr := w.pick.address } } hb (inv_low (by omega) (fun _ => rfl) (fun _ => rfl) (fun h => by omega)) r st hg
        simp only [Prod.mk.injEq] at ho
        obtain ⟨rfl, rfl⟩ := ho
        refine ⟨h1, fun u hu => ?_⟩
        rcases h2 with ⟨rfl, h2⟩ | rfl
        · rw [if_neg (by decide)] at hu
          exact ⟨_, h2, hu⟩
        · rw [if_pos rfl] at hu
          cases hu
    cases ho : one P c fuel w with
    | mk o w' =>
      obtain ⟨k1, k2⟩ := key o w' ho
      rw [ho] at hv
      cases o with
      | none => cases hv
      | some u =>
        simp only [List.mem_cons] at hv
        rcases hv with rfl | hv
        · exact k2 _ rfl
        · exact ih w' k1 v hv

/-- an accepted command line for one of the three algorithms is covered -/
theorem covered (n : Int) (os : List Opt) (c : Config) (h : commandLine n os = some c)
    (ha : c.seedAlgo = .brainpool ∨ c.seedAlgo = .brainpoolRfc ∨ c.seedAlgo = .nums) (hb : c.seedAlgo ≠ .nums → 1 ≤ c.bits) : Covered c := by
  refine ⟨ha, (consistent n os c h).algo.1.2 ?_, hb⟩
  rcases ha with h | h | h <;> rw [h] <;> decide

/-- the curves of a run and what is printed of them -/
theorem run_prints (malloc : Nat → List Parson.Byte) (hm : ∀ n, (malloc n).length = n) (P : Pari) (hP : P.Ok) (c : Config) (h : Covered c)
    (fuel : Nat) (w : W) (hb : ∀ i, (w.tape i).Ok c) (hstatus : (produce P c fuel w).2 = 0)
    (hs : ∀ v ∈ Json.generated (one P c fuel) (toSize c.count) w, ∀ j, Parson.outputJjson c.hexDigits v = .ok j →
      (Parson.render true 0 j).length ≤ 2147483646) (Q : CurveV → Prop) (hQ : ∀ x v, Inv c 9 x → outCurve x.cur = some v → Q (curveV v)) :
    ∃ js : List Output.Json, (∀ j, Parson.Spec.Document (bytes malloc P c fuel w) (Parson.encode j) ↔ j = .arr js) ∧ js.length = toSize c.count ∧
      ∀ j ∈ js, ∃ v, readCurve j = some v ∧ Q v := by
  have hgen := generated_complete P hP c h fuel (toSize c.count) w hb
  have hlen := (Json.generate_objects (one P c fuel) (toSize c.count) w).2.1 hstatus
  obtain ⟨js, h1, h2⟩ := Parson.output_reads malloc hm c.hexDigits (one P c fuel) (toSize c.count) w
    (fun v hv => by
      obtain ⟨x, hx, hv'⟩ := hgen v hv
      exact curve_printable c x hx v hv' (hs v hv)) hlen
  refine ⟨js, h1, ?_, fun j hj => ?_⟩
  · rw [← hlen, ← List.length_map (f := readCurve), h2, List.length_map]
  · have : readCurve j ∈ (Json.generated (one P c fuel) (toSize c.count) w).map fun v => some (curveV v) := by
      rw [← h2]; exact List.mem_map_of_mem hj
    obtain ⟨v, hv, e⟩ := List.mem_map.1 this
    obtain ⟨x, hx, hv'⟩ := hgen v hv
    exact ⟨curveV v, e.symm, hQ x v hx hv'⟩

/-- **C77** From the command line to the bytes, Brainpool: when a run of `--brainpool` or `--brainpool-rfc` ends with the status 0, what it has printed
is the JSON text of an array with as many curves as were asked for, each of which is, in the numbers read back from the text, a Brainpool curve of the
version and size asked for. Whatever the seeds of 160 bits, the random numbers, the failures and the timer do.
Missing: seeds of other lengths, which some mixtures of options let through, and a bit size of 0. -/
theorem brainpool_run_prints_partial (malloc : Nat → List Parson.Byte) (hm : ∀ n, (malloc n).length = n) (P : Pari) (hP : P.Ok)
    (n : Int) (os : List Opt) (c : Config) (h : commandLine n os = some c) (r : Bool) (ha : c.seedAlgo = if r then .brainpoolRfc else .brainpool)
    (hbits : 1 ≤ c.bits) (fuel : Nat) (w : W) (hb : ∀ i, (w.tape i).Ok c) (hstatus : (produce P c fuel w).2 = 0)
    (hs : ∀ v ∈ Json.generated (one P c fuel) (toSize c.count) w, ∀ j, Parson.outputJjson c.hexDigits v = .ok j →
      (Parson.render true 0 j).length ≤ 2147483646) :
    ∃ js : List Output.Json, (∀ j, Parson.Spec.Document (bytes malloc P c fuel w) (Parson.encode j) ↔ j = .arr js) ∧ js.length = toSize c.count ∧
      ∀ j ∈ js, ∃ v, readCurve j = some v ∧ BrainpoolAsked r c v := by
  have hne : c.seedAlgo ≠ .nums := by rw [ha]; cases r <;> decide
  have hr : rfc c = r := by unfold rfc; rw [ha]; cases r <;> decide
  refine run_prints malloc hm P hP c (covered n os c h ?_ fun _ => hbits) fuel w hb hstatus hs _ fun x v hx hv => hr ▸ brainpool_asked c hne hbits x hx v hv
  rw [ha]; cases r <;> decide

/-- **C78** From the command line to the bytes, NUMS: when a run of `--nums` ends with the status 0, what it has printed is the JSON text of an array
with as many curves as were asked for, each of which is, in the numbers read back from the text, a NUMS curve of the size asked for. -/
theorem nums_run_prints (malloc : Nat → List Parson.Byte) (hm : ∀ n, (malloc n).length = n) (P : Pari) (hP : P.Ok)
    (n : Int) (os : List Opt) (c : Config) (h : commandLine n os = some c) (ha : c.seedAlgo = .nums)
    (fuel : Nat) (w : W) (hb : ∀ i, (w.tape i).Ok c) (hstatus : (produce P c fuel w).2 = 0)
    (hs : ∀ v ∈ Json.generated (one P c fuel) (toSize c.count) w, ∀ j, Parson.outputJjson c.hexDigits v = .ok j →
      (Parson.render true 0 j).length ≤ 2147483646) :
    ∃ js : List Output.Json, (∀ j, Parson.Spec.Document (bytes malloc P c fuel w) (Parson.encode j) ↔ j = .arr js) ∧ js.length = toSize c.count ∧
      ∀ j ∈ js, ∃ v, readCurve j = some v ∧ NumsAsked c v :=
  run_prints malloc hm P hP c (covered n os c h (Or.inr (Or.inr ha)) fun h => absurd ha h) fuel w hb hstatus hs _ fun x v hx hv => nums_asked c ha x hx v hv

/-! ## What the printed seed says -/

theorem coeff_congr (L z z' : Nat) (h : z % 2 ^ 160 = z' % 2 ^ 160) : coeffInt L z = coeffInt L z' := by
  rw [← Brainpool.coeffInt_mod L z, ← Brainpool.coeffInt_mod L z', h]

/-- points with the least first coordinate are the same up to the sign -/
theorem least_unique {f : Fld} {E : WeierstrassCurve.Affine (Carrier f)} {x0 x x' : Nat} {P P' : E.Point} (h : Least E x0 x P) (h' : Least E x0 x' P') :
    P' = P ∨ P' = -P := by
  obtain ⟨h1, ⟨y, hy, rfl⟩, h3⟩ := h
  obtain ⟨h1', ⟨y', hy', rfl⟩, h3'⟩ := h'
  have : x = x' := by
    rcases lt_trichotomy x x' with hl | he | hl
    · exact absurd ⟨y, hy⟩ (h3' x h1 hl)
    · exact he
    · exact absurd ⟨y', hy'⟩ (h3 x' h1' hl)
  subst this
  rcases WeierstrassCurve.Affine.Y_eq_of_X_eq hy'.1 hy.1 rfl with e | e
  · subst e; exact Or.inl rfl
  · subst e; exact Or.inr rfl

/-- the first coordinate does not change with the sign -/
theorem at_neg {f : Fld} {E : WeierstrassCurve.Affine (Carrier f)} {x y x' y' : Nat} {P P' : E.Point} (h : At f E x y P) (h' : At f E x' y' P')
    (hs : P' = P ∨ P' = -P) : x = x' := by
  obtain ⟨h1, -, hn, rfl⟩ := h
  obtain ⟨h1', -, hn', rfl⟩ := h'
  refine elem_injective f x x' h1 h1' ?_
  rcases hs with e | e
  · injection e with e1 e2
    exact e1.symm
  · rw [WeierstrassCurve.Affine.Point.neg_some] at e
    injection e with e1 e2
    exact e1.symm

/-- **C79** for the original version and a given field, the printed seed determines the curve and, up to its sign, the base point. Missing (and false, see
`printed_seed_false`, `base_point_false`): that the program finds the curve again from that seed, and the sign. -/
theorem seed_determines_partial (c : Config) (v v' : CurveV) (h : BrainpoolAsked false c v) (h' : BrainpoolAsked false c v') (hs : v.seed = v'.seed)
    (hf : v.field = v'.field) : v.a = v'.a ∧ v.b = v'.b ∧ v.order = v'.order ∧ v.gens.map (fun g => g.1.x) = v'.gens.map (fun g => g.1.x) := by
  obtain ⟨zb, z1, p, hp, s1, -, -, -, -, s6, -, -, -, g, ps, G, k1, k2, -, -, -, -, -, -, ⟨zp, za, j, -, -, d3, -, d5, d6, -, d8, -⟩, x, P, l1, l2⟩ := h
  obtain ⟨zb', z1', p', hp', s1', -, -, -, -, s6', -, -, -, g', ps', G', k1', k2', -, -, -, -, -, -, ⟨zp', za', j', -, -, d3', -, d5', d6', -, d8', -⟩, x', P',
    l1', l2'⟩ := h'
  have ep : p = p' := by
    rw [s1, s1'] at hf
    injection hf
  subst ep
  have ez : (zb + 1) % 2 ^ 160 = (zb' + 1) % 2 ^ 160 := by
    rw [hs, z1'] at z1
    simp only [Option.some.injEq] at z1
    exact_mod_cast z1.symm
  have hj := (d8 rfl).1
  have hj' := (d8' rfl).1
  have ea : v.a = v'.a := by
    rw [d5, d5', coeff_congr c.bits za za' (by omega)]
  have eb : v.b = v'.b := by
    rw [d6, d6', coeff_congr c.bits zb zb' (by omega)]
  obtain ⟨vf, vs, va, vb, vo, vg⟩ := v
  obtain ⟨vf', vs', va', vb', vo', vg'⟩ := v'
  simp only at *
  subst ea eb
  refine ⟨rfl, rfl, s6.trans s6'.symm, ?_⟩
  rw [k1, k1']
  simp only [List.map_cons, List.map_nil, List.cons.injEq, and_true]
  refine at_neg k2.1 k2'.1 ?_
  rw [l2, l2', coeff_congr c.bits (zb + 1) (zb' + 1) ez]
  rcases least_unique l1 l1' with e | e
  · exact Or.inl (by rw [e])
  · exact Or.inr (by rw [e, smul_neg])

end Ecgen.Seeded
