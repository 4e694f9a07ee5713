import Verif.Whole.Lemmas
import Verif.Ansi.Props

/-!
# From the command line to the printed curves (C75)
-/

namespace Ecgen.Whole

open Output Output.Spec Cli

/-! ## What is printed for a complete curve -/

theorem allSome_eq {α : Type} : ∀ (l : List (Option α)) (r : List α), allSome l = some r → l = r.map some := by
  intro l
  induction l with
  | nil => intro r h; cases h; rfl
  | cons a l ih =>
    intro r h
    cases a with
    | none => cases h
    | some a =>
      unfold allSome at h
      rw [Option.map_eq_some_iff] at h
      obtain ⟨r', h1, rfl⟩ := h
      rw [List.map_cons, ih r' h1]

theorem point_printed (E : Crv) (k : Option Nat) (q : Group.Pt E.Pt) (p : Output.Point) (h : outPoint E k q = some p) :
    q.point ≠ 0 ∧ At E.field E.eqn (pointV p).x (pointV p).y q.point ∧ (pointV p).order = q.order ∧ (pointV p).cofactor = k := by
  unfold outPoint at h
  split at h
  · cases h
  · rename_i x y hn hq
    obtain ⟨ex, h1, -, h2⟩ := ielement_out E.field (num E.field x) (num_lt _ _)
    obtain ⟨ey, h3, -, h4⟩ := ielement_out E.field (num E.field y) (num_lt _ _)
    simp only [h1, h3, Option.some.injEq] at h
    subst h
    refine ⟨by rw [hq]; exact WeierstrassCurve.Affine.Point.some_ne_zero _, ?_, rfl, rfl⟩
    simp only [pointV, h2, h4]
    refine ⟨num_lt _ _, num_lt _ _, ?_⟩
    rw [hq]
    have e1 := elem_num E.field x
    have e2 := elem_num E.field y
    refine ⟨by rw [e1, e2]; exact hn, ?_⟩
    congr 1 <;> simp only [e1, e2]

theorem points_printed (E : Crv) : ∀ (ps : List (Group.Pt E.Pt)) (gp : List Output.Point), ps.map (outPoint E none) = gp.map some →
    (gp.map pointV).map PointV.order = ps.map Group.Pt.order ∧
    ∀ p ∈ gp.map pointV, ∃ q ∈ ps, At E.field E.eqn p.x p.y q.point ∧ p.order = q.order ∧ p.cofactor = none := by
  intro ps
  induction ps with
  | nil =>
    intro gp h
    cases gp with
    | nil => exact ⟨rfl, fun p hp => (nomatch hp)⟩
    | cons _ _ => cases h
  | cons q ps ih =>
    intro gp h
    cases gp with
    | nil => cases h
    | cons g gp =>
      rw [List.map_cons, List.map_cons, List.cons.injEq] at h
      obtain ⟨h1, h2⟩ := ih gp h.2
      obtain ⟨-, h3, h4, h5⟩ := point_printed E none q g h.1
      refine ⟨?_, fun p hp => ?_⟩
      · rw [List.map_cons, List.map_cons, List.map_cons, h1, h4]
      · rw [List.map_cons] at hp
        rcases List.mem_cons.1 hp with rfl | hp
        · exact ⟨q, List.mem_cons_self, h3, h4, h5⟩
        · obtain ⟨q', e1, e2⟩ := h2 p hp
          exact ⟨q', List.mem_cons_of_mem _ e1, e2⟩

/-- a subgroup as printed -/
theorem sub_printed (c : Config) (E : Crv) (s : Group.Sub E.Pt) (g : Output.Subgroup) (h : outSub E s = some g)
    (ho : s.gen.order = addOrderOf s.gen.point) (hc : s.gen.point ≠ 0 → s.gen.order * s.gen.cofactor = Nat.card E.Pt)
    (hl : s.gen.point ≠ 0 → ∃ ps : List (Group.Pt E.Pt), s.points = ps.map some ∧
      (∀ p ∈ ps, p.order = addOrderOf p.point ∧ p.point ∈ AddSubgroup.zmultiples s.gen.point) ∧
      ∀ Q, pointOrders c s.gen.order = some Q → (ps.map Group.Pt.order).Pairwise (· < ·) ∧ ∀ d, d ∈ ps.map Group.Pt.order ↔ Q d) :
    GeneratorOk (Nat.card E.Pt) (pointV g.generator) s.gen.point ∧ PointsOk c (pointV g.generator) s.gen.point (g.points.map pointV) ∧
    g.points.length = s.points.length := by
  unfold outSub at h
  simp only [Option.bind_eq_some_iff, Option.map_eq_some_iff] at h
  obtain ⟨q, h1, gp, h2, rfl⟩ := h
  obtain ⟨e1, e2, e3, e4⟩ := point_printed E _ _ _ h1
  obtain ⟨ps, h3, h4, h5⟩ := hl e1
  have h2 := allSome_eq _ _ h2
  rw [h3, List.map_map] at h2
  have hlen := congrArg List.length h2
  simp only [List.length_map] at hlen
  obtain ⟨h6, h7⟩ := points_printed E ps gp h2
  refine ⟨⟨e2, by rw [e3, ho], _, e4, by rw [e3]; exact hc e1⟩, ⟨fun p hp => ?_, fun Q hQ => ?_⟩, by rw [h3, List.length_map]; exact hlen.symm⟩
  · obtain ⟨q', m1, m2, m3, m4⟩ := h7 p hp
    exact ⟨q'.point, m2, (h4 q' m1).2, by rw [m3]; exact (h4 q' m1).1, m4⟩
  · rw [e3] at hQ
    rw [h6]
    exact h5 Q hQ

theorem sum_lengths {α : Type} {R : Group.Sub α → Output.Subgroup → Prop} (h : ∀ s g, R s g → g.points.length = s.points.length)
    {l : List (Group.Sub α)} {gs : List Output.Subgroup} (hf : List.Forall₂ R l gs) :
    (gs.map fun g => g.points.length) = l.map fun s => s.points.length := by
  induction hf with
  | nil => rfl
  | cons h1 _ ih => rw [List.map_cons, List.map_cons, ih, h _ _ h1]

/-- the numbers that come up for the coefficients are elements of the field; of those of `--ansi`, the second -/
def CoeffsFine (c : Config) (T : Nat → Pick) : Prop :=
  (∀ i f, Elem (out f.1) ((T i).elt f)) ∧
  (c.seedAlgo = .ansi → ∀ i j f a b, ComesField T f → (T i).ansi f (T j).seed = .coeffs a b → eltV b < fieldSize f.1)

theorem coeffs_fine_none {c : Config} {T : Nat → Pick} (h : c.seedAlgo = .none) (hT : ∀ i f, Elem (out f.1) ((T i).elt f)) : CoeffsFine c T :=
  ⟨hT, fun h' => by rw [h] at h'; cases h'⟩

/-- the seeds of `--ansi` are good and have at least 160 bits -/
theorem ansi_seed_good {s : Bits.Bits} (h : AnsiSeed s) : Ansi.Good s ∧ 160 ≤ s.val.length := by
  rcases h with ⟨x, h1, h2, h3⟩ | ⟨l, h1, h2, -, h3⟩
  · obtain ⟨-, b, e, hb⟩ := Ansi.seeds_good [] (by decide) x h2
    rw [h3] at e; cases e
    obtain ⟨b, e, hl⟩ := Ansi.random_seed_length x h1 h2
    rw [h3] at e; cases e
    exact ⟨hb, by rw [Bits.val_length]; omega⟩
  · obtain ⟨⟨b, e, hb⟩, -⟩ := Ansi.seeds_good l h2 0 (Nat.zero_le _)
    rw [h3] at e; cases e
    obtain ⟨b, e, -, hl, -⟩ := Bits.fromHex_bits l
    rw [h3] at e; cases e
    exact ⟨hb, by rw [Bits.val_length]; omega⟩

/-- what the coefficients of `--ansi` have to do with the seed -/
def Related (bits : Nat) (S : List Bool) (f : FieldV) (a b : Nat) : Prop :=
  a ≤ 2 ^ bits ∧ b < fieldSize f ∧
  match f with
  | .prime p => (Bits.ofBits (Ansi.Spec.expandFp S bits) * b ^ 2 : Nat) ≡ a ^ 3 [MOD p]
  | .binary .. => b = Bits.ofBits (Ansi.Spec.expandF2m S bits)

theorem ansi_related (bits : Nat) (h1 : 1 ≤ bits) (f : Fld) (hm : ∀ m e1 e2 e3, f.1 = .binary m e1 e2 e3 → m = bits) (s : Bits.Bits) (hs : AnsiSeed s)
    (a b : Elt) (h : AnsiCall bits f s (.coeffs a b)) : Related bits s.val f.1 (eltV a) (eltV b) := by
  have hg := (ansi_seed_good hs).1
  obtain ⟨junk, sd, hsd, h⟩ := h
  obtain ⟨fv, hgood⟩ := f
  cases fv with
  | prime p =>
    obtain ⟨F, draws, fuel, hF, hd, h⟩ := h
    split at h
    · cases h
    · exact h.elim
    · rename_i r a' b' hr
      cases h
      obtain ⟨h2, h3, h4, h5, k, h6⟩ := Ansi.relation junk p F hF draws fuel s hg bits h1 sd hsd r a' b' hr
      subst h2
      refine ⟨by change a' ≤ _; rw [h6]; exact (hd k).2, by change b'.toNat < p; omega, ?_⟩
      change (Bits.ofBits (Ansi.Spec.expandFp s.val bits) * b'.toNat ^ 2 : Nat) ≡ a' ^ 3 [MOD p]
      rw [← Int.natCast_modEq_iff]
      push_cast
      rw [Int.toNat_of_nonneg h4]
      exact h3
  | binary m e1 e2 e3 =>
    obtain ⟨a', h2, h3, h⟩ := h
    rw [Ansi.equation_f2m junk a' s hg bits h1 sd hsd] at h
    have hm := hm m e1 e2 e3 rfl
    subst hm
    by_cases h0 : Bits.ofBits (Ansi.Spec.expandF2m s.val m) = 0
    · rw [if_pos h0] at h; cases h
    · rw [if_neg h0] at h
      cases h
      have e : ∀ n : Nat, eltV (.ff (digits2 n)) = n := fun n => by
        rw [← elementi_eq]; exact fromDigits_digits2 n
      rw [e, e, Int.toNat_natCast]
      refine ⟨h3, ?_, rfl⟩
      have := Bits.ofBits_lt (Ansi.Spec.expandF2m s.val m)
      rw [(Ansi.expansion_size s.val m h1).2.1] at this
      exact this

theorem bits_pos {c : Config} {f : FieldV} (hg : Good f) (h : FieldAsked c f) : 1 ≤ c.bits := by
  cases f with
  | prime p =>
    have h1 : p ≤ 2 ^ c.bits := h.2.2
    have h2 := Nat.Prime.two_le hg
    by_contra h0
    rw [show c.bits = 0 by omega] at h1
    omega
  | binary m e1 e2 e3 =>
    have h1 := h.2.1
    have := hg.1.1
    omega

theorem comes_asked {c : Config} {T : Nat → Pick} (hT : TapeOk c T) {f : Fld} (hf : ComesField T f) :
    1 ≤ c.bits ∧ ∀ m e1 e2 e3, f.1 = .binary m e1 e2 e3 → m = c.bits := by
  obtain ⟨i, rfl | rfl⟩ := hf
  · have h := (hT.picks i).randomField
    exact ⟨bits_pos (T i).randomField.2 h, fun m e1 e2 e3 e => by rw [e] at h; exact h.2.1⟩
  · have h := (hT.picks i).typedField
    exact ⟨bits_pos (c := { c with random := 0 }) (T i).typedField.2 h, fun m e1 e2 e3 e => by rw [e] at h; exact h.2.1⟩

/-- the coefficients of `--ansi` that may come up have to do with their seed -/
theorem tape_related {c : Config} {T : Nat → Pick} (hT : TapeOk c T) (h : c.seedAlgo = .ansi) {i j : Nat} {f : Fld} (hf : ComesField T f) {a b : Elt}
    (e : (T i).ansi f (T j).seed = .coeffs a b) : Related c.bits (T j).seed.val f.1 (eltV a) (eltV b) := by
  obtain ⟨h1, h2⟩ := comes_asked hT hf
  have := hT.ansi h i j f hf
  rw [e] at this
  exact ansi_related c.bits h1 f h2 _ ((hT.picks j).ansiSeed h) a b this

theorem coeffs_fine {c : Config} {T : Nat → Pick} (hT : TapeOk c T) : CoeffsFine c T :=
  ⟨fun i => (hT.picks i).elt, fun h _ _ _ _ _ hf e => (tape_related hT h hf e).2.1⟩

/-- the coefficients that come up are elements of the field, and those of a Koblitz curve if one was asked for -/
theorem coefficients (c : Config) (hc : Covered c) (T : Nat → Pick) (hT : CoeffsFine c T) (f : Fld) (hf : ComesField T f) (a b : Elt) (ha : ComesA c T f a)
    (hb : ComesB c T f b) : (c.seedAlgo = .none → eltV a < fieldSize f.1) ∧ eltV b < fieldSize f.1 ∧
      (c.koblitz = true → c.seedAlgo = .none → a = .int c.koblitzValue.toNat ∧ b = .int 1) := by
  unfold ComesA at ha
  unfold ComesB at hb
  by_cases hk : c.koblitz = true ∧ c.seedAlgo = .none
  · rw [if_pos hk] at ha hb
    subst ha hb
    have hsz := one_lt_size f
    refine ⟨fun _ => ?_, hsz, fun _ _ => ⟨rfl, rfl⟩⟩
    change c.koblitzValue.toNat < _
    rcases hc.value with h | h <;> rw [h] <;> simp <;> omega
  · rw [if_neg hk] at ha hb
    refine ⟨fun h0 => ?_, ?_, fun h h' => absurd ⟨h, h'⟩ hk⟩
    · rw [if_pos h0] at ha
      obtain ⟨i, rfl⟩ := ha
      exact eltV_lt f _ (hT.1 i f)
    · by_cases h0 : c.seedAlgo = .none
      · rw [if_pos h0] at hb
        obtain ⟨i, rfl⟩ := hb
        exact eltV_lt f _ (hT.1 i f)
      · rw [if_neg h0] at hb
        obtain ⟨i, j, a', e⟩ := hb
        rcases hc.algo with h1 | h1
        · exact absurd h1.1 h0
        · exact hT.2 h1.1 i j f a' b hf e

/-- **the curve at the end of the search, as printed, is one that was asked for** -/
theorem curve_asked (c : Config) (hc : Covered c) (T : Nat → Pick) (hT : CoeffsFine c T) (x : Cur) (hi : Inv c T 9 x) (v : Output.Curve) (h : outCurve x = some v) : Asked c (curveV v) := by
  obtain ⟨f, a, b, h1, h2, h3, h4, h5⟩ := hi.crv (by omega)
  obtain ⟨c1, c2, c3⟩ := comes hi (by omega) h1 h2 h3
  obtain ⟨f', e1, hf, hcf⟩ := hi.field (by omega)
  rw [h1] at e1; cases e1
  obtain ⟨ha, hb, hk⟩ := coefficients c hc T hT f hcf a b c2 c3
  obtain ⟨E, e1, ho, hoa⟩ := hi.order (by omega)
  rw [h4] at e1; cases e1
  obtain ⟨E, l, e1, hl, hgk, -⟩ := hi.gens (by omega)
  rw [h4] at e1; cases e1
  obtain ⟨E, l', e1, hpk⟩ := hi.points (by omega)
  rw [hl] at e1; cases e1
  simp only [outCurve, h1, h2, h3, ho, hl, Option.map_eq_some_iff] at h
  obtain ⟨gs, hgs, rfl⟩ := h
  have hgs := allSome_eq _ _ hgs
  have hsub : List.Forall₂ (fun (s : Group.Sub (Crv.mk f a b).Pt) g => outSub ⟨f, a, b⟩ s = some g) l gs := by
    have : List.Forall₂ (· = ·) (l.map (outSub ⟨f, a, b⟩)) (gs.map some) := by rw [hgs]; exact List.forall₂_refl _
    rw [List.forall₂_map_left_iff, List.forall₂_map_right_iff] at this
    exact this
  have hne : ∀ s ∈ l, s.gen.point ≠ 0 := by
    intro s hs
    obtain ⟨i, hi, rfl⟩ := List.mem_iff_getElem.1 hs
    have hl := hsub.length_eq
    have := (List.forall₂_iff_get.1 hsub).2 i hi (by omega)
    simp only [List.get_eq_getElem, outSub, Option.bind_eq_some_iff] at this
    obtain ⟨q, hq, -⟩ := this
    exact (point_printed _ _ _ _ hq).1
  have hpk := hpk hne
  have hmem : ∀ s ∈ l, s.gen ∈ l.map Group.Sub.gen := fun s hs => List.mem_map_of_mem hs
  have hsub2 : List.Forall₂ (fun (s : Group.Sub (Crv.mk f a b).Pt) (g : Output.Subgroup) =>
      GeneratorOk (Nat.card (Crv.mk f a b).Pt) (pointV g.generator) s.gen.point ∧
      PointsOk c (pointV g.generator) s.gen.point (g.points.map pointV) ∧ g.points.length = s.points.length) l gs := by
    refine List.forall₂_iff_get.2 ⟨hsub.length_eq, fun i i1 i2 => ?_⟩
    have hm : l.get ⟨i, i1⟩ ∈ l := List.get_mem _ _
    exact sub_printed c _ _ _ ((List.forall₂_iff_get.1 hsub).2 i i1 i2) (hgk.order _ (hmem _ hm)) (hgk.cofactor _ (hmem _ hm))
      fun _ => hpk.listed _ hm
  have hF : List.Forall₂ (fun (g : PointV × List PointV) (G : (Crv.mk f a b).Pt) =>
      GeneratorOk (Nat.card (Crv.mk f a b).Pt) g.1 G ∧ PointsOk c g.1 G g.2)
      (gs.map fun g => (pointV g.generator, g.points.map pointV)) ((l.map Group.Sub.gen).map Group.Pt.point) := by
    rw [List.map_map, List.forall₂_map_left_iff, List.forall₂_map_right_iff]
    exact hsub2.flip.imp fun g s h => ⟨h.1, h.2.1⟩
  have hG : GeneratorsOk c (Nat.card (Crv.mk f a b).Pt) ((l.map Group.Sub.gen).map Group.Pt.point) := by
    refine ⟨fun hu => ?_, fun hu hc => ?_, hgk.all⟩
    · rcases hgk.unique hu with ⟨u1, u2⟩ | ⟨g, u1, u2⟩
      · exact Or.inl ⟨u1, by rw [u2]; rfl⟩
      · exact Or.inr ⟨g.point, by rw [u1]; rfl, u2⟩
    · obtain ⟨g, l', u1, u2, u3⟩ := hgk.first hu hc
      have hg : g.point ≠ 0 := by
        have : g ∈ l.map Group.Sub.gen := by rw [u1]; exact List.mem_cons_self
        obtain ⟨s, hs, rfl⟩ := List.mem_map.1 this
        exact hne s hs
      exact ⟨g.point, l'.map Group.Pt.point, by rw [u1]; rfl, u2, u3 hg⟩
  have hN : c.pointsType = .random → c.pointsAmount ≠ 0 →
      ((gs.map fun g => (pointV g.generator, g.points.map pointV)).map fun g => g.2.length).sum = c.pointsAmount := by
    intro hr h0
    rw [← hpk.count hr h0, List.map_map]
    congr 1
    rw [← sum_lengths (fun s g h => h.2.2) hsub2]
    apply List.map_congr_left
    intro g _
    simp
  have e0 : (curveV ⟨x.seed, out f.1, a, b, Nat.card (Crv.mk f a b).Pt, gs, x.info⟩).field = f.1 := fieldV_out f
  refine ⟨?_, f, e0, ?_, ?_, ?_, fun h h' => ?_, h5, rfl, hoa, _, hF, hG, hN⟩
  · change (x.seed.map seedV).isSome ↔ _
    rw [Option.isSome_map]
    exact ⟨fun h h' => (by rw [hi.noseed h'] at h; cases h), (hi.seed (by omega)).1⟩
  · rw [e0]; exact hf
  · rw [e0]; exact ha
  · rw [e0]; exact hb
  · obtain ⟨rfl, rfl⟩ := hk h h'
    refine ⟨?_, rfl⟩
    change (c.koblitzValue.toNat : Int) = c.koblitzValue
    rcases hc.value with h | h <;> rw [h] <;> rfl

/-- and it can be printed, if its text is not too long -/
theorem curve_printable (c : Config) (T : Nat → Pick) (x : Cur) (hi : Inv c T 9 x) (v : Output.Curve) (h : outCurve x = some v)
    (hs : ∀ j, Parson.outputJjson c.hexDigits v = .ok j → (Parson.render true 0 j).length ≤ 2147483646) :
    Parson.PrintableText c.hexDigits v := by
  obtain ⟨f, a, b, h1, h2, h3, h4, h5⟩ := hi.crv (by omega)
  obtain ⟨E, -, ho, -⟩ := hi.order (by omega)
  obtain ⟨E, l, -, hl, -⟩ := hi.gens (by omega)
  simp only [outCurve, h1, h2, h3, ho, hl, Option.map_eq_some_iff] at h
  obtain ⟨gs, hgs, rfl⟩ := h
  exact ⟨⟨out_ne f.1, fun s hs => ⟨((hi.seed (by omega)).2 s hs).1, ((hi.seed (by omega)).2 s hs).2.1⟩⟩, terms_out f, (hi.info (by omega)).1, (hi.info (by omega)).2, hs⟩

/-! ## The run -/

/-- the curves of a run are complete -/
theorem generated_complete (P : Pari) (hP : P.Ok) (c : Config) (h : Covered c) (T : Nat → Pick) (fuel : Nat) : ∀ (n : Nat) (w : W), Behaves c T w →
    ∀ v ∈ Json.generated (one P c fuel) n w, ∃ x, Inv c T 9 x ∧ outCurve x = some v := by
  intro n
  induction n with
  | zero => intro w _ v hv; cases hv
  | succ n ih =>
    intro w hb v hv
    unfold Json.generated at hv
    have key : ∀ o w', one P c fuel w = (o, w') → Behaves c T w' ∧ ∀ u, o = some u → ∃ x, Inv c T 9 x ∧ outCurve x = some u := by
      intro o w' ho
      unfold one at ho
      cases hg : Engine.gen (setup P c) 0 9 fuel { w with cur := {} } with
      | none => rw [hg] at ho; cases ho; exact ⟨hb, fun u hu => by cases hu⟩
      | some r =>
        obtain ⟨r, st⟩ := r
        rw [hg] at ho
        obtain ⟨h1, h2⟩ := search P hP c h T fuel w hb r st hg
        simp only [Prod.mk.injEq] at ho
        obtain ⟨rfl, rfl⟩ := ho
        refine ⟨h1, fun u hu => ?_⟩
        rcases h2 with ⟨rfl, h2⟩ | rfl
        · rw [if_neg (by decide)] at hu
          exact ⟨_, h2, hu⟩
        · rw [if_pos rfl] at hu
          cases hu
    cases ho : one P c fuel w with
    | mk o w' =>
      obtain ⟨k1, k2⟩ := key o w' ho
      rw [ho] at hv
      cases o with
      | none => cases hv
      | some u =>
        simp only [List.mem_cons] at hv
        rcases hv with rfl | hv
        · exact k2 _ rfl
        · exact ih w' k1 v hv

/-- an accepted command line for the default method or `--ansi` is covered, but for Koblitz curves over prime fields -/
theorem covered (n : Int) (os : List Opt) (c : Config) (h : commandLine n os = some c) (hm : c.method = 0 ∨ c.seedAlgo = .ansi)
    (hk : c.koblitz = true → c.seedAlgo = .none → c.field = FIELD_PRIME → c.prime = false → c.cofactor = false → c.smooth = false →
      Koblitz.getOrder c.bits c.koblitzValue.toNat = none) : Covered c := by
  have hc := consistent n os c h
  refine ⟨?_, hc.koblitz, accepted_constraints n os c h, hk⟩
  rcases hm with hm | hm
  · refine Or.inl ⟨?_, hm⟩
    by_contra hne
    have := hc.algo.1.2 hne
    rw [hm] at this
    cases this
  · exact Or.inr ⟨hm, hc.algo.1.2 (by rw [hm]; decide)⟩

/-- **C75** From the command line to the bytes: when a run of the default method or of `--ansi` ends with the status 0, what it has printed is the JSON
text of an array with as many curves as were asked for, each of which is, in the numbers read back from the text, one that was asked for. Whatever the
random numbers, the typed input, the failures and the timer do. -/
theorem run_prints_what_was_asked_partial (malloc : Nat → List Parson.Byte) (hm : ∀ n, (malloc n).length = n) (P : Pari) (hP : P.Ok)
    (n : Int) (os : List Opt) (c : Config) (h : commandLine n os = some c) (hd : c.method = 0 ∨ c.seedAlgo = .ansi)
    (hk : c.koblitz = true → c.seedAlgo = .none → c.field = FIELD_PRIME → c.prime = false → c.cofactor = false → c.smooth = false →
      Koblitz.getOrder c.bits c.koblitzValue.toNat = none)
    (fuel : Nat) (w : W) (hb : TapeOk c w.tape) (hstatus : (produce P c fuel w).2 = 0)
    (hs : ∀ v ∈ Json.generated (one P c fuel) (toSize c.count) w, ∀ j, Parson.outputJjson c.hexDigits v = .ok j →
      (Parson.render true 0 j).length ≤ 2147483646) :
    ∃ js : List Output.Json, (∀ j, Parson.Spec.Document (bytes malloc P c fuel w) (Parson.encode j) ↔ j = .arr js) ∧ js.length = toSize c.count ∧
      ∀ j ∈ js, ∃ v, readCurve j = some v ∧ Asked c v := by
  have hcov := covered n os c h hd hk
  have hgen := generated_complete P hP c hcov w.tape fuel (toSize c.count) w ⟨rfl, hb⟩
  have hlen := (Json.generate_objects (one P c fuel) (toSize c.count) w).2.1 hstatus
  obtain ⟨js, h1, h2⟩ := Parson.output_reads malloc hm c.hexDigits (one P c fuel) (toSize c.count) w
    (fun v hv => by
      obtain ⟨x, hx, hv'⟩ := hgen v hv
      exact curve_printable c w.tape x hx v hv' (hs v hv)) hlen
  refine ⟨js, h1, ?_, fun j hj => ?_⟩
  · rw [← hlen, ← List.length_map (f := readCurve), h2, List.length_map]
  · have : readCurve j ∈ (Json.generated (one P c fuel) (toSize c.count) w).map fun v => some (curveV v) := by
      rw [← h2]; exact List.mem_map_of_mem hj
    obtain ⟨v, hv, e⟩ := List.mem_map.1 this
    obtain ⟨x, hx, hv'⟩ := hgen v hv
    exact ⟨curveV v, e.symm, curve_asked c hcov w.tape (coeffs_fine hb) x hx v hv'⟩

end Ecgen.Whole
