import Verif.Whole.Examples

/-!
# Every curve asked for can be found (C99)

The other theorems about runs say that what is printed is right. Here: for every curve that meets what the command line asks for there are random
numbers or answers with which the run prints it.
-/

namespace Ecgen.Whole

open Output Output.Spec Cli

/-! ## The stages, one after the other -/

/-- what is kept of the curve at the beginning of a stage -/
structure Has (E : Crv) (s : Nat) (x : Cur) : Prop where
  field : 2 ≤ s → x.field = some E.field
  a : 3 ≤ s → x.a = some E.a
  b : 4 ≤ s → x.b = some E.b
  crv : 5 ≤ s → x.crv = some E

/-- the stages from the order on leave the curve alone -/
theorem withPoints_keeps (P : Pari) (p : Pick) (arg : Option Arg) (x : Cur) (g : Gen) (x' : Cur) (d : Int)
    (h : call.withPoints P p arg x g = some (x', d)) : x'.field = x.field ∧ x'.a = x.a ∧ x'.b = x.b ∧ x'.crv = x.crv := by
  unfold call.withPoints at h
  split at h
  · split at h
    · rw [Option.map_eq_some_iff] at h
      obtain ⟨l, -, e⟩ := h
      cases e
      exact ⟨rfl, rfl, rfl, rfl⟩
    · cases h
  · cases h

theorem filtered_keeps (x : Cur) (o : Option Nat) : (filtered x o).1.field = x.field ∧ (filtered x o).1.a = x.a ∧ (filtered x o).1.b = x.b ∧
    (filtered x o).1.crv = x.crv := by
  cases o <;> exact ⟨rfl, rfl, rfl, rfl⟩

theorem found_keeps (x : Cur) (E : Crv) (o : Option (List (Group.Pt E.Pt))) : (found x E o).1.field = x.field ∧ (found x E o).1.a = x.a ∧
    (found x E o).1.b = x.b ∧ (found x E o).1.crv = x.crv := by
  cases o <;> exact ⟨rfl, rfl, rfl, rfl⟩

theorem order_keeps (P : Pari) (bits : Nat) (p : Pick) (E : Crv) (arg : Option Arg) (x : Cur) (g : Gen) (x' : Cur) (d : Int)
    (h : orderStage P bits p E arg x g = some (x', d)) : x'.field = x.field ∧ x'.a = x.a ∧ x'.b = x.b ∧ x'.crv = x.crv := by
  unfold orderStage at h
  split at h
  · cases h; exact ⟨rfl, rfl, rfl, rfl⟩
  · have := filtered_keeps x (Order.genPrime P.isprime (p.sea E))
    rw [Option.some.inj h] at this
    exact this
  · rw [Option.map_eq_some_iff] at h
    obtain ⟨k, -, h⟩ := h
    have := filtered_keeps x (Order.genCofactor P.isprime (argNat k) (P.card E))
    rw [h] at this
    exact this
  · rw [Option.map_eq_some_iff] at h
    obtain ⟨k, -, h⟩ := h
    have := filtered_keeps x (Order.genSmooth P.fac (argNat k) (P.card E))
    rw [h] at this
    exact this
  · split at h
    · cases h; exact ⟨rfl, rfl, rfl, rfl⟩
    · cases h
  · cases h

theorem gens_keeps (P : Pari) (p : Pick) (E : Crv) (n : Nat) (arg : Option Arg) (x : Cur) (g : Gen) (x' : Cur) (d : Int)
    (h : gensStage P p E n arg x g = some (x', d)) : x'.field = x.field ∧ x'.a = x.a ∧ x'.b = x.b ∧ x'.crv = x.crv := by
  unfold gensStage at h
  split at h
  · have := found_keeps x E (some (Group.gensAny (P.ord E) n (p.gens E)))
    rw [Option.some.inj h] at this
    exact this
  · have := found_keeps x E (Group.gensOne (P.ord E) n (p.gens E))
    rw [Option.some.inj h] at this
    exact this
  · rw [Option.map_eq_some_iff] at h
    obtain ⟨k, -, h⟩ := h
    have := found_keeps x E (Group.gensCofactor (P.ord E) n (argNat k) (p.gens E))
    rw [h] at this
    exact this
  · cases h

/-- the later stages -/
theorem late_keeps (P : Pari) (c : Config) (h : Covered c) (p : Pick) (s : Nat) (h5 : 5 ≤ s) (h9 : s < 9) (x x' : Cur) (d : Int)
    (ha : act P c p s x = some (x', d)) : x'.field = x.field ∧ x'.a = x.a ∧ x'.b = x.b ∧ x'.crv = x.crv := by
  match s, h5, h9 with
  | 5, _, _ =>
    have key : ∀ g, (exhaustiveSetup c).gens.order = some g → g ∈ [Gen.orderPrime, .orderCofactor, .orderSmooth, .orderKoblitz, .orderAny] →
        x'.field = x.field ∧ x'.a = x.a ∧ x'.b = x.b ∧ x'.crv = x.crv := by
      intro g hg hm
      simp only [act, stageOf, hg, Option.bind_some, id] at ha
      simp only [List.mem_cons, List.not_mem_nil, or_false] at hm
      rcases hm with rfl | rfl | rfl | rfl | rfl <;>
      · simp only [call] at ha
        rw [Option.bind_eq_some_iff] at ha
        obtain ⟨E, -, ha⟩ := ha
        exact order_keeps _ _ _ _ _ _ _ _ _ ha
    rcases table_order c h with ⟨-, t⟩ | ⟨-, -, t⟩ | ⟨-, -, -, t⟩ | ⟨-, -, -, ⟨-, -, t⟩ | t⟩ <;> exact key _ t (by simp)
  | 6, _, _ =>
    have key : ∀ g, (exhaustiveSetup c).gens.gens = some g → g ∈ [Gen.gensOne, .gensCofactor, .gensAny] →
        x'.field = x.field ∧ x'.a = x.a ∧ x'.b = x.b ∧ x'.crv = x.crv := by
      intro g hg hm
      simp only [act, stageOf, hg, Option.bind_some, id] at ha
      simp only [List.mem_cons, List.not_mem_nil, or_false] at hm
      rcases hm with rfl | rfl | rfl <;>
      · simp only [call] at ha
        rw [Option.bind_eq_some_iff] at ha
        obtain ⟨E, -, ha⟩ := ha
        rw [Option.bind_eq_some_iff] at ha
        obtain ⟨n, -, ha⟩ := ha
        exact gens_keeps _ _ _ _ _ _ _ _ _ ha
    rcases table_gens c h with ⟨-, t⟩ | ⟨-, -, t⟩ | ⟨-, -, t⟩ <;> exact key _ t (by simp)
  | 7, _, _ =>
    have htab : (exhaustiveSetup c).gens.points = some (pointsChoice c) := rfl
    simp only [act, stageOf, htab, Option.bind_some, id] at ha
    by_cases hn : c.pointsType = .none
    · simp only [pointsChoice, hn, call] at ha
      cases ha
      exact ⟨rfl, rfl, rfl, rfl⟩
    · rw [call_points P c.bits p c _ x hn] at ha
      exact withPoints_keeps _ _ _ _ _ _ _ ha
  | 8, _, _ =>
    have htab : (exhaustiveSetup c).gens.metadata = some (if c.metadata then .metadata else .skip) := rfl
    simp only [act, stageOf, htab, Option.bind_some, id] at ha
    cases hm : c.metadata <;> (rw [hm] at ha; cases ha; exact ⟨rfl, rfl, rfl, rfl⟩)

/-- the order stage accepts what was asked for -/
theorem order_accepts (P : Pari) (hP : P.Ok) (c : Config) (h : Covered c) (p : Pick) (x : Cur) (E : Crv) (hE : x.crv = some E) (hd : E.eqn.Δ ≠ 0)
    (hs : Order.SeaSpec (p.sea E) (Nat.card E.Pt)) (ho : OrderAsked c (Nat.card E.Pt)) (x' : Cur) (d : Int) (ha : act P c p 5 x = some (x', d)) : d ≠ -4 := by
  have hn := card_pos E
  have hcard := hP.card E hd
  obtain ⟨o1, o2, o3⟩ := h.one
  obtain ⟨a1, a2, -, -⟩ := orderArg c
  have harg : (exhaustiveSetup c).genArgs.order = (ainit c).order := rfl
  have filt : ∀ o : Option Nat, o.isSome → filtered x o = (x', d) → d ≠ -4 := by
    intro o e1 e2
    cases o with
    | none => cases e1
    | some m => cases e2; decide
  rcases table_order c h with ⟨t1, t4⟩ | ⟨t1, t2, t4⟩ | ⟨t1, t2, t3, t4⟩ | ⟨t1, t2, t3, ⟨t5, t6, t4⟩ | t4⟩
  · simp only [act, stageOf, t4, Option.bind_some, id, call, hE, orderStage, Option.some.injEq] at ha
    refine filt _ ?_ ha
    exact (Order.prime_filter P.isprime hP.isprime _ _ hs).2.2 (ho.1 t1)
  · have hs : c.smooth = false := by
      cases hs : c.smooth
      · rfl
      · exact absurd ⟨hs, t2⟩ o3
    simp only [act, stageOf, t4, Option.bind_some, id, call, hE, orderStage, harg, a2 hs t2, Option.map_some, Option.some.injEq, argNat, hcard] at ha
    exact filt _ ((Order.cofactor_filter P.isprime hP.isprime (toSize c.cofactorValue) _ hn).2.2 (ho.2.1 t2)) ha
  · simp only [act, stageOf, t4, Option.bind_some, id, call, hE, orderStage, harg, a1 t3, Option.map_some, Option.some.injEq, argNat, hcard] at ha
    exact filt _ ((Order.smooth_filter P.fac hP.fac (toSize c.smoothValue) _ hn).2.2 (ho.2.2 t3)) ha
  · simp only [act, stageOf, t4, Option.bind_some, id, call, hE, orderStage] at ha
    split at ha
    · cases ha; decide
    · cases ha
  · simp only [act, stageOf, t4, Option.bind_some, id, call, hE, orderStage] at ha
    cases ha; decide

theorem square_orders {q m n : Nat} (hq : q.Prime) (h : m * n = q * q) (hd : n ∣ m) (hn : n ≠ 1) : m = q := by
  have h1 : n ∣ q ^ 2 := ⟨m, by rw [sq, ← h, Nat.mul_comm]⟩
  have hq0 := hq.pos
  obtain ⟨i, hi, rfl⟩ := (Nat.dvd_prime_pow hq).1 h1
  have : i ≠ 0 := by rintro rfl; exact hn rfl
  have hi' : i = 1 ∨ i = 2 := by omega
  rcases hi' with rfl | rfl
  · rw [pow_one] at h
    exact Nat.eq_of_mul_eq_mul_right hq0 h
  · rw [sq] at h hd
    have : m = 1 := Nat.eq_of_mul_eq_mul_right (Nat.mul_pos hq0 hq0) (by rw [h, Nat.one_mul])
    rw [this, Nat.dvd_one] at hd
    exact absurd (Nat.eq_one_of_mul_eq_one_left hd) hq.ne_one

/-- what the search asks of the group `A` of points: with `--unique` it is cyclic; with `--cofactor=k` alone it is cyclic or has `k²` elements -/
def Plain (c : Config) (A : Type) [AddCommGroup A] : Prop :=
  (c.unique = true → IsAddCyclic A) ∧
  (c.unique = false → c.cofactor = true → IsAddCyclic A ∨ Nat.card A = toSize c.cofactorValue * toSize c.cofactorValue)

/-- the stage of the generators accepts these groups -/
theorem gens_accepts (P : Pari) (hP : P.Ok) (c : Config) (h : Covered c) (p : Pick) (x : Cur) (E : Crv) (hE : x.crv = some E)
    (hn : x.order = some (Nat.card E.Pt)) (hg : Group.GensSpec E.Pt (p.gens E)) (ho : OrderAsked c (Nat.card E.Pt))
    (hcyc : Plain c E.Pt) (x' : Cur) (d : Int) (ha : act P c p 6 x = some (x', d)) : d ≠ -5 := by
  have hord := hP.ord E
  have harg : (exhaustiveSetup c).genArgs.gens = (ainit c).gens := rfl
  have filt : ∀ o : Option (List (Group.Pt E.Pt)), o.isSome → found x E o = (x', d) → d ≠ -5 := by
    intro o e1 e2
    cases o with
    | none => cases e1
    | some m => cases e2; decide
  rcases table_gens c h with ⟨t1, t4⟩ | ⟨t1, t2, t4⟩ | ⟨t1, t2, t4⟩
  · simp only [act, stageOf, t4, Option.bind_some, id, call, hE, hn, gensStage, Option.some.injEq] at ha
    refine filt _ ?_ ha
    rcases Group.gens_one (P.ord E) hord _ hg with ⟨-, h2⟩ | ⟨-, ⟨h1, -⟩ | ⟨g, h1, -⟩⟩
    · exact absurd (hcyc.1 t1) h2
    · rw [h1]; rfl
    · rw [h1]; rfl
  · simp only [act, stageOf, t4, Option.bind_some, id, call, hE, hn, gensStage, harg, (orderArg c).2.2.1 t2, Option.map_some, Option.some.injEq, argNat] at ha
    refine filt _ ?_ ha
    obtain ⟨q, hq, hk⟩ := ho.2.1 t2
    have hk0 : 0 < toSize c.cofactorValue := by
      rcases Nat.eq_zero_or_pos (toSize c.cofactorValue) with h | h
      · rw [h, Nat.zero_mul] at hk
        have := card_pos E
        omega
      · exact h
    unfold Group.gensCofactor
    rw [Option.isSome_map]
    generalize hl : p.gens E = l at hg
    match l, hg with
    | [], hg =>
      have hs : Subsingleton E.Pt := ⟨fun x y => by rw [hg x, hg y]⟩
      have : Nat.card E.Pt = 1 := Nat.card_of_subsingleton 0
      rw [this] at hk
      exact absurd (Nat.eq_one_of_mul_eq_one_left hk.symm) hq.ne_one
    | [g], hg =>
      have hc := Group.card_one g hg.2
      unfold Group.findCofactor
      rw [hord, ← hc, if_pos (show toSize c.cofactorValue ∣ Nat.card E.Pt from ⟨q, hk⟩)]
      split <;> rfl
    | [g, h'], hg =>
      have hnc := Group.not_cyclic g h' hg.1 hg.2.1 hg.2.2.1 hg.2.2.2
      rcases hcyc.2 t1 t2 with hc | hc
      · exact absurd hc hnc
      · rw [hk] at hc
        have hkq : q = toSize c.cofactorValue := Nat.eq_of_mul_eq_mul_left hk0 hc
        have hcard : addOrderOf g * addOrderOf h' = q * q := by rw [← Group.card_two g h' hg.2.2.1 hg.2.2.2, hk, ← hkq]
        have hh : addOrderOf h' ≠ 1 := fun e => hg.1 (AddMonoid.addOrderOf_eq_one_iff.1 e)
        have hgq : addOrderOf g = q := square_orders hq hcard hg.2.1 hh
        unfold Group.findCofactor
        rw [hord, hgq, hk, Nat.mul_div_cancel_left _ hk0, if_pos rfl]
        rfl
  · simp only [act, stageOf, t4, Option.bind_some, id, call, hE, hn, gensStage, Option.some.injEq] at ha
    exact filt _ rfl ha

/-! ## The random numbers -/

open Classical in
/-- call number `i` of a run in which nothing fails and the curve `E` comes up, again and again -/
noncomputable def aimed (E : Crv) (i : Nat) : Pick where
  cut := none
  fail _ := none
  seed := ⟨[0x5a], false, 8, 1⟩
  randomField := E.field
  typedField := E.field
  elt f := if f = E.field ∧ Elem (out E.field.1) E.a ∧ Elem (out E.field.1) E.b then (if i % 9 = 2 then E.a else E.b)
    else (ielement (out f.1) 1).getD (.int 0)
  sea E := Nat.card E.Pt
  gens E' := if h : ∃ l, Group.GensSpec E'.Pt l then Classical.choose h else []
  which _ _ := 0
  mul _ _ _ := 1
  mul0 := 1
  info := []
  verdict := none

/-- the curve is one of those asked for: the field, the coefficients, the order, and the group -/
structure Suits (c : Config) (E : Crv) : Prop where
  field : FieldAsked c E.field.1
  koblitz : c.koblitz = true → E.a = .int c.koblitzValue.toNat ∧ E.b = .int 1
  element : c.koblitz = false → Elem (out E.field.1) E.a ∧ Elem (out E.field.1) E.b
  nonsingular : E.eqn.Δ ≠ 0
  order : OrderAsked c (Nat.card E.Pt)
  plain : Plain c E.Pt

/-- PARI finds generators for the curves that may come up while `E` is looked for -/
def Generated (E : Crv) : Prop := ∀ a b, a = E.a ∨ a = E.b → b = E.a ∨ b = E.b → (Crv.mk E.field a b).eqn.Δ ≠ 0 →
  ∃ l, Group.GensSpec (Crv.mk E.field a b).Pt l

/-- the points asked for can be listed -/
def Listable (c : Config) (E : Crv) : Prop := Clear c (Nat.card E.Pt) ∧
  (c.pointsType = .none ∨ c.pointsType = .prime ∨ (c.pointsType = .random ∧ c.pointsAmount ≠ 0 ∧ Nat.card E.Pt ≠ 1) ∨
    (c.pointsType ≠ .random ∧ (Nat.card E.Pt).primeFactorsList.length < 63))

theorem one_elem (f : Fld) : Elem (out f.1) ((ielement (out f.1) 1).getD (.int 0)) := by
  obtain ⟨e, h1, h2, -⟩ := ielement_out f 1 (one_lt_size f)
  rw [h1]
  exact h2

theorem typed_asked {c : Config} {f : FieldV} (hf : FieldAsked c f) : FieldAsked { c with random := 0 } f := by
  revert hf
  cases f with
  | prime p => exact fun hf => ⟨hf.1, fun h => absurd (Nat.zero_and 2) h, hf.2.2⟩
  | binary m e1 e2 e3 => exact fun hf => hf

theorem aimed_ok (c : Config) (h0 : c.seedAlgo = .none) (E : Crv) (hf : FieldAsked c E.field.1) (i : Nat) : (aimed E i).Ok c where
  cut x h := by cases h
  fail s d h := by cases h
  seed := show (Bits.Bits.mk [0x5a] false 8 1).WF ∧ (8 : Nat) ≠ 0 from ⟨⟨Nat.le_refl 1, by decide⟩, by decide⟩
  randomField := hf
  typedField := typed_asked hf
  ansiSeed h := by rw [h0] at h; cases h
  elt f := by
    simp only [aimed]
    split
    · rename_i h
      rw [h.1]
      split
      · exact h.2.1
      · exact h.2.2
    · exact one_elem f
  which n i h := h
  mul o i j h := ⟨Nat.le_refl 1, by simp only [aimed]; omega⟩
  info := ⟨fun x h => (nomatch h), List.nodup_nil⟩
  verdict d h := by cases h

theorem aimed_elt (E : Crv) (h : Elem (out E.field.1) E.a ∧ Elem (out E.field.1) E.b) (i : Nat) :
    (aimed E i).elt E.field = if i % 9 = 2 then E.a else E.b := by
  simp only [aimed]
  rw [if_pos ⟨rfl, h⟩]

/-- only the coefficients of the curve come up -/
theorem aimed_comes (c : Config) (h0 : c.seedAlgo = .none) (E : Crv) (h : Suits c E) (e : Elt) :
    (ComesA c (aimed E) E.field e → e = E.a ∨ e = E.b) ∧ (ComesB c (aimed E) E.field e → e = E.a ∨ e = E.b) := by
  have key : c.koblitz = false → ∀ i, e = (aimed E i).elt E.field → e = E.a ∨ e = E.b := by
    intro hk i he
    rw [aimed_elt E (h.element hk)] at he
    split at he
    · exact Or.inl he
    · exact Or.inr he
  cases hk : c.koblitz with
  | true =>
    rw [ComesA, if_pos ⟨hk, h0⟩, ComesB, if_pos ⟨hk, h0⟩]
    exact ⟨fun he => Or.inl (he.trans (h.koblitz hk).1.symm), fun he => Or.inr (he.trans (h.koblitz hk).2.symm)⟩
  | false =>
    have hn : ¬ (c.koblitz = true ∧ c.seedAlgo = .none) := by rw [hk]; simp
    rw [ComesA, if_neg hn, if_pos h0, ComesB, if_neg hn, if_pos h0]
    constructor
    · rintro ⟨i, he⟩
      exact key hk i he
    · rintro ⟨i, he⟩
      exact key hk i he

theorem aimed_tape (c : Config) (h0 : c.seedAlgo = .none) (E : Crv) (h : Suits c E) (hg : Generated E) : TapeOk c (aimed E) where
  picks := aimed_ok c h0 E h.field
  ansi h := by rw [h0] at h; cases h
  sea _ _ _ _ _ _ := Or.inl rfl
  gens i E' h1 h2 h3 h4 := by
    have hF : E'.field = E.field := by obtain ⟨_, h1 | h1⟩ := h1 <;> exact h1
    obtain ⟨f, a, b⟩ := E'
    simp only at hF h2 h3
    subst hF
    have hx := hg a b ((aimed_comes c h0 E h a).1 h2) ((aimed_comes c h0 E h b).2 h3) h4
    simp only [aimed]
    rw [dif_pos hx]
    exact Classical.choose_spec hx

/-! ## The run -/

/-- a call that brings the curve `E` up at stage `s` -/
structure Toward (c : Config) (E : Crv) (s : Nat) (p : Pick) : Prop where
  ok : p.Ok c
  cut : p.cut = none
  fail : ∀ s, p.fail s = none
  field : s = 1 → (if has c.random RANDOM_FIELD then p.randomField else p.typedField) = E.field
  a : c.koblitz = false → s = 2 → p.elt E.field = E.a
  b : c.koblitz = false → s = 3 → p.elt E.field = E.b
  sea : Order.SeaSpec (p.sea E) (Nat.card E.Pt)
  gens : Group.GensSpec E.Pt (p.gens E)

/-- one stage -/
theorem next_on (P : Pari) (hP : P.Ok) (c : Config) (hc : Covered c) (h0 : c.seedAlgo = .none) (E : Crv) (h : Suits c E)
    (hl : Listable c E) (T : Nat → Pick) (i s : Nat) (hs : s < 9) (ht : Toward c E s (T i)) (x : Cur) (hx : Inv c T s x) (hx' : Has E s x) :
    ∃ x', act P c (T i) s x = some (x', 1) ∧ Inv c T (s + 1) x' ∧ Has E (s + 1) x' := by
  have hp := ht.ok
  obtain ⟨x', d, ha⟩ := act_defined P c hc T (T i) hp s hs x (by
    obtain ⟨hcl, hl | hl | hl | hl⟩ := hl
    · exact Or.inl hl
    · exact Or.inr (Or.inl hl)
    · refine Or.inr (Or.inr (Or.inl ⟨hl.1, fun E' h5 he => ?_⟩))
      rw [hx'.crv h5] at he
      cases he
      exact hl.2.2
    · refine Or.inr (Or.inr (Or.inr ⟨fun _ => hP, fun E' h5 he => ?_⟩))
      rw [hx'.crv h5] at he
      cases he
      exact ⟨hcl, hl⟩) (fun _ h => by rw [h0] at h; cases h) hx
  have hkeep : 5 ≤ s → Has E (s + 1) x' := by
    intro h5
    obtain ⟨k1, k2, k3, k4⟩ := late_keeps P c hc _ s h5 hs x x' d ha
    exact ⟨fun _ => k1.trans (hx'.field (by omega)), fun _ => k2.trans (hx'.a (by omega)), fun _ => k3.trans (hx'.b (by omega)),
      fun _ => k4.trans (hx'.crv h5)⟩
  match s, hs with
  | 0, _ =>
    obtain ⟨rfl, h1⟩ := step_seed P c hc _ i hp x hx x' d ha
    exact ⟨x', ha, h1, ⟨fun h => by omega, fun h => by omega, fun h => by omega, fun h => by omega⟩⟩
  | 1, _ =>
    obtain ⟨rfl, h1⟩ := step_field P c hc _ i hp x hx x' d ha
    refine ⟨x', ha, h1, ⟨fun _ => ?_, fun h => by omega, fun h => by omega, fun h => by omega⟩⟩
    have ht' := table_field c hc
    have htf := ht.field rfl
    cases hr : has c.random RANDOM_FIELD <;>
    · rw [hr] at ht' htf
      simp only [act, stageOf, ht', Option.bind_some, id, if_true, Bool.false_eq_true, if_false, call, Option.some.injEq, Prod.mk.injEq] at ha htf
      obtain ⟨rfl, -⟩ := ha
      simp only [htf]
  | 2, _ =>
    obtain ⟨rfl, h1⟩ := step_a P c hc _ i x hx x' d ha
    have hf := hx'.field (by omega)
    rcases table_a c hc with ⟨-, hk, ⟨hv, t⟩ | ⟨hv, t⟩⟩ | ⟨-, hk, t | t⟩ | ⟨h0', -⟩
    · simp only [act, stageOf, t, Option.bind_some, id, call] at ha
      cases ha
      exact ⟨_, by simp only [act, stageOf, t, Option.bind_some, id, call], h1,
        ⟨fun _ => hf, fun _ => by rw [(h.koblitz hk).1, hv]; rfl, fun h => by omega, fun h => by omega⟩⟩
    · simp only [act, stageOf, t, Option.bind_some, id, call] at ha
      cases ha
      exact ⟨_, by simp only [act, stageOf, t, Option.bind_some, id, call], h1,
        ⟨fun _ => hf, fun _ => by rw [(h.koblitz hk).1, hv]; rfl, fun h => by omega, fun h => by omega⟩⟩
    all_goals first
      | exact absurd (h0.symm.trans h0') (by decide)
      | have e := ht.a hk rfl
        simp only [act, stageOf, t, Option.bind_some, id, call, hf, Option.map_some, e] at ha ⊢
        cases ha
        exact ⟨_, rfl, h1, ⟨fun _ => rfl, fun _ => rfl, fun h => by omega, fun h => by omega⟩⟩
  | 3, _ =>
    obtain ⟨rfl, h1⟩ := (step_b P c hc _ i x hx x' d ha).resolve_right fun h => by rw [h0] at h; cases h.1
    have hf := hx'.field (by omega)
    have haa := hx'.a (by omega)
    rcases table_b c hc with ⟨-, hk, t⟩ | ⟨-, hk, t | t⟩ | ⟨h0', -⟩
    · simp only [act, stageOf, t, Option.bind_some, id, call] at ha
      cases ha
      exact ⟨_, by simp only [act, stageOf, t, Option.bind_some, id, call], h1,
        ⟨fun _ => hf, fun _ => haa, fun _ => by rw [(h.koblitz hk).2], fun h => by omega⟩⟩
    all_goals first
      | exact absurd (h0.symm.trans h0') (by decide)
      | have e := ht.b hk rfl
        simp only [act, stageOf, t, Option.bind_some, id, call, hf, Option.map_some, e] at ha ⊢
        cases ha
        exact ⟨_, rfl, h1, ⟨fun _ => rfl, fun _ => haa, fun _ => rfl, fun h => by omega⟩⟩
  | 4, _ =>
    obtain ⟨rfl, -, -, E', h1, h2⟩ := step_curve P c hc _ (T i) x hx x' d ha
    have hf := hx'.field (by omega)
    have haa := hx'.a (by omega)
    have hb := hx'.b (by omega)
    have e : act P c (T i) 4 x = some ({ x with crv := some E }, 1) := by
      simp only [act, stageOf, table_curve c hc, Option.bind_some, id, call, hf, haa, hb]
    rw [e] at ha
    cases ha
    cases h1
    exact ⟨_, e, h2 h.nonsingular, ⟨fun _ => hf, fun _ => haa, fun _ => hb, fun _ => rfl⟩⟩
  | 5, _ =>
    have hE := hx'.crv (by omega)
    have hd := order_accepts P hP c hc (T i) x E hE h.nonsingular ht.sea h.order x' d ha
    rcases step_order P hP c hc _ (T i) x hx x' d (fun E' he => by rw [hE] at he; cases he; exact ht.sea) ha with ⟨rfl, h1⟩ | ⟨h1, -⟩
    · exact ⟨x', ha, h1, hkeep (by omega)⟩
    · exact absurd h1 hd
  | 6, _ =>
    have hE := hx'.crv (by omega)
    have hgs := ht.gens
    have hn : x.order = some (Nat.card E.Pt) := by
      obtain ⟨E', h1, h2, -⟩ := hx.order (by omega)
      rw [hE] at h1
      cases h1
      exact h2
    have hd := gens_accepts P hP c hc (T i) x E hE hn hgs h.order h.plain x' d ha
    rcases step_gens P hP c hc _ (T i) x hx x' d (fun E' he => by rw [hE] at he; cases he; exact hgs) ha with ⟨rfl, h1⟩ | ⟨h1, -⟩
    · exact ⟨x', ha, h1, hkeep (by omega)⟩
    · exact absurd h1 hd
  | 7, _ =>
    obtain ⟨rfl, h1⟩ := step_points P hP c _ (T i) hp x hx x' d ha
    exact ⟨x', ha, h1, hkeep (by omega)⟩
  | 8, _ =>
    obtain ⟨rfl, h1⟩ := step_metadata P c _ (T i) hp x hx x' d ha
    exact ⟨x', ha, h1, hkeep (by omega)⟩

theorem next (P : Pari) (hP : P.Ok) (c : Config) (hc : Covered c) (h0 : c.seedAlgo = .none) (E : Crv) (h : Suits c E) (hg : Generated E)
    (hl : Listable c E) (i s : Nat) (hi : i % 9 = s) (x : Cur) (hx : Inv c (aimed E) s x) (hx' : Has E s x) :
    ∃ x', act P c (aimed E i) s x = some (x', 1) ∧ Inv c (aimed E) (s + 1) x' ∧ Has E (s + 1) x' :=
  next_on P hP c hc h0 E h hl (aimed E) i s (by omega)
    { ok := (aimed_tape c h0 E h hg).picks i
      cut := rfl
      fail := fun _ => rfl
      field := fun _ => by split <;> rfl
      a := fun hk hs => by rw [aimed_elt E (h.element hk), if_pos (by omega)]
      b := fun hk hs => by rw [aimed_elt E (h.element hk), if_neg (by omega)]
      sea := Or.inl rfl
      gens := by
        have hxg := hg E.a E.b (Or.inl rfl) (Or.inr rfl) h.nonsingular
        simp only [aimed]
        rw [dif_pos hxg]
        exact Classical.choose_spec hxg } x hx hx'

/-- a generator that succeeds, and so do the checks -/
theorem succeeds_at (P : Pari) (c : Config) (hc : Covered c) (hh : c.hexCheck = none) (w : W) (i s : Nat) (hcut : (w.tape i).cut = none)
    (hfail : ∀ s, (w.tape i).fail s = none) (x x' : Cur) (hact : act P c (w.tape i) s x = some (x', 1))
    (hd : s = 4 → ∃ E, x'.crv = some E ∧ E.eqn.Δ ≠ 0) :
    Engine.Spec.Succeeds (setup P c) s ({ w with cur := x, pos := i } : W) 1 ({ w with cur := x', pos := i + 1 } : W) := by
  refine ⟨({ w with cur := x', pos := i + 1 } : W), ?_, by decide, ?_⟩
  · change gen P c.bits (exhaustiveSetup c) s _ = _
    simp only [gen, W.pick, hcut, hfail]
    change done _ (act P c (w.tape i) s x) = _
    rw [hact]
    rfl
  · rw [table_checks P c hc.algo]
    by_cases hs4 : s = 4
    · obtain ⟨E, hE, hE'⟩ := hd hs4
      rw [if_pos hs4]
      have hck : check ({ w with cur := x', pos := i + 1 } : W) .curveNonzero = (({ w with cur := x', pos := i + 1 } : W), 1) := by
        simp only [check, hE]
        rw [if_neg hE']
      refine .cons ?_ ?_
      · rw [hck]; exact Int.one_pos
      · rw [hck]; exact .nil _
    · rw [if_neg hs4, if_neg (by rw [hh]; simp)]
      exact .nil _

/-- the curve at the beginning of each stage -/
noncomputable def trace (P : Pari) (c : Config) (E : Crv) (i : Nat) : Nat → Cur
  | 0 => {}
  | s + 1 => ((act P c (aimed E (i + s)) s (trace P c E i s)).map Prod.fst).getD {}

theorem trace_inv (P : Pari) (hP : P.Ok) (c : Config) (hc : Covered c) (h0 : c.seedAlgo = .none) (E : Crv) (h : Suits c E) (hg : Generated E)
    (hl : Listable c E) (i : Nat) (hi : i % 9 = 0) (s : Nat) (hs : s ≤ 9) :
    Inv c (aimed E) s (trace P c E i s) ∧ Has E s (trace P c E i s) := by
  induction s with
  | zero =>
    exact ⟨inv_low (Nat.zero_le _) (fun _ => rfl) (fun _ => rfl) (fun h => by cases h),
      ⟨fun h => by omega, fun h => by omega, fun h => by omega, fun h => by omega⟩⟩
  | succ s ih =>
    obtain ⟨h1, h2⟩ := ih (by omega)
    obtain ⟨x', h3, h4, h5⟩ := next P hP c hc h0 E h hg hl (i + s) s (by omega) _ h1 h2
    have e : trace P c E i (s + 1) = x' := by
      unfold trace
      rw [h3]
      rfl
    rw [e]
    exact ⟨h4, h5⟩

theorem trace_act (P : Pari) (hP : P.Ok) (c : Config) (hc : Covered c) (h0 : c.seedAlgo = .none) (E : Crv) (h : Suits c E) (hg : Generated E)
    (hl : Listable c E) (i : Nat) (hi : i % 9 = 0) (s : Nat) (hs : s < 9) :
    act P c (aimed E (i + s)) s (trace P c E i s) = some (trace P c E i (s + 1), 1) := by
  obtain ⟨h1, h2⟩ := trace_inv P hP c hc h0 E h hg hl i hi s (by omega)
  obtain ⟨x', h3, -⟩ := next P hP c hc h0 E h hg hl (i + s) s (by omega) _ h1 h2
  have e : trace P c E i (s + 1) = x' := by
    conv_lhs => unfold trace
    rw [h3]
    rfl
  rw [e, h3]

/-- one curve -/
theorem one_found (P : Pari) (hP : P.Ok) (c : Config) (hc : Covered c) (h0 : c.seedAlgo = .none) (hh : c.hexCheck = none) (E : Crv) (h : Suits c E)
    (hg : Generated E) (hl : Listable c E) (w : W) (hw : w.tape = aimed E) (hi : w.pos % 9 = 0) :
    ∃ v w', one P c 9 w = (some v, w') ∧ w'.tape = aimed E ∧ w'.pos % 9 = 0 ∧ v.field = out E.field.1 ∧ v.a = E.a ∧ v.b = E.b := by
  have htr := trace_inv P hP c hc h0 E h hg hl w.pos hi
  obtain ⟨st, h1, h2⟩ := loop_straight (setup P c) (fun s => ({ w with cur := trace P c E w.pos s, pos := w.pos + s } : W))
    (fun s hs => succeeds_at P c hc hh w (w.pos + s) s (by rw [hw]; rfl) (fun _ => by rw [hw]; rfl) _ _
      (by rw [hw]; exact trace_act P hP c hc h0 E h hg hl w.pos hi s hs)
      (fun h4 => ⟨E, by subst h4; exact (htr 5 (by omega)).2.crv (by omega), h.nonsingular⟩)) 9
    (Engine.init 0 { w with cur := {} }) rfl rfl
  have hgen : Engine.gen (setup P c) 0 9 9 { w with cur := {} } = some (1, st) := by
    unfold Engine.gen Engine.genRetry
    rw [if_neg (by decide), if_neg (by decide)]
    exact h1
  obtain ⟨k1, k2⟩ := htr 9 (by omega)
  obtain ⟨v, hv⟩ := printed_defined c _ _ k1 (fun E' he => by
    rw [k2.crv (by omega)] at he
    cases he
    exact hl.1) (fun hr => by
    rcases hl.2 with e | e | e | e
    · rw [hr] at e; cases e
    · rw [hr] at e; cases e
    · exact e.2.1
    · exact absurd hr e.1)
  have hcur : st.w.cur = trace P c E w.pos 9 := by rw [h2]
  refine ⟨v, st.w, ?_, by rw [h2]; exact hw, by rw [h2]; show (w.pos + 9) % 9 = 0; omega, ?_⟩
  · simp only [one, hgen]
    rw [if_neg (by decide), hcur, hv]
  · have hf := k2.field (by omega)
    have ha := k2.a (by omega)
    have hb := k2.b (by omega)
    unfold outCurve at hv
    rw [hf, ha, hb] at hv
    split at hv
    · rename_i f a b n E' l e1 e2 e3 e4 e5
      cases e1
      cases e2
      cases e3
      rw [Option.map_eq_some_iff] at hv
      obtain ⟨gs, -, rfl⟩ := hv
      exact ⟨rfl, rfl, rfl⟩
    · cases hv

theorem all_found (P : Pari) (hP : P.Ok) (c : Config) (hc : Covered c) (h0 : c.seedAlgo = .none) (hh : c.hexCheck = none) (E : Crv) (h : Suits c E)
    (hg : Generated E) (hl : Listable c E) (n : Nat) : ∀ (w : W), w.tape = aimed E → w.pos % 9 = 0 →
    (Json.generated (one P c 9) n w).length = n ∧
    ∀ v ∈ Json.generated (one P c 9) n w, v.field = out E.field.1 ∧ v.a = E.a ∧ v.b = E.b := by
  induction n with
  | zero => exact fun w _ _ => ⟨rfl, fun v hv => nomatch hv⟩
  | succ n ih =>
    intro w hw hi
    obtain ⟨v, w', h1, h2, h3, h4⟩ := one_found P hP c hc h0 hh E h hg hl w hw hi
    obtain ⟨i1, i2⟩ := ih w' h2 h3
    simp only [Json.generated, h1, List.length_cons, i1, true_and]
    intro u hu
    rcases List.mem_cons.1 hu with rfl | hu
    · exact h4
    · exact i2 u hu

end Ecgen.Whole
