import Verif.Whole.HexRun
import Verif.Meta.Props
import Verif.Twisted.Twist

/-!
# C109: with `--metadata` the values printed belong to the printed curve

The search (C75) leaves the texts of the metadata open. Here they are those of `metadata_gen` (C40), with the invariants of the curve, printed by
output.c:136-171.
-/

namespace Ecgen.Whole
open Ecgen.Cli Ecgen.Cli.Setup Ecgen.Output Ecgen.Output.Spec
open Engine (St Reaches)

/-! ### Specification -/

/-- decimal notation -/
def decimal (i : Int) : Text := (toString i).toList

/-- the discriminant of a quadratic number field -/
def Fundamental (D : Int) : Prop := (D % 4 = 1 ∧ Squarefree D) ∨ ∃ m, D = 4 * m ∧ (m % 4 = 2 ∨ m % 4 = 3) ∧ Squarefree m

/-- `k` is the embedding degree of a curve of `n` points over the field of `p` elements; 0 stands for none -/
def Degree (p n k : Nat) : Prop :=
  (p = n ∧ k = 0 ∧ ∀ j, 0 < j → ¬ n ∣ p ^ j - 1) ∨ (0 < k ∧ n ∣ p ^ k - 1 ∧ ∀ j, 0 < j → j < k → ¬ n ∣ p ^ j - 1)

/-- the numbers of the j-invariant and the discriminant -/
def Invariants (f : Fld) (E : WeierstrassCurve.Affine (Carrier f)) (j d : Nat) : Prop :=
  j < fieldSize f.1 ∧ d < fieldSize f.1 ∧ elem f d = E.Δ ∧ elem f j * E.Δ = E.c₄ ^ 3

/-- the metadata of a curve of `n` points: j-invariant, discriminant and trace, over prime fields also the embedding degree, and the fundamental discriminant and the
conductor of the order of the Frobenius. A curve of `2p` points is left out: there is no embedding degree. -/
def MetaOk (f : Fld) (a b n : Nat) (info : List (String × Text)) : Prop :=
  ∃ j d, Invariants f (equation f (elem f a) (elem f b)) j d ∧
    match f.1 with
    | .prime p => n ≠ 2 * p → ∃ (k : Nat) (D g : Int), Degree p n k ∧ Fundamental D ∧ D * g ^ 2 = ((p : Int) + 1 - n) ^ 2 - 4 * p ∧
        info = [("j", decimal j), ("discriminant", decimal d), ("embedding_degree", decimal k), ("frobenius", decimal ((p : Int) + 1 - n)),
          ("cm_discriminant", decimal D), ("conductor", decimal g)]
    | .binary m _ _ _ => info = [("j", decimal j), ("discriminant", decimal d), ("frobenius", decimal ((2 : Int) ^ m + 1 - n))]

/-! ### The texts -/

/-- the texts of the metadata, output.c:136-171; a null pointer is left out -/
def texts (j d : Nat) (i : Meta.Info) : List (String × Text) :=
  [("j", decimal j), ("discriminant", decimal d)] ++ (i.embedding.toList.map fun k => ("embedding_degree", decimal k)) ++ [("frobenius", decimal i.trace)] ++
    (i.cmDisc.toList.map fun D => ("cm_discriminant", decimal D)) ++ (i.conductor.toList.map fun g => ("conductor", decimal g))

/-- `metadata_gen`, metadata.c:9-47, for a curve object and its order, and the texts; `none` where PARI raises an error -/
noncomputable def metaText (zn : Nat → Nat → Nat) (core2 : Int → Int × Int) (E : Crv) (n : Nat) : Option (List (String × Text)) :=
  match E.field.1 with
  | .prime p => (Meta.genPrime zn core2 p n).map (texts (num E.field (E.eqn.c₄ ^ 3 / E.eqn.Δ)) (num E.field E.eqn.Δ))
  | .binary m _ _ _ => some (texts (num E.field (E.eqn.c₄ ^ 3 / E.eqn.Δ)) (num E.field E.eqn.Δ) (Meta.genBinary m n))

/-- wherever the search from `w` computes the metadata, the texts are those of the curve at hand -/
def MetaRight (P : Pari) (c : Config) (zn : Nat → Nat → Nat) (core2 : Int → Int × Int) (w : W) : Prop :=
  ∀ st, Reaches (setup P c) 0 9 0 (Engine.init 0 { w with cur := {} }) st → st.state = 8 → st.w.pick.cut = none → st.w.pick.fail 8 = none →
    ∀ E n, st.w.cur.crv = some E → st.w.cur.order = some n → ∀ t, metaText zn core2 E n = some t → st.w.pick.info = t

/-- the texts of a curve are its own -/
def Own (zn : Nat → Nat → Nat) (core2 : Int → Int × Int) (x : Cur) : Prop :=
  ∀ E n, x.crv = some E → x.order = some n → ∀ t, metaText zn core2 E n = some t → x.info = t

theorem act_info (P : Pari) (c : Config) (hm : c.metadata = true) (p : Pick) (x x' : Cur) (d : Int) (h : act P c p 8 x = some (x', d)) : x' = { x with info := p.info } := by
  have htab : (exhaustiveSetup c).gens.metadata = some (if c.metadata then .metadata else .skip) := rfl
  simp only [act, stageOf, htab, hm, if_true, Option.bind_some, id, call, Option.some.injEq, Prod.mk.injEq] at h
  exact h.1.symm

theorem meta_own (P : Pari) (hP : P.Ok) (c : Config) (h : Covered c) (hm : c.metadata = true) (zn : Nat → Nat → Nat) (core2 : Int → Int × Int) (w : W)
    (hT : TapeOk c w.tape) (hr : MetaRight P c zn core2 w) (st : St W) (hst : Reaches (setup P c) 0 9 0 (Engine.init 0 { w with cur := {} }) st) (h9 : 9 ≤ st.state) :
    Own zn core2 st.w.cur := by
  cases hst with
  | refl => exact absurd h9 (Nat.not_succ_le_zero 8)
  | next h1 h2 h3 =>
    rename_i b
    obtain ⟨hi, hb⟩ := reached P hP c h w hT b h1
    rcases Engine.step_cases (setup P c) 0 b (Nat.zero_le _) with ⟨s1, d, w', e1, e2, e3, e4⟩ | ⟨s1, d, w', e1, e2, e0, e3, e4⟩ | ⟨s1, d, w', e1, -⟩
    · rw [h3] at e1
      cases e1
      obtain ⟨rfl, -, hb'⟩ := keep_ok P hP c h w.tape _ _ d w' h2 hi hb e2
      rw [e4]
      rw [e3] at h9
      obtain ⟨w1, hg, -, hpass⟩ := e2
      have hs : b.state = 8 := by
        simp only [Int.toNat_one] at h9
        omega
      have hgc := hg
      rcases gen_cases P c b.state b.w w1 _ hg with ⟨x, -, -, k⟩ | ⟨d, k1, -, k2⟩ | ⟨x, d, k1, rfl, -⟩ | ⟨-, k⟩
      · cases k
      · cases k2
        have := (failures_spec _ _ ((hb.2.picks b.w.pos).fail b.state 1 (by rw [← hb.1]; exact k1))).1
        omega
      · rw [table_checks P c h.algo, if_neg (by omega), if_neg (by omega)] at hpass
        cases hpass
        rw [hs] at k1
        obtain rfl := act_info P c hm _ _ _ _ k1
        have hcut : b.w.pick.cut = none := by
          cases hc : b.w.pick.cut with
          | none => rfl
          | some y =>
            change gen P c.bits (exhaustiveSetup c) b.state b.w = _ at hgc
            simp only [gen, hc] at hgc
            cases congrArg Prod.snd hgc
        have hfl : b.w.pick.fail 8 = none := by
          cases hf : b.w.pick.fail 8 with
          | none => rfl
          | some y =>
            change gen P c.bits (exhaustiveSetup c) b.state b.w = _ at hgc
            simp only [gen, hcut, hs, hf] at hgc
            cases congrArg Prod.snd hgc
            have := (failures_spec _ _ ((hb.2.picks b.w.pos).fail 8 1 (by rw [← hb.1]; exact hf))).1
            omega
        intro E n q1 q2 t ht
        exact hr b h1 hs hcut hfl E n q1 q2 t ht
      · cases k
    · rw [h3] at e1
      cases e1
      obtain ⟨hb', e5⟩ := keep_fail P hP c h w.tape _ _ d w' h2 hi hb e2
      rcases e5 e0 with ⟨k, hk, e, -⟩ | ⟨rfl, e⟩
      · omega
      · have e' : max ((b.state : Int) + 0).toNat 0 = b.state := by clear * -; omega
        rw [e'] at e3
        omega
    · rw [h3] at e1
      cases e1

/-! ### What they say -/

/-- a curve over a prime field has at most `2p + 1` points -/
theorem few_points (p : Nat) (hp : p.Prime) (a b : Elt) (hd : (Crv.mk ⟨.prime p, hp⟩ a b).eqn.Δ ≠ 0) : Nat.card (Crv.mk ⟨.prime p, hp⟩ a b).Pt ≤ 2 * p + 1 := by
  have : Fact p.Prime := ⟨hp⟩
  obtain ⟨h2, e⟩ := Twisted.card_short ((eltV a : Nat) : ZMod p) ((eltV b : Nat) : ZMod p) hd
  have h2' : ringChar (ZMod p) ≠ 2 := by
    rw [ZMod.ringChar_zmod_n]
    rintro rfl
    exact h2 (CharTwo.two_eq_zero (R := ZMod 2))
  obtain ⟨T, hT⟩ := FiniteField.exists_nonsquare h2'
  have := Count.card_twist h2' ((eltV a : Nat) : ZMod p) ((eltV b : Nat) : ZMod p) T hT
  rw [ZMod.card] at this
  have h1 : 1 ≤ Count.card (((eltV a : Nat) : ZMod p) * T ^ 2) (((eltV b : Nat) : ZMod p) * T ^ 3) := by unfold Count.card; omega
  have e' : Nat.card (Crv.mk ⟨.prime p, hp⟩ a b).Pt = Count.card ((eltV a : Nat) : ZMod p) ((eltV b : Nat) : ZMod p) := by
    refine e.trans ?_
    congr
  omega

theorem prime_meta (zn : Nat → Nat → Nat) (hz : Order.ZnSpec zn) (core2 : Int → Int × Int) (hc : Meta.CorediscSpec core2) (p n : Nat) (hp : p.Prime) (hn : 0 < n)
    (hle : n ≤ 2 * p + 1) (h2 : n ≠ 2 * p) : ∃ (k : Nat) (D f : Int), Meta.genPrime zn core2 p n = some ⟨some k, (p : Int) + 1 - n, some D, some f⟩ ∧
      D * f ^ 2 = ((p : Int) + 1 - n) ^ 2 - 4 * p ∧ Fundamental D ∧ Degree p n k := by
  have hcop : p = n ∨ Nat.Coprime p n := by
    by_cases hd : p ∣ n
    · left
      obtain ⟨k, rfl⟩ := hd
      have h2' := hp.two_le
      have : k < 3 := by
        by_contra hk
        have := Nat.mul_le_mul_left p (show 3 ≤ k by omega)
        omega
      have hk : k = 0 ∨ k = 1 ∨ k = 2 := by omega
      rcases hk with rfl | rfl | rfl
      · omega
      · omega
      · omega
    · exact Or.inr ((Nat.Prime.coprime_iff_not_dvd hp).2 hd)
  have h4 : (((p : Int) + 1 - n) ^ 2 - p * 4) % 4 = 0 ∨ (((p : Int) + 1 - n) ^ 2 - p * 4) % 4 = 1 := by
    have e : (((p : Int) + 1 - n) ^ 2 - p * 4) % 4 = ((p : Int) + 1 - n) ^ 2 % 4 := by omega
    rw [e]
    generalize (p : Int) + 1 - n = t
    have : t % 4 = 0 ∨ t % 4 = 1 ∨ t % 4 = 2 ∨ t % 4 = 3 := by omega
    rcases this with h | h | h | h <;> rw [pow_two, Int.mul_emod, h] <;> norm_num
  have hcd := hc _ (Meta.disc_ne_zero p n hp) h4
  have hgen : ∀ k, Meta.embedding? zn p n = some k → Meta.genPrime zn core2 p n = some ⟨some k, (p : Int) + 1 - n,
      some (core2 (((p : Int) + 1 - n) ^ 2 - p * 4)).1, some (core2 (((p : Int) + 1 - n) ^ 2 - p * 4)).2⟩ := by
    intro k hk
    unfold Meta.genPrime
    rw [hk]
  have heq : (core2 (((p : Int) + 1 - n) ^ 2 - p * 4)).1 * (core2 (((p : Int) + 1 - n) ^ 2 - p * 4)).2 ^ 2 = ((p : Int) + 1 - n) ^ 2 - 4 * p := by
    rw [← hcd.1]; ring
  by_cases hpn : p = n
  · refine ⟨0, _, _, hgen 0 (by unfold Meta.embedding?; rw [if_pos hpn]), heq, hcd.2, Or.inl ⟨hpn, rfl, ?_⟩⟩
    intro j hj hdv
    rw [← hpn] at hdv
    have h1 : p ∣ p ^ j := dvd_pow_self p (by omega)
    have h3 := (Nat.dvd_sub h1 hdv)
    rw [Nat.sub_sub_self (Nat.one_le_pow _ _ hp.pos)] at h3
    exact hp.one_lt.ne' (Nat.dvd_one.1 h3)
  · have hco := hcop.resolve_left hpn
    exact ⟨zn p n, _, _, hgen _ (by unfold Meta.embedding?; rw [if_neg hpn, if_pos hco]), heq, hcd.2, Or.inr (hz p n hn hco)⟩

theorem invariants_num (f : Fld) (E : WeierstrassCurve.Affine (Carrier f)) (h : E.Δ ≠ 0) : Invariants f E (num f (E.c₄ ^ 3 / E.Δ)) (num f E.Δ) :=
  ⟨num_lt _ _, num_lt _ _, elem_num _ _, by rw [elem_num, div_mul_cancel₀ _ h]⟩

/-- the texts of a curve describe it -/
theorem own_meta (zn : Nat → Nat → Nat) (hz : Order.ZnSpec zn) (core2 : Int → Int × Int) (hc : Meta.CorediscSpec core2) (f : Fld) (a b : Elt)
    (hd : (Crv.mk f a b).eqn.Δ ≠ 0) (i : List (String × Text)) (hi : ∀ t, metaText zn core2 ⟨f, a, b⟩ (Nat.card (Crv.mk f a b).Pt) = some t → i = t) :
    MetaOk f (eltV a) (eltV b) (Nat.card (Crv.mk f a b).Pt) i := by
  refine ⟨_, _, invariants_num f _ hd, ?_⟩
  match f with
  | ⟨.prime p, hp⟩ =>
    intro h2
    have : Finite (Crv.mk ⟨.prime p, hp⟩ a b).Pt := inferInstance
    obtain ⟨k, D, g, e1, e2, e3, e4⟩ := prime_meta zn hz core2 hc p _ hp Nat.card_pos (few_points p hp a b hd) h2
    refine ⟨k, D, g, e4, e3, e2, ?_⟩
    refine hi _ ?_
    simp only [metaText, e1, Option.map_some]
    rfl
  | ⟨.binary m e1 e2 e3, hp⟩ => exact hi _ rfl

/-- **C109, one curve** -/
theorem meta_one (P : Pari) (hP : P.Ok) (c : Config) (h : Covered c) (hm : c.metadata = true) (zn : Nat → Nat → Nat) (hz : Order.ZnSpec zn) (core2 : Int → Int × Int)
    (hc : Meta.CorediscSpec core2) (w : W) (hT : TapeOk c w.tape) (hr : MetaRight P c zn core2 w) (fuel : Nat) (v : Output.Curve) (w' : W)
    (h1 : one P c fuel w = (some v, w')) : ∃ f : Fld, v.field = out f.1 ∧ MetaOk f (eltV v.a) (eltV v.b) v.order v.info := by
  unfold one at h1
  cases hg : Engine.gen (setup P c) 0 9 fuel { w with cur := {} } with
  | none => rw [hg] at h1; cases h1
  | some r =>
    obtain ⟨r, st⟩ := r
    rw [hg] at h1
    simp only [Prod.mk.injEq] at h1
    obtain ⟨h1, -⟩ := h1
    have hgg := hg
    obtain ⟨-, ⟨rfl, hi⟩ | rfl⟩ := search P hP c h w.tape fuel w ⟨rfl, hT⟩ r st hg
    · rw [if_neg (by decide)] at h1
      unfold Engine.gen Engine.genRetry at hgg
      rw [if_neg (by decide), if_neg (by decide)] at hgg
      obtain ⟨k1, k2⟩ := loop_reaches _ _ _ _ _ _ hgg
      have ho := meta_own P hP c h hm zn core2 w hT hr st k1 k2
      obtain ⟨f, a, b, q1, q2, q3, q4, q5⟩ := hi.crv (by omega)
      obtain ⟨E, q6, q7, -⟩ := hi.order (by omega)
      rw [q4] at q6
      obtain rfl := Option.some.inj q6
      unfold outCurve at h1
      rw [q1, q2, q3, q7] at h1
      split at h1
      · rename_i g1 g2 g3 g4 g5
        cases g1
        cases g2
        cases g3
        cases g4
        obtain ⟨gs, -, rfl⟩ := Option.map_eq_some_iff.1 h1
        exact ⟨f, rfl, own_meta zn hz core2 hc f a b q5 _ fun t ht => ho _ _ q4 q7 t ht⟩
      · cases h1
    · rw [if_pos rfl] at h1
      cases h1

/-- what holds for each search of a run holds for what the run prints -/
theorem run_each (P : Pari) (hP : P.Ok) (c : Config) (h : Covered c) (fuel : Nat) (w : W) (hT : TapeOk c w.tape) (Q : Output.Curve → Prop)
    (hq : ∀ w', Begins P c fuel w w' → w'.tape = w.tape → ∀ v w'', one P c fuel w' = (some v, w'') → Q v) : ∀ v ∈ Json.objects (produce P c fuel w).1, Q v := by
  intro v hv
  unfold produce at hv
  rw [(Json.generate_objects _ _ _).1] at hv
  generalize toSize c.count = n at hv
  have key : ∀ (n : Nat) (w' : W), Begins P c fuel w w' → w'.tape = w.tape → v ∈ Json.generated (one P c fuel) n w' → Q v := by
    intro n
    induction n with
    | zero => intro w' _ _ hv; cases hv
    | succ n ih =>
      intro w' hb ht hv
      unfold Json.generated at hv
      cases ho : one P c fuel w' with
      | mk o w'' =>
        rw [ho] at hv
        cases o with
        | none => cases hv
        | some u =>
          simp only [List.mem_cons] at hv
          rcases hv with rfl | hv
          · exact hq w' hb ht v w'' ho
          · refine ih w'' (.next hb ho) ?_ hv
            unfold one at ho
            cases hg : Engine.gen (setup P c) 0 9 fuel { w' with cur := {} } with
            | none => rw [hg] at ho; cases ho
            | some r =>
              obtain ⟨r, st⟩ := r
              rw [hg] at ho
              simp only [Prod.mk.injEq] at ho
              obtain ⟨-, rfl⟩ := ho
              exact (search P hP c h w.tape fuel w' ⟨ht, hT⟩ r st hg).1.1
  exact key n w .first rfl hv

/-- **C109** every curve printed by a run with `--metadata` comes with its own invariants -/
theorem meta_run (P : Pari) (hP : P.Ok) (c : Config) (h : Covered c) (hm : c.metadata = true) (zn : Nat → Nat → Nat) (hz : Order.ZnSpec zn) (core2 : Int → Int × Int)
    (hc : Meta.CorediscSpec core2) (fuel : Nat) (w : W) (hT : TapeOk c w.tape) (hr : ∀ w', Begins P c fuel w w' → MetaRight P c zn core2 w') :
    ∀ v ∈ Json.objects (produce P c fuel w).1, ∃ f : Fld, v.field = out f.1 ∧ MetaOk f (eltV v.a) (eltV v.b) v.order v.info :=
  run_each P hP c h fuel w hT _ fun w' hb ht v w'' ho => meta_one P hP c h hm zn hz core2 hc w' (ht ▸ hT) (hr w' hb) fuel v w'' ho

/-- without `--metadata` nothing of the kind is printed -/
theorem meta_quiet (P : Pari) (hP : P.Ok) (c : Config) (h : Covered c) (hm : c.metadata = false) (fuel : Nat) (w : W) (hT : TapeOk c w.tape) :
    ∀ v ∈ Json.objects (produce P c fuel w).1, v.info = [] := by
  refine run_each P hP c h fuel w hT _ fun w' hb ht v w'' h1 => ?_
  unfold one at h1
  cases hg : Engine.gen (setup P c) 0 9 fuel { w' with cur := {} } with
  | none => rw [hg] at h1; cases h1
  | some r =>
    obtain ⟨r, st⟩ := r
    rw [hg] at h1
    simp only [Prod.mk.injEq] at h1
    obtain ⟨h1, -⟩ := h1
    obtain ⟨-, ⟨rfl, hi⟩ | rfl⟩ := search P hP c h w.tape fuel w' ⟨ht, hT⟩ r st hg
    · rw [if_neg (by decide)] at h1
      unfold outCurve at h1
      split at h1
      · obtain ⟨gs, -, rfl⟩ := Option.map_eq_some_iff.1 h1
        exact hi.quiet hm
      · cases h1
    · rw [if_pos rfl] at h1
      cases h1

/-! ### The hypotheses can be met -/

/-- every discriminant is a fundamental one times a square -/
theorem coredisc_inhabited : ∃ core2, Meta.CorediscSpec core2 := by
  have key : ∀ x : Int, ∃ r : Int × Int, x ≠ 0 → (x % 4 = 0 ∨ x % 4 = 1) → x = r.1 * r.2 ^ 2 ∧
      ((r.1 % 4 = 1 ∧ Squarefree r.1) ∨ ∃ m, r.1 = 4 * m ∧ (m % 4 = 2 ∨ m % 4 = 3) ∧ Squarefree m) := by
    intro x
    by_cases hx : x = 0
    · exact ⟨0, fun h => absurd hx h⟩
    obtain ⟨a, b, hab, ha⟩ := Nat.sq_mul_squarefree x.natAbs
    obtain ⟨s, hs, hsq⟩ : ∃ s : Int, x = s * (b : Int) ^ 2 ∧ Squarefree s := by
      rcases Int.natAbs_eq x with h | h
      · exact ⟨a, by rw [h, ← hab]; push_cast; ring, Int.squarefree_natCast.2 ha⟩
      · exact ⟨-a, by rw [h, ← hab]; push_cast; ring, by rw [← Int.squarefree_natAbs, Int.natAbs_neg, Int.natAbs_natCast]; exact ha⟩
    have h4 : s % 4 ≠ 0 := by
      intro h
      have : (2 : Int) * 2 ∣ s := Int.dvd_of_emod_eq_zero h
      have := hsq 2 this
      exact absurd (Int.isUnit_iff.1 this) (by decide)
    by_cases h1 : s % 4 = 1
    · exact ⟨(s, b), fun _ _ => ⟨hs, Or.inl ⟨h1, hsq⟩⟩⟩
    · rcases Nat.even_or_odd' b with ⟨k, rfl | rfl⟩
      · refine ⟨(4 * s, k), fun _ _ => ⟨by rw [hs]; push_cast; ring, Or.inr ⟨s, rfl, by omega, hsq⟩⟩⟩
      · refine ⟨0, fun _ h => ?_⟩
        exfalso
        have e : x % 4 = s % 4 := by
          rw [hs]
          have : s * ((2 * k + 1 : Nat) : Int) ^ 2 = s + 4 * (s * (k ^ 2 + k)) := by push_cast; ring
          rw [this]
          omega
        omega
  choose core2 h using key
  exact ⟨core2, h⟩

/-- PARI's functions, with the values needed here filled in -/
theorem functions : ∃ zn core2, Order.ZnSpec zn ∧ Meta.CorediscSpec core2 ∧ zn 7 5 = 4 ∧ core2 (-19) = (-19, 1) := by
  obtain ⟨zn, hz⟩ := Order.zn_inhabited
  obtain ⟨core2, hc⟩ := coredisc_inhabited
  refine ⟨fun p n => if p = 7 ∧ n = 5 then 4 else zn p n, fun x => if x = -19 then (-19, 1) else core2 x, ?_, ?_, by simp, by simp⟩
  · intro p n hn hco
    by_cases h : p = 7 ∧ n = 5
    · obtain ⟨rfl, rfl⟩ := h
      refine ⟨show 0 < 4 by decide, show 5 ∣ 7 ^ 4 - 1 by decide, fun j h0 h1 => ?_⟩
      change j < 4 at h1
      have : j = 1 ∨ j = 2 ∨ j = 3 := by omega
      rcases this with rfl | rfl | rfl <;> decide
    · simp only [if_neg h]
      exact hz p n hn hco
  · intro x h0 h4
    by_cases h : x = -19
    · subst h
      refine ⟨show (-19 : Int) = -19 * 1 ^ 2 by decide, Or.inl ⟨show (-19 : Int) % 4 = 1 by decide, ?_⟩⟩
      refine Irreducible.squarefree (Prime.irreducible (Int.prime_iff_natAbs_prime.2 ?_))
      exact (by norm_num : Nat.Prime 19)
    · simp only [if_neg h]
      exact hc x h0 h4

/-- the metadata of `y² = x³ + x + 1` over the field of seven elements -/
def info1 : List (String × Text) := [("j", "1".toList), ("discriminant", "1".toList), ("embedding_degree", "4".toList), ("frobenius", "3".toList),
  ("cm_discriminant", "-19".toList), ("conductor", "1".toList)]

theorem metaText1 (zn : Nat → Nat → Nat) (core2 : Int → Int × Int) (h1 : zn 7 5 = 4) (h2 : core2 (-19) = (-19, 1)) : metaText zn core2 E1 5 = some info1 := by
  have hd : E1.eqn.Δ = elem F7 1 := by
    have : (Invalid.primeCurve (1 : ZMod 7) 1).Δ = 1 := by
      simp only [WeierstrassCurve.Δ, WeierstrassCurve.b₂, WeierstrassCurve.b₄, WeierstrassCurve.b₆, WeierstrassCurve.b₈, Invalid.primeCurve]
      decide
    exact this.trans (Nat.cast_one (R := ZMod 7)).symm
  have hc : E1.eqn.c₄ = elem F7 1 := by
    have : (Invalid.primeCurve (1 : ZMod 7) 1).c₄ = 1 := by
      simp only [WeierstrassCurve.c₄, WeierstrassCurve.b₂, WeierstrassCurve.b₄, Invalid.primeCurve]
      decide
    exact this.trans (Nat.cast_one (R := ZMod 7)).symm
  have h1' : elem F7 1 = 1 := Nat.cast_one (R := ZMod 7)
  have hq : ∀ u v : Carrier F7, u = 1 → v = 1 → u ^ 3 / v = elem F7 1 := by
    rintro u v rfl rfl
    rw [h1', one_pow, div_one]
  have hj : E1.eqn.c₄ ^ 3 / E1.eqn.Δ = elem F7 1 := hq _ _ (hc.trans h1') (hd.trans h1')
  have hn : num F7 (elem F7 1) = 1 := num_elem F7 1 (by decide)
  have hg : Meta.genPrime zn core2 7 5 = some ⟨some 4, 3, some (-19), some 1⟩ := by
    have : Meta.embedding? zn 7 5 = some 4 := by unfold Meta.embedding?; rw [if_neg (by decide), if_pos (by decide), h1]
    unfold Meta.genPrime
    rw [this]
    simp only [show (((7 : Nat) : Int) + 1 - (5 : Nat)) ^ 2 - ((7 : Nat) : Int) * 4 = -19 by decide, h2]
    rfl
  have e : metaText zn core2 E1 5 = (Meta.genPrime zn core2 7 5).map (texts (num F7 (E1.eqn.c₄ ^ 3 / E1.eqn.Δ)) (num F7 E1.eqn.Δ)) := rfl
  rw [e, hg, hj, hd, hn]
  exact congrArg some (by decide +kernel)

/-- `--fp --random --prime --metadata 3` -/
def cm : Config := (commandLine 4 [.fp, .random none, .prime, .metadata, .arg "3".toList]).get (by decide +kernel)

theorem cm_some : commandLine 4 [.fp, .random none, .prime, .metadata, .arg "3".toList] = some cm := (Option.some_get _).symm

theorem cm_covered : Covered cm := covered _ _ _ cm_some (by decide +kernel) (by decide +kernel)

noncomputable def pickM : Pick := { always E1 1 [G1] 1 with info := info1 }

noncomputable def courseM (s : Nat) : Cur := { course E1 5 ⟨G1, 5, 1⟩ [some ⟨G1, 5, 0⟩] s with info := if s = 9 then info1 else [] }

theorem cm_tape : TapeOk cm fun _ => pickM := by
  have h : TapeOk cm fun _ => always E1 1 [G1] 1 :=
    always_tape cm E1 ⟨by decide +kernel, fun _ _ => by decide +kernel, by decide +kernel⟩
      ⟨by decide +kernel, fun h => absurd (Nat.zero_and 2) h, by decide +kernel⟩ 1 (by decide) [G1] 1 G7_gens
      (fun e => (always_comes cm (by decide +kernel) E1 1 [G1] 1 rfl rfl e).1) (fun e => (always_comes cm (by decide +kernel) E1 1 [G1] 1 rfl rfl e).2)
  exact ⟨fun i => { h.picks i with info := by decide +kernel }, h.ansi, h.sea, h.gens⟩

theorem call_info (P : Pari) (bits : Nat) (p : Pick) (i : List (String × Text)) (arg : Option Arg) (x : Cur) (g : Gen) (hg : g ≠ .metadata) :
    call P bits { p with info := i } arg x g = call P bits p arg x g := by
  cases g <;> first | rfl | exact absurd rfl hg

theorem courseM_low (s : Nat) (hs : s < 9) : courseM s = course E1 5 ⟨G1, 5, 1⟩ [some ⟨G1, 5, 0⟩] s := by
  have : s = 0 ∨ s = 1 ∨ s = 2 ∨ s = 3 ∨ s = 4 ∨ s = 5 ∨ s = 6 ∨ s = 7 ∨ s = 8 := by omega
  rcases this with rfl | rfl | rfl | rfl | rfl | rfl | rfl | rfl | rfl <;> rfl

theorem courseM_act (s : Nat) (hs : s < 9) : act pari cm pickM s (courseM s) = some (courseM (s + 1), 1) := by
  by_cases h8 : s = 8
  · subst h8
    have htab : (exhaustiveSetup cm).gens.metadata = some .metadata := by decide +kernel
    simp only [act, stageOf, htab, Option.bind_some, id, call]
    rfl
  · have e1 : ∀ s : Fin 8, stageOf (exhaustiveSetup cm).gens s.1 = stageOf (exhaustiveSetup c1).gens s.1 := by decide +kernel
    have e2 : (exhaustiveSetup cm).genArgs = (exhaustiveSetup c1).genArgs := by decide +kernel
    have e3 : cm.bits = c1.bits := by decide +kernel
    have e4 : ∀ s : Fin 8, ((stageOf (exhaustiveSetup c1).gens s.1).bind id).all (· ≠ .metadata) = true := by decide +kernel
    rw [courseM_low s hs, courseM_low (s + 1) (by omega), ← course1 s hs]
    unfold act
    rw [e1 ⟨s, by omega⟩, e2, e3]
    have := e4 ⟨s, by omega⟩
    dsimp only at this ⊢
    cases hg : (stageOf (exhaustiveSetup c1).gens s).bind id with
    | none => rfl
    | some g =>
      rw [hg] at this
      exact call_info _ _ _ _ _ _ _ (by simpa using this)

/-- every curve of this run is the same, with the same metadata -/
theorem cm_right (zn : Nat → Nat → Nat) (core2 : Int → Int × Int) (h1 : zn 7 5 = 4) (h2 : core2 (-19) = (-19, 1)) (w : W) (ht : w.tape = fun _ => pickM) :
    MetaRight pari cm zn core2 w := by
  intro st hst h8 _ _ E n hE hn t hm
  have hT : TapeOk cm w.tape := by rw [ht]; exact cm_tape
  obtain ⟨hi, hb⟩ := reached pari pari_ok cm cm_covered w hT st hst
  rw [h8] at hi
  have hpick : st.w.pick = pickM := by rw [W.pick, hb.1, ht]
  obtain ⟨f, a, b, q1, q2, q3, q4, -⟩ := hi.crv (by omega)
  obtain ⟨f', a', b', r1, r2, r3, ra, rb⟩ := hi.ab (by omega)
  obtain ⟨g, s1, -, i, s2⟩ := hi.field (by omega)
  obtain ⟨E', o1, o2, -⟩ := hi.order (by omega)
  rw [q1] at r1 s1
  obtain rfl := Option.some.inj r1
  obtain rfl := Option.some.inj s1
  rw [q2] at r2
  rw [q3] at r3
  obtain rfl := Option.some.inj r2
  obtain rfl := Option.some.inj r3
  rw [q4] at hE o1
  obtain rfl := Option.some.inj hE
  obtain rfl := Option.some.inj o1
  rw [o2] at hn
  obtain rfl := Option.some.inj hn
  have hf : f = F7 := by
    rw [ht] at s2
    rcases s2 with s2 | s2 <;> exact s2
  subst hf
  rw [ht] at ra rb
  have hk : ¬ (cm.koblitz = true ∧ cm.seedAlgo = .none) := by decide +kernel
  obtain rfl := (always_comes cm hk E1 1 [G1] 1 rfl rfl a).1 ra
  obtain rfl := (always_comes cm hk E1 1 [G1] 1 rfl rfl b).2 rb
  have hc : Nat.card (Crv.mk F7 E1.a E1.b).Pt = 5 := E1_card
  rw [hc] at hm
  rw [hpick]
  exact Option.some.inj ((metaText1 zn core2 h1 h2).symm.trans hm)

/-- **C109, met**: `ecgen --fp --random --prime --metadata 3` can print `y² = x³ + x + 1` over the field of seven elements with its metadata -/
theorem meta_run_met : ∃ (os : List Opt) (c : Config) (w : W) (zn : Nat → Nat → Nat) (core2 : Int → Int × Int) (v : Output.Curve), commandLine 4 os = some c ∧ Covered c ∧
    c.metadata = true ∧ Order.ZnSpec zn ∧ Meta.CorediscSpec core2 ∧ TapeOk c w.tape ∧ (∀ w', Begins pari c 9 w w' → MetaRight pari c zn core2 w') ∧
    v ∈ Json.objects (produce pari c 9 w).1 ∧ v.order = 5 ∧ v.info = info1 := by
  obtain ⟨zn, core2, hz, hc, h1, h2⟩ := functions
  obtain ⟨st, -, -, ho⟩ := straight pari cm (by decide +kernel) (by decide +kernel) pickM rfl (fun _ => rfl) courseM rfl courseM_act ⟨E1, rfl, E7_delta⟩
    ⟨{}, fun _ => pickM, 0, false⟩ rfl
  have hp : outCurve (courseM 9) = some { printed (.intmod 1 7) 5 with info := info1 } := by
    have := outCurve_info (course E1 5 ⟨G1, 5, 1⟩ [some ⟨G1, 5, 0⟩] 9) info1
    rw [course1_printed] at this
    exact this
  rw [hp] at ho
  have htape : ∀ w', Begins pari cm 9 ⟨{}, fun _ => pickM, 0, false⟩ w' → w'.tape = fun _ => pickM := by
    intro w' hb
    induction hb with
    | first => rfl
    | next h3 h4 ih =>
      unfold one at h4
      rename_i y z y'
      cases hg : Engine.gen (setup pari cm) 0 9 9 { y with cur := {} } with
      | none => rw [hg] at h4; cases h4
      | some q =>
        rw [hg] at h4
        dsimp only at h4
        obtain rfl := (Prod.mk.inj h4).2
        exact (search pari pari_ok cm cm_covered _ 9 y ⟨ih, cm_tape⟩ q.1 q.2 hg).1.1
  refine ⟨_, cm, ⟨{}, fun _ => pickM, 0, false⟩, zn, core2, { printed (.intmod 1 7) 5 with info := info1 }, cm_some, cm_covered, by decide +kernel, hz, hc, cm_tape, fun w' hb => cm_right zn core2 h1 h2 w' (htape w' hb), ?_, rfl, rfl⟩
  rw [produce, (Json.generate_objects _ _ _).1, show toSize cm.count = 1 by decide +kernel, generated_one _ _ _ _ _ ho]
  exact List.mem_singleton.2 rfl

end Ecgen.Whole
