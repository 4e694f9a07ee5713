import Verif.Whole.AnsiSeed
import Verif.Whole.AliveProps

/-!
# A search by `--ansi` whose seed has a curve does not get stuck (C104)

The counterpart of C103: as long as a curve that will do belongs to the seed at hand, the search can still find one. Which coefficients belong to the seed
is said without the model (`Related`): every pair in the range of the draws can come up.
-/

namespace Ecgen.Whole

open Output Output.Spec Cli
open Engine (St Reaches)

/-! ## The curves of a seed -/

/-- the curve is one of those asked for, and a call of `ansi_gen_equation` for the seed may end with its coefficients -/
structure SuitsA (c : Config) (S : Bits.Bits) (E : Crv) : Prop where
  field : FieldAsked c E.field.1
  call : AnsiCall c.bits E.field S (.coeffs E.a E.b)
  nonsingular : E.eqn.Δ ≠ 0
  order : OrderAsked c (Nat.card E.Pt)
  plain : Plain c E.Pt

open Classical in
/-- arithmetic modulo a prime, with `b` for the root of its square -/
noncomputable def opsAt (p : Nat) (b : Int) : FpOps where
  invsafe x := if h : ∃ y, x * y ≡ 1 [ZMOD p] then some (choose h) else none
  issquare x := decide (∃ y : Int, y ^ 2 ≡ x [ZMOD p])
  sqrt x := if b ^ 2 ≡ x [ZMOD p] then b else if h : ∃ y : Int, y ^ 2 ≡ x [ZMOD p] then choose h % p else 0
  root4 x := if h : ∃ y : Int, y ^ 4 ≡ x [ZMOD p] then some (choose h) else none

theorem opsAt_spec (p : Nat) (hp : p.Prime) (b : Int) (h0 : 0 ≤ b) (h1 : b < p) : FpSpec p (opsAt p b) where
  invsafe_some x y h := by
    simp only [opsAt] at h
    split at h
    · rename_i hx
      cases h
      exact Classical.choose_spec hx
    · cases h
  invsafe_none x := by
    simp only [opsAt]
    constructor
    · intro h
      by_contra hd
      have hc : IsCoprime x (p : Int) := by
        refine Int.isCoprime_iff_gcd_eq_one.2 ?_
        rw [Int.gcd_comm]
        exact (Int.isCoprime_iff_gcd_eq_one.1 ((Int.prime_iff_natAbs_prime.2 (by simpa using hp)).coprime_iff_not_dvd.2 hd))
      obtain ⟨u, v, huv⟩ := hc
      have hu : ∃ y, x * y ≡ 1 [ZMOD p] := ⟨u, Int.modEq_iff_dvd.2 ⟨v, by linarith⟩⟩
      rw [dif_pos hu] at h
      cases h
    · intro hd
      rw [dif_neg]
      rintro ⟨y, hy⟩
      have := (Int.modEq_iff_dvd.1 hy)
      have h1 : (p : Int) ∣ 1 := by
        have := dvd_add this (hd.mul_right y)
        simpa using this
      have := Int.natCast_dvd_natCast.1 (by simpa using h1 : (p : Int) ∣ ((1 : Nat) : Int))
      exact hp.one_lt.ne' (Nat.dvd_one.1 this)
  issquare x := by simp only [opsAt, decide_eq_true_eq]
  sqrt x h := by
    have hp0 : (0 : Int) < p := by exact_mod_cast hp.pos
    simp only [opsAt, decide_eq_true_eq] at h ⊢
    split
    · rename_i hb
      exact ⟨hb, h0, h1⟩
    · exact ⟨((Int.mod_modEq _ _).pow 2).trans (Classical.choose_spec h), Int.emod_nonneg _ (by omega), Int.emod_lt_of_pos _ hp0⟩
  root4_some x y h := by
    simp only [opsAt] at h
    split at h
    · rename_i hx
      cases h
      exact Classical.choose_spec hx
    · cases h
  root4_none x := by
    simp only [opsAt]
    constructor
    · intro h
      split at h
      · cases h
      · assumption
    · intro h
      rw [dif_neg h]

/-- **C104** Every pair of coefficients that X9.62 accepts for the seed can come up, if the first one is in the range of the random numbers and the number
derived from the seed has an inverse. -/
theorem related_call (bits : Nat) (hb1 : 1 ≤ bits) (f : Fld) (p : Nat) (hf : f.1 = .prime p) (s : Bits.Bits) (hs : AnsiSeed s) (a b : Nat) (ha : 2 ^ (bits - 1) ≤ a)
    (hinv : ¬ p ∣ Bits.ofBits (Ansi.Spec.expandFp s.val bits)) (h : Related bits s.val (.prime p) a b) : AnsiCall bits f s (.coeffs (.int a) (.int b)) := by
  obtain ⟨ha', hbp, hrel⟩ := h
  have hg := (ansi_seed_good hs).1
  obtain ⟨sd, h1, -⟩ := Ansi.mkSeed_spec s hg bits
  have hp : p.Prime := by
    have := f.2
    rw [hf] at this
    exact this
  have hbp : b < p := hbp
  have hops := opsAt_spec p hp (b : Int) (Int.natCast_nonneg _) (by exact_mod_cast hbp)
  refine ⟨0, sd, h1, ?_⟩
  rw [hf]
  refine ⟨opsAt p b, fun _ => a, 1, hops, fun _ => ⟨ha, ha'⟩, ?_⟩
  have key : Ansi.genEquationFp 0 (opsAt p b) (fun _ => a) 1 sd = some (some (Bits.ofBits (Ansi.Spec.expandFp s.val bits), a, (b : Int))) := by
    unfold Ansi.genEquationFp
    rw [Ansi.derivedR_spec 0 s hg bits hb1 sd h1, Option.bind_some]
    cases hi : (opsAt p b).invsafe (Bits.ofBits (Ansi.Spec.expandFp s.val bits) : Nat) with
    | none => exact absurd (Int.natCast_dvd_natCast.1 ((hops.invsafe_none _).1 hi)) hinv
    | some y =>
      have hy := hops.invsafe_some _ _ hi
      have hsq : (b : Int) ^ 2 ≡ (a : Int) ^ 3 * y [ZMOD p] := by
        have h2 : ((Bits.ofBits (Ansi.Spec.expandFp s.val bits) * b ^ 2 : Nat) : Int) ≡ ((a ^ 3 : Nat) : Int) [ZMOD p] := Int.natCast_modEq_iff.2 hrel
        push_cast at h2
        have h3 := h2.mul_right y
        have h4 := hy.mul_right ((b : Int) ^ 2)
        rw [one_mul] at h4
        refine (h4.symm.trans ?_).trans h3
        rw [show (Bits.ofBits (Ansi.Spec.expandFp s.val bits) : Int) * y * (b : Int) ^ 2 = (Bits.ofBits (Ansi.Spec.expandFp s.val bits) : Int) * (b : Int) ^ 2 * y by ring]
      have ht : Ansi.tryA (opsAt p b) (fun _ => a) y 0 = some (.done (a, (b : Int))) := by
        unfold Ansi.tryA
        have e1 : (opsAt p b).issquare ((a : Int) ^ 3 * y) = true := (hops.issquare _).2 ⟨b, hsq⟩
        have e2 : (opsAt p b).sqrt ((a : Int) ^ 3 * y) = b := by
          simp only [opsAt]
          rw [if_pos hsq]
        simp only [e1, e2, if_true]
      rw [Option.bind_some]
      simp only [loopN, ht]
      rfl
  rw [key]
  rfl

/-! ## One stage after the other -/

/-- the curve object on the way to the curve `E` -/
structure HasA (S : Bits.Bits) (E : Crv) (s : Nat) (x : Cur) : Prop where
  seed : x.seed = some S
  field : 2 ≤ s → x.field = some E.field
  ab : 4 ≤ s → x.a = some E.a ∧ x.b = some E.b
  crv : 5 ≤ s → x.crv = some E

/-- a call that brings the curve `E` up at stage `s` -/
structure TowardA (c : Config) (S : Bits.Bits) (E : Crv) (s : Nat) (p : Pick) : Prop where
  ok : p.Ok c
  cut : p.cut = none
  fail : ∀ s, p.fail s = none
  field : s = 1 → (if has c.random RANDOM_FIELD then p.randomField else p.typedField) = E.field
  ansi : p.ansi E.field S = .coeffs E.a E.b
  sea : Order.SeaSpec (p.sea E) (Nat.card E.Pt)
  gens : Group.GensSpec E.Pt (p.gens E)

theorem next_ansi (P : Pari) (hP : P.Ok) (c : Config) (hc : Covered c) (ha0 : c.seedAlgo = .ansi) (S : Bits.Bits) (E : Crv) (h : SuitsA c S E)
    (hl : Listable c E) (T : Nat → Pick) (i s : Nat) (h1s : 1 ≤ s) (hs : s < 9) (ht : TowardA c S E s (T i)) (x : Cur) (hx : Inv c T s x) (hx' : HasA S E s x) :
    ∃ x', act P c (T i) s x = some (x', 1) ∧ Inv c T (s + 1) x' ∧ HasA S E (s + 1) x' := by
  have hp := ht.ok
  obtain ⟨x', d, ha⟩ := act_defined P c hc T (T i) hp s hs x (by
    obtain ⟨hcl, hl | hl | hl | hl⟩ := hl
    · exact Or.inl hl
    · exact Or.inr (Or.inl hl)
    · refine Or.inr (Or.inr (Or.inl ⟨hl.1, fun E' h5 he => ?_⟩))
      rw [hx'.crv h5] at he
      cases he
      exact hl.2.2
    · refine Or.inr (Or.inr (Or.inr ⟨fun _ => hP, fun E' h5 he => ?_⟩))
      rw [hx'.crv h5] at he
      cases he
      exact ⟨hcl, hl⟩) (fun h3 _ f b hf hb => by
        rw [hx'.field (by omega)] at hf
        rw [hx'.seed] at hb
        cases hf; cases hb
        rw [ht.ansi]
        exact (nomatch ·)) hx
  have hseed : x'.seed = some S := (act_seed P c hc _ s h1s x x' d ha).trans hx'.seed
  have hkeep : 5 ≤ s → HasA S E (s + 1) x' := by
    intro h5
    obtain ⟨k1, k2, k3, k4⟩ := late_keeps P c hc _ s h5 hs x x' d ha
    exact ⟨hseed, fun _ => k1.trans (hx'.field (by omega)), fun _ => ⟨k2.trans (hx'.ab (by omega)).1, k3.trans (hx'.ab (by omega)).2⟩,
      fun _ => k4.trans (hx'.crv h5)⟩
  match s, hs with
  | 0, _ => omega
  | 1, _ =>
    obtain ⟨rfl, h1⟩ := step_field P c hc _ i hp x hx x' d ha
    refine ⟨x', ha, h1, ⟨hseed, fun _ => ?_, fun h => by omega, fun h => by omega⟩⟩
    have ht' := table_field c hc
    have htf := ht.field rfl
    cases hr : has c.random RANDOM_FIELD <;>
    · rw [hr] at ht' htf
      simp only [act, stageOf, ht', Option.bind_some, id, if_true, Bool.false_eq_true, if_false, call, Option.some.injEq, Prod.mk.injEq] at ha htf
      obtain ⟨rfl, -⟩ := ha
      simp only [htf]
  | 2, _ =>
    obtain ⟨rfl, h1⟩ := step_a P c hc _ i x hx x' d ha
    have hf := hx'.field (by omega)
    refine ⟨x', ha, h1, ⟨hseed, fun _ => ?_, fun h => by omega, fun h => by omega⟩⟩
    rcases table_a c hc with ⟨h0', -⟩ | ⟨h0', -⟩ | ⟨-, t⟩
    · rw [ha0] at h0'; cases h0'
    · rw [ha0] at h0'; cases h0'
    · simp only [act, stageOf, t, Option.bind_some, id, call] at ha
      cases ha
      exact hf
  | 3, _ =>
    have hf := hx'.field (by omega)
    rcases table_b c hc with ⟨h0', -⟩ | ⟨h0', -⟩ | ⟨-, t⟩
    · rw [ha0] at h0'; cases h0'
    · rw [ha0] at h0'; cases h0'
    · have e : act P c (T i) 3 x = some ({ x with a := some E.a, b := some E.b }, 1) := by
        simp only [act, stageOf, t, Option.bind_some, id, call, hx'.seed, hf, ht.ansi, derived]
      rcases step_b P c hc _ i x hx x' d ha with ⟨rfl, h1⟩ | ⟨-, h1, -⟩
      · refine ⟨x', ha, h1, ⟨hseed, fun _ => ?_, fun _ => ?_, fun h => by omega⟩⟩ <;> rw [e] at ha <;> cases ha
        · exact hf
        · exact ⟨rfl, rfl⟩
      · rw [e] at ha
        cases ha
        omega
  | 4, _ =>
    obtain ⟨rfl, -, -, E', h1, h2⟩ := step_curve P c hc _ (T i) x hx x' d ha
    have hf := hx'.field (by omega)
    obtain ⟨haa, hb⟩ := hx'.ab (by omega)
    have e : act P c (T i) 4 x = some ({ x with crv := some E }, 1) := by
      simp only [act, stageOf, table_curve c hc, Option.bind_some, id, call, hf, haa, hb]
    rw [e] at ha
    cases ha
    cases h1
    exact ⟨_, e, h2 h.nonsingular, ⟨hx'.seed, fun _ => hf, fun _ => ⟨haa, hb⟩, fun _ => rfl⟩⟩
  | 5, _ =>
    have hE := hx'.crv (by omega)
    have hd := order_accepts P hP c hc (T i) x E hE h.nonsingular ht.sea h.order x' d ha
    rcases step_order P hP c hc _ (T i) x hx x' d (fun E' he => by rw [hE] at he; cases he; exact ht.sea) ha with ⟨rfl, h1⟩ | ⟨h1, -⟩
    · exact ⟨x', ha, h1, hkeep (by omega)⟩
    · exact absurd h1 hd
  | 6, _ =>
    have hE := hx'.crv (by omega)
    have hgs := ht.gens
    have hn : x.order = some (Nat.card E.Pt) := by
      obtain ⟨E', h1, h2, -⟩ := hx.order (by omega)
      rw [hE] at h1
      cases h1
      exact h2
    have hd := gens_accepts P hP c hc (T i) x E hE hn hgs h.order h.plain x' d ha
    rcases step_gens P hP c hc _ (T i) x hx x' d (fun E' he => by rw [hE] at he; cases he; exact hgs) ha with ⟨rfl, h1⟩ | ⟨h1, -⟩
    · exact ⟨x', ha, h1, hkeep (by omega)⟩
    · exact absurd h1 hd
  | 7, _ =>
    obtain ⟨rfl, h1⟩ := step_points P hP c _ (T i) hp x hx x' d ha
    exact ⟨x', ha, h1, hkeep (by omega)⟩
  | 8, _ =>
    obtain ⟨rfl, h1⟩ := step_metadata P c _ (T i) hp x hx x' d ha
    exact ⟨x', ha, h1, hkeep (by omega)⟩

/-- from the stage number `s` on, the curve is found -/
theorem walk_ansi (P : Pari) (hP : P.Ok) (c : Config) (hc : Covered c) (ha : c.seedAlgo = .ansi) (hh : c.hexCheck = none) (S : Bits.Bits) (E : Crv) (h : SuitsA c S E)
    (hl : Listable c E) (T : Nat → Pick) (st : St W) (s : Nat) (h1s : 1 ≤ s) (hs : st.state = s) (ht : st.w.tape = T) (hi : Inv c T s st.w.cur) (hE : HasA S E s st.w.cur)
    (hT : ∀ j, s + j < 9 → TowardA c S E (s + j) (T (st.w.pos + j))) (j : Nat) (hj : s + j ≤ 9) :
    ∃ st', Reaches (setup P c) 0 9 0 st st' ∧ st'.state = s + j ∧ st'.w.tape = T ∧ st'.w.pos = st.w.pos + j ∧ st'.w.ub = st.w.ub ∧
      Inv c T (s + j) st'.w.cur ∧ HasA S E (s + j) st'.w.cur := by
  induction j with
  | zero => exact ⟨st, .refl, hs, ht, rfl, rfl, hi, hE⟩
  | succ j ih =>
    obtain ⟨s1, h1, h2, h3, h4, hub, h5, h6⟩ := ih (by omega)
    have htw := hT j (by omega)
    obtain ⟨x', h7, h8, h9⟩ := next_ansi P hP c hc ha S E h hl T (st.w.pos + j) (s + j) (by omega) (by omega) htw _ h5 h6
    have hsucc := succeeds_at P c hc hh s1.w (st.w.pos + j) (s + j) (by rw [h3]; exact htw.cut) (by rw [h3]; exact htw.fail) s1.w.cur x' (by rw [h3]; exact h7)
      (fun h4 => ⟨E, h9.crv (by omega), h.nonsingular⟩)
    have e : ({ s1.w with cur := s1.w.cur, pos := st.w.pos + j } : W) = s1.w := by rw [← h4]
    rw [e, ← h2] at hsucc
    obtain ⟨s2, k1, k2, k3⟩ := step_succeeds (setup P c) s1 _ hsucc
    refine ⟨s2, .next h1 (by omega) k1, by omega, by rw [k3]; exact h3, by rw [k3]; rfl, by rw [k3]; exact hub, ?_, ?_⟩
    · rw [k3]; exact h8
    · rw [k3]; exact h9

/-! ## Calls that turn a run -/

/-- the calls behave, and PARI is right, also for the field and the coefficients of the curve `E`; no number derived from a seed is without inverse -/
structure RightA (c : Config) (E : Crv) (T : Nat → Pick) : Prop where
  picks : ∀ i, (T i).Ok c
  sea : ∀ i (E' : Crv), ComesField T E'.field ∨ E'.field = E.field → ComesA c T E'.field E'.a ∨ E'.a = E.a → ComesB c T E'.field E'.b ∨ E'.b = E.b →
    E'.eqn.Δ ≠ 0 → Order.SeaSpec ((T i).sea E') (Nat.card E'.Pt)
  gens : ∀ i (E' : Crv), ComesField T E'.field ∨ E'.field = E.field → ComesA c T E'.field E'.a ∨ E'.a = E.a → ComesB c T E'.field E'.b ∨ E'.b = E.b →
    E'.eqn.Δ ≠ 0 → Group.GensSpec E'.Pt ((T i).gens E')
  ansi : ∀ i j f, ComesField T f ∨ f = E.field → AnsiCall c.bits f (T j).seed ((T i).ansi f (T j).seed)
  invertible : ∀ j f p, ComesField T f ∨ f = E.field → f.1 = .prime p → ¬ p ∣ Bits.ofBits (Ansi.Spec.expandFp (T j).seed.val c.bits)

theorem RightA.tape {c : Config} {E : Crv} {T : Nat → Pick} (h : RightA c E T) : TapeOk c T :=
  ⟨h.picks, fun _ i j f hf => h.ansi i j f (Or.inl hf), fun i E h1 h2 h3 => h.sea i E (Or.inl h1) (Or.inl h2) (Or.inl h3),
    fun i E h1 h2 h3 => h.gens i E (Or.inl h1) (Or.inl h2) (Or.inl h3)⟩

open Classical in
/-- the call changed so that it brings up the curve `E` for the seed `S` -/
noncomputable def steerA (S : Bits.Bits) (E : Crv) (p : Pick) : Pick :=
  { p with
    cut := none
    fail := fun _ => none
    randomField := E.field
    typedField := E.field
    ansi := fun f s => if f = E.field ∧ s = S then .coeffs E.a E.b else p.ansi f s
    sea := fun E => Nat.card E.Pt
    verdict := none }

/-- the calls before number `n` as they are, then ten that bring up the curve `E`, then those from the beginning again -/
noncomputable def turnA (T : Nat → Pick) (n : Nat) (S : Bits.Bits) (E : Crv) (i : Nat) : Pick :=
  if i < n then T i else if i < n + 10 then steerA S E (T 0) else T (i - (n + 10))

theorem turnA_before (T : Nat → Pick) (n : Nat) (S : Bits.Bits) (E : Crv) (i : Nat) (h : i < n) : turnA T n S E i = T i := if_pos h

theorem turnA_steer (T : Nat → Pick) (n : Nat) (S : Bits.Bits) (E : Crv) (j : Nat) (h : j < 10) : turnA T n S E (n + j) = steerA S E (T 0) := by
  unfold turnA
  rw [if_neg (by omega), if_pos (by omega)]

theorem turnA_all (T : Nat → Pick) (n : Nat) (S : Bits.Bits) (E : Crv) (i : Nat) : turnA T n S E (n + 10 + i) = T i := by
  unfold turnA
  rw [if_neg (by omega), if_neg (by omega)]
  congr 1
  omega

theorem turnA_cases (T : Nat → Pick) (n : Nat) (S : Bits.Bits) (E : Crv) (i : Nat) : (∃ j, turnA T n S E i = T j) ∨ turnA T n S E i = steerA S E (T 0) := by
  unfold turnA
  split
  · exact Or.inl ⟨i, rfl⟩
  · split
    · exact Or.inr rfl
    · exact Or.inl ⟨_, rfl⟩

theorem steerA_ok {c : Config} (S : Bits.Bits) {E : Crv} (hf : FieldAsked c E.field.1) {p : Pick} (hp : p.Ok c) : (steerA S E p).Ok c where
  cut x h := by cases h
  fail s d h := by cases h
  seed := hp.seed
  randomField := hf
  typedField := typed_asked hf
  ansiSeed := hp.ansiSeed
  elt := hp.elt
  which := hp.which
  mul := hp.mul
  info := hp.info
  verdict d h := by cases h

theorem turnA_comes {c : Config} (ha : c.seedAlgo = .ansi) {T : Nat → Pick} {n : Nat} {S : Bits.Bits} {E : Crv} :
    (∀ f, ComesField (turnA T n S E) f → ComesField T f ∨ f = E.field) ∧
    (∀ f e, ComesA c (turnA T n S E) f e → ComesA c T f e ∨ e = E.a) ∧
    (∀ f e, ComesB c (turnA T n S E) f e → ComesB c T f e ∨ e = E.b) ∧ ∀ i, ∃ j, (turnA T n S E i).seed = (T j).seed := by
  have n0 : ¬ c.seedAlgo = .none := by rw [ha]; exact (nomatch ·)
  have nk : ¬ (c.koblitz = true ∧ c.seedAlgo = .none) := fun h => n0 h.2
  have hseed : ∀ i, ∃ j, (turnA T n S E i).seed = (T j).seed := by
    intro i
    rcases turnA_cases T n S E i with ⟨j, e⟩ | e
    · exact ⟨j, by rw [e]⟩
    · exact ⟨0, by rw [e]; rfl⟩
  have key : ∀ i j f a b, (turnA T n S E i).ansi f (turnA T n S E j).seed = .coeffs a b → (∃ i' j', (T i').ansi f (T j').seed = .coeffs a b) ∨ (a = E.a ∧ b = E.b) := by
    intro i j f a b he
    obtain ⟨j', ej⟩ := hseed j
    rw [ej] at he
    rcases turnA_cases T n S E i with ⟨i', e⟩ | e <;> rw [e] at he
    · exact Or.inl ⟨i', j', he⟩
    · simp only [steerA] at he
      split at he
      · cases he
        exact Or.inr ⟨rfl, rfl⟩
      · exact Or.inl ⟨0, j', he⟩
  refine ⟨fun f => ?_, fun f e => ?_, fun f e => ?_, hseed⟩
  · rintro ⟨i, hf⟩
    rcases turnA_cases T n S E i with ⟨j, e⟩ | e
    · rw [e] at hf
      exact Or.inl ⟨j, hf⟩
    · rw [e] at hf
      exact Or.inr (hf.elim id id)
  · unfold ComesA
    simp only [if_neg nk, if_neg n0]
    rintro ⟨i, j, b, he⟩
    rcases key i j f e b he with ⟨i', j', h⟩ | h
    · exact Or.inl ⟨i', j', b, h⟩
    · exact Or.inr h.1
  · unfold ComesB
    simp only [if_neg nk, if_neg n0]
    rintro ⟨i, j, a, he⟩
    rcases key i j f a e he with ⟨i', j', h⟩ | h
    · exact Or.inl ⟨i', j', a, h⟩
    · exact Or.inr h.2

theorem turnA_right {c : Config} (ha : c.seedAlgo = .ansi) {S : Bits.Bits} {E : Crv} {T : Nat → Pick} (h : RightA c E T) (n : Nat) (hE : SuitsA c S E) :
    RightA c E (turnA T n S E) := by
  obtain ⟨t1, t2, t3, t4⟩ := @turnA_comes c ha T n S E
  have u1 : ∀ f, ComesField (turnA T n S E) f ∨ f = E.field → ComesField T f ∨ f = E.field := fun f hf => hf.elim (t1 f) Or.inr
  have u2 : ∀ f e, ComesA c (turnA T n S E) f e ∨ e = E.a → ComesA c T f e ∨ e = E.a := fun f e hf => hf.elim (t2 f e) Or.inr
  have u3 : ∀ f e, ComesB c (turnA T n S E) f e ∨ e = E.b → ComesB c T f e ∨ e = E.b := fun f e hf => hf.elim (t3 f e) Or.inr
  refine ⟨?_, ?_, ?_, ?_, ?_⟩
  · intro i
    rcases turnA_cases T n S E i with ⟨j, e⟩ | e <;> rw [e]
    · exact h.picks j
    · exact steerA_ok S hE.field (h.picks 0)
  · intro i E' h1 h2 h3 h4
    rcases turnA_cases T n S E i with ⟨j, e⟩ | e <;> rw [e]
    · exact h.sea j E' (u1 _ h1) (u2 _ _ h2) (u3 _ _ h3) h4
    · exact Or.inl rfl
  · intro i E' h1 h2 h3 h4
    rcases turnA_cases T n S E i with ⟨j, e⟩ | e <;> rw [e]
    · exact h.gens j E' (u1 _ h1) (u2 _ _ h2) (u3 _ _ h3) h4
    · exact h.gens 0 E' (u1 _ h1) (u2 _ _ h2) (u3 _ _ h3) h4
  · intro i j f hf
    obtain ⟨j', ej⟩ := t4 j
    rw [ej]
    rcases turnA_cases T n S E i with ⟨i', e⟩ | e <;> rw [e]
    · exact h.ansi i' j' f (u1 _ hf)
    · simp only [steerA]
      split
      · rename_i hx
        rw [hx.1, hx.2]
        exact hE.call
      · exact h.ansi 0 j' f (u1 _ hf)
  · intro j f p hf
    obtain ⟨j', ej⟩ := t4 j
    rw [ej]
    exact h.invertible j' f p (u1 _ hf)

/-! ## Back to the field, and to the end -/

/-- without an expiry of the timer, the stages but the first leave the seed -/
theorem step_seed_kept (P : Pari) (c : Config) (hc : Covered c) (st st' : St W) (h1 : 1 ≤ st.state) (hcut : st.w.pick.cut = none)
    (h : Engine.step (setup P c) 0 0 st = .inl st') : st'.w.cur.seed = st.w.cur.seed := by
  have hgen : ∀ w1 r, (setup P c).gen st.state st.w = (w1, r) → w1.cur.seed = st.w.cur.seed := by
    intro w1 r h
    rcases gen_cases P c _ _ w1 _ h with ⟨x, hx, -⟩ | ⟨d', hf, rfl, hr⟩ | ⟨x, d', hx, rfl, hr⟩ | ⟨rfl, hr⟩
    · rw [hcut] at hx; cases hx
    · rfl
    · exact act_seed P c hc _ _ h1 _ _ _ hx
    · rfl
  rcases Engine.step_cases (setup P c) 0 st (Nat.zero_le _) with ⟨s1, d, w', e1, e2, -, e4⟩ | ⟨s1, d, w', e1, e2, -, -, e4⟩ | ⟨s1, d, w', e1, -⟩ <;> rw [e1] at h <;> cases h
  · obtain ⟨w1, k1, -, k2⟩ := e2
    rw [e4, passes_cur (setup_checks_cur P c _) k2]
    exact hgen _ _ k1
  · rw [e4, cleaned_seed]
    rcases e2 with ⟨k1, -⟩ | ⟨k1, -⟩ | ⟨w1, g, k1, -, k2⟩
    · exact hgen _ _ k1
    · exact hgen _ _ k1
    · rw [rejects_cur (setup_checks_cur P c _) k2]
      exact hgen _ _ k1

/-- the search ends or is back at the field, with the same seed -/
theorem back_or_end_ansi (P : Pari) (hP : P.Ok) (c : Config) (h : Covered c) (hf : c.field = FIELD_PRIME) (hh : c.hexCheck = none) (T : Nat → Pick)
    (hq : StagesFine c T) (k : Nat) : ∀ (st : St W), 9 - st.state = k → 1 ≤ st.state → st.state ≤ 9 → Sound c T st.state st.w →
    (∀ i, st.w.pos ≤ i → i < st.w.pos + k → (T i).cut = none ∧ ∀ s, (T i).fail s = none) →
    ∃ st', Reaches (setup P c) 0 9 0 st st' ∧ (st'.state = 9 ∨ st'.state = 1) ∧ Sound c T st'.state st'.w ∧ st'.w.cur.seed = st.w.cur.seed := by
  induction k with
  | zero => exact fun st hk _ h9 hv _ => ⟨st, .refl, Or.inl (by omega), hv, rfl⟩
  | succ k ih =>
    intro st hk h1s h9 hv hT
    have hs : st.state < 9 := by omega
    have ht : st.w.tape = T := hv.1.2.2.1
    obtain ⟨c1, c2⟩ := hT st.w.pos (Nat.le_refl _) (by omega)
    have hcut : st.w.pick.cut = none := by rw [W.pick, ht]; exact c1
    obtain ⟨st', h1, h2, h3⟩ := step_clean P hP c h (Or.inr hf) hh T hq st hs hv hcut (by rw [W.pick, ht]; exact c2 _)
    have hsd := step_seed_kept P c h st st' h1s hcut h1
    have hr : Reaches (setup P c) 0 9 0 st st' := .next .refl hs h1
    rcases h2 with h2 | h2
    · have hp := (step_pos P c h hh st st' h1).1
      obtain ⟨s2, i1, i2, i3, i4⟩ := ih st' (by omega) (by omega) (by omega) h3 (fun i j1 j2 => hT i (by omega) (by omega))
      exact ⟨s2, hr.trans i1, i2, i3, i4.trans hsd⟩
    · exact ⟨st', hr, Or.inr h2, h3, hsd⟩

/-- whatever has happened, the search can still end with a curve -/
theorem alive_ansi (P : Pari) (hP : P.Ok) (c : Config) (hc : Covered c) (ha : c.seedAlgo = .ansi) (hf : c.field = FIELD_PRIME) (hh : c.hexCheck = none)
    (hq : ∀ T, TapeOk c T → PointsFine c T) (S : Bits.Bits) (E : Crv) (h : SuitsA c S E) (hl : Listable c E) (w : W) (hw : RightA c E w.tape) (hu : w.ub = false)
    (st : St W) (hst : Reaches (setup P c) 0 9 0 (Engine.init 0 { w with cur := {} }) st) (h1 : 1 ≤ st.state) (hS : st.w.cur.seed = some S) :
    ∃ T, RightA c E T ∧ (∀ i, i < st.w.pos → T i = w.tape i) ∧
      Reaches (setup P c) 0 9 0 (Engine.init 0 { w with cur := {}, tape := T }) (st.map (W.on T)) ∧
      ∃ st', Reaches (setup P c) 0 9 0 (st.map (W.on T)) st' ∧ st'.state = 9 ∧ st'.w.cur.seed = some S := by
  have hq : ∀ T, RightA c E T → StagesFine c T := fun T hT => ⟨fun _ j f p hf => hT.invertible j f p (Or.inl hf), hq T hT.tape⟩
  have sound : ∀ (T : Nat → Pick) (a b : St W), RightA c E T → Reaches (setup P c) 0 9 0 a b → Sound c T a.state a.w → Sound c T b.state b.w := by
    intro T a b hT hr ha
    exact (Engine.reaches_inv (setup P c) 0 9 0 (Sound c T) (fun s v d v' _ => sound_ok P hP c hc T (hq T hT) s v d v')
      (fun s v d v' _ => sound_back P hP c hc T (hq T hT) s v d v') a b (Nat.zero_le _) ha hr).2
  have start : ∀ T, TapeOk c T → Sound c T 0 ({ w with cur := {}, tape := T } : W) := fun T hT =>
    ⟨⟨Nat.zero_le _, inv_low (Nat.zero_le _) (fun _ => rfl) (fun _ => rfl) (fun h => by cases h), rfl, hT⟩, hu⟩
  obtain ⟨p1, p2, p3⟩ := reaches_on P c hc hh (turnA w.tape st.w.pos S E) _ _ hst
  have hT1 := turnA_right ha hw st.w.pos h
  have r1 := p3 fun i _ hi => turnA_before _ _ _ _ _ hi
  have s1 := sound _ _ _ hT1 r1 (start _ hT1.tape)
  obtain ⟨st1, q1, q2, q3, q4⟩ := back_or_end_ansi P hP c hc hf hh _ (hq _ hT1) _ (st.map (W.on (turnA w.tape st.w.pos S E))) rfl h1 s1.1.1 s1 (by
    intro i i1 i2
    have i1 : st.w.pos ≤ i := i1
    have i2 : i < st.w.pos + (9 - st.state) := i2
    obtain ⟨j, rfl⟩ := Nat.exists_eq_add_of_le i1
    rw [turnA_steer _ _ _ _ _ (by omega)]
    exact ⟨rfl, fun _ => rfl⟩)
  have q4 : st1.w.cur.seed = some S := q4.trans hS
  rcases q2 with q2 | q2
  · exact ⟨_, hT1, fun i hi => turnA_before _ _ _ _ _ hi, r1, st1, q1, q2, q4⟩
  · have hT2 := turnA_right ha hT1 st1.w.pos h
    obtain ⟨m1, m2, m3⟩ := reaches_on P c hc hh (turnA (turnA w.tape st.w.pos S E) st1.w.pos S E) _ _ q1
    have m1 : st.w.pos ≤ st1.w.pos := m1
    have before : ∀ i, i < st.w.pos → turnA (turnA w.tape st.w.pos S E) st1.w.pos S E i = w.tape i := fun i hi => by
      rw [turnA_before _ _ _ _ _ (by omega), turnA_before _ _ _ _ _ hi]
    obtain ⟨-, -, p4⟩ := reaches_on P c hc hh (turnA (turnA w.tape st.w.pos S E) st1.w.pos S E) _ _ hst
    have r2 := m3 fun i _ hi => turnA_before _ _ _ _ _ hi
    have hi1 : Inv c (turnA (turnA w.tape st.w.pos S E) st1.w.pos S E) 1 st1.w.cur := inv_mono (fun i => ⟨_, turnA_all _ _ _ _ i⟩) (q2 ▸ q3.1.2.1)
    obtain ⟨st2, e1, e2, -, -, -, -, e7⟩ := walk_ansi P hP c hc ha hh S E h hl _ (st1.map (W.on (turnA (turnA w.tape st.w.pos S E) st1.w.pos S E))) 1 (Nat.le_refl _) q2 rfl hi1
      ⟨q4, fun h => by omega, fun h => by omega, fun h => by omega⟩
      (fun j hj => by
        change TowardA c S E (1 + j) (turnA (turnA w.tape st.w.pos S E) st1.w.pos S E (st1.w.pos + j))
        rw [turnA_steer _ _ _ _ _ (by omega)]
        exact
          { ok := steerA_ok S h.field (hT1.picks 0)
            cut := rfl
            fail := fun _ => rfl
            field := fun _ => by split <;> rfl
            ansi := if_pos ⟨rfl, rfl⟩
            sea := Or.inl rfl
            gens := hT1.gens 0 E (Or.inr rfl) (Or.inr rfl) (Or.inr rfl) h.nonsingular }) 8 (Nat.le_refl _)
    exact ⟨_, hT2, before, p4 fun i _ hi => before i hi, st2, r2.trans e1, e2, e7.seed⟩

/-- **C104** A search by `--ansi` over prime fields does not get stuck with a seed that has a curve. Let the search have run for a while, with any failures and
expiries of the timer, let `S` be the seed it has now, and let `E` be a curve of that seed that meets what the command line asks for. Then there are random
numbers for the calls still to be made with which the search goes on from there to its end, and returns a curve, of the seed `S`. -/
theorem ansi_not_stuck (P : Pari) (hP : P.Ok) (n : Int) (os : List Opt) (c : Config) (hcl : commandLine n os = some c) (ha : c.seedAlgo = .ansi)
    (hf : c.field = FIELD_PRIME) (hh : c.hexCheck = none)
    (hu : c.unique = true ∨ c.cofactor = false ∨ toSize c.cofactorValue = 1 ∨ (toSize c.cofactorValue).Prime)
    (hp : c.pointsType = .none ∨ c.pointsType = .prime ∨ (c.pointsType ≠ .random ∧ c.bits ≤ 61))
    (S : Bits.Bits) (E : Crv) (hE : SuitsA c S E) (w : W) (hw : RightA c E w.tape) (hub : w.ub = false) (st : St W)
    (hst : Reaches (setup P c) 0 9 0 (Engine.init 0 { w with cur := {} }) st) (h1 : 1 ≤ st.state) (hS : st.w.cur.seed = some S) :
    ∃ T, RightA c E T ∧ (∀ i, i < st.w.pos → T i = w.tape i) ∧
      Reaches (setup P c) 0 9 0 (Engine.init 0 { w with cur := {}, tape := T }) { st with w := { st.w with tape := T } } ∧
      ∃ fuel st', Reaches (setup P c) 0 9 0 { st with w := { st.w with tape := T } } st' ∧
        Engine.gen (setup P c) 0 9 fuel { w with cur := {}, tape := T } = some (1, st') ∧ st'.w.cur.seed = some S := by
  have hcov := covered n os c hcl (Or.inr ha) fun _ h' => by rw [ha] at h'; cases h'
  have hq : ∀ T, TapeOk c T → PointsFine c T := by
    intro T hT
    rcases hp with h | h | ⟨h1, h2⟩
    · exact Or.inl h
    · exact Or.inr (Or.inl h)
    · exact points_fine hT hu h1 h2
  have hl : Listable c E := by
    refine ⟨clear_of Nat.card_pos (by tauto), ?_⟩
    rcases hp with h | h | ⟨h1, h2⟩
    · exact Or.inl h
    · exact Or.inr (Or.inl h)
    · refine Or.inr (Or.inr (Or.inr ⟨h1, few_factors_63 Nat.card_pos ?_⟩))
      have k1 : fieldSize E.field.1 ≤ 2 ^ c.bits := size_asked hE.field
      have k2 := order_le E.field E.eqn
      have k3 : 2 ^ c.bits ≤ 2 ^ 61 := Nat.pow_le_pow_right (by omega) h2
      change Nat.card E.eqn.Point < _
      omega
  obtain ⟨T, h1, h2, h3, st', h4, h5, h6⟩ := alive_ansi P hP c hcov ha hf hh hq S E hE hl w hw hub st hst h1 hS
  obtain ⟨fuel, hf⟩ := Engine.reaches_loop (h3.trans h4) 0 (1, st') (by unfold Engine.loop; rw [if_neg (by omega)])
  refine ⟨T, h1, h2, h3, fuel, st', h4, ?_, h6⟩
  unfold Engine.gen Engine.genRetry
  rw [if_neg (by decide), if_neg (by decide)]
  exact hf

/-- **C104** Every curve of a seed that meets what the command line asks for can be found with that seed: if the first call brings the seed `S`, there are
random numbers for the later calls with which the search returns the curve `E`. -/
theorem ansi_all_found (P : Pari) (hP : P.Ok) (n : Int) (os : List Opt) (c : Config) (hcl : commandLine n os = some c) (ha : c.seedAlgo = .ansi)
    (hh : c.hexCheck = none) (E : Crv) (w : W) (hE : SuitsA c (w.tape w.pos).seed E) (hl : Listable c E) (hw : RightA c E w.tape)
    (hcut : (w.tape w.pos).cut = none) (hfail : ∀ s, (w.tape w.pos).fail s = none) :
    ∃ T, RightA c E T ∧ T w.pos = w.tape w.pos ∧ ∃ fuel st', Engine.gen (setup P c) 0 9 fuel { w with cur := {}, tape := T } = some (1, st') ∧ st'.w.ub = w.ub ∧
      st'.w.cur.seed = some (w.tape w.pos).seed ∧ st'.w.cur.field = some E.field ∧ st'.w.cur.a = some E.a ∧ st'.w.cur.b = some E.b ∧
      st'.w.cur.order = some (Nat.card E.Pt) := by
  have hc := covered n os c hcl (Or.inr ha) fun _ h' => by rw [ha] at h'; cases h'
  have hT := turnA_right ha hw (w.pos + 1) hE
  have e0 : turnA w.tape (w.pos + 1) (w.tape w.pos).seed E w.pos = w.tape w.pos := turnA_before _ _ _ _ _ (Nat.lt_succ_self _)
  have hact := act_first P c hc ha (w.tape w.pos) {}
  have hsucc := succeeds_at P c hc hh ({ w with cur := {}, tape := turnA w.tape (w.pos + 1) (w.tape w.pos).seed E } : W) w.pos 0 ((congrArg Pick.cut e0).trans hcut)
    (fun s => (congrArg (fun p : Pick => p.fail s) e0).trans (hfail s)) {} _ ((congrArg (fun p => act P c p 0 {}) e0).trans hact) (fun h => by cases h)
  obtain ⟨st1, h1, h2, h3⟩ := step_succeeds (setup P c) (Engine.init 0 ({ w with cur := {}, tape := turnA w.tape (w.pos + 1) (w.tape w.pos).seed E } : W)) _ hsucc
  have hi : Inv c (turnA w.tape (w.pos + 1) (w.tape w.pos).seed E) 1 st1.w.cur := by
    rw [h3]
    exact (step_seed P c hc _ w.pos (hT.picks _) {} (inv_low (Nat.zero_le _) (fun _ => rfl) (fun _ => rfl) (fun h => by cases h)) _ 1 (by rw [e0]; exact hact)).2
  obtain ⟨st2, e1, e2, -, -, e5, e6, e7⟩ := walk_ansi P hP c hc ha hh (w.tape w.pos).seed E hE hl _ st1 1 (Nat.le_refl _) h2 (by rw [h3]) hi
    ⟨by rw [h3], fun h => by omega, fun h => by omega, fun h => by omega⟩
    (fun j hj => by
      have hpos : st1.w.pos = w.pos + 1 := by rw [h3]
      rw [hpos, turnA_steer _ _ _ _ _ (by omega)]
      exact
        { ok := steerA_ok _ hE.field (hw.picks 0)
          cut := rfl
          fail := fun _ => rfl
          field := fun _ => by split <;> rfl
          ansi := if_pos ⟨rfl, rfl⟩
          sea := Or.inl rfl
          gens := hw.gens 0 E (Or.inr rfl) (Or.inr rfl) (Or.inr rfl) hE.nonsingular }) 8 (Nat.le_refl _)
  have hr : Reaches (setup P c) 0 9 0 (Engine.init 0 ({ w with cur := {}, tape := turnA w.tape (w.pos + 1) (w.tape w.pos).seed E } : W)) st2 :=
    (Reaches.next .refl (show 0 < 9 by decide) h1).trans e1
  obtain ⟨fuel, hf⟩ := Engine.reaches_loop hr 0 (1, st2) (by unfold Engine.loop; rw [if_neg (by omega)])
  refine ⟨_, hT, e0, fuel, st2, ?_, by rw [e5, h3], e7.seed, e7.field (by omega), (e7.ab (by omega)).1, (e7.ab (by omega)).2, ?_⟩
  · unfold Engine.gen Engine.genRetry
    rw [if_neg (by decide), if_neg (by decide)]
    exact hf
  · obtain ⟨E', k1, k2, -⟩ := e6.order (by omega)
    rw [e7.crv (by omega)] at k1
    cases k1
    exact k2

/-! ## A case -/

/-- calls that bring up the curve `y² = x³ + 7x + 1` over the field of five elements, but for an expiry of the timer at the call number 5 -/
noncomputable def stumblingA (i : Nat) : Pick := if i = 5 then { pickA with cut := some {} } else pickA

theorem stumblingA_same (i : Nat) : (stumblingA i).randomField = F5 ∧ (stumblingA i).typedField = F5 ∧ (stumblingA i).seed = zeros ∧
    (stumblingA i).ansi = pickA.ansi ∧ (stumblingA i).sea = pickA.sea ∧ (stumblingA i).gens = pickA.gens := by
  unfold stumblingA
  split <;> exact ⟨rfl, rfl, rfl, rfl, rfl, rfl⟩

theorem stumblingA_right : RightA ca Ea stumblingA := by
  have hc : ca.seedAlgo = .ansi := by decide +kernel
  have hn : ¬ (ca.koblitz = true ∧ ca.seedAlgo = .none) := by decide +kernel
  have hb : ca.bits = 3 := by decide +kernel
  have hF : ∀ f, ComesField stumblingA f ∨ f = Ea.field → f = F5 := by
    rintro f (⟨i, h | h⟩ | h)
    · exact h.trans (stumblingA_same i).1
    · exact h.trans (stumblingA_same i).2.1
    · exact h
  refine ⟨fun i => ?_, fun i E' _ _ _ _ => ?_, fun i E' h1 h2 h3 _ => ?_, fun i j f hf => ?_, fun j f p hf e => ?_⟩
  · unfold stumblingA
    split
    · exact { pickA_tape.picks 0 with cut := fun x h => by cases h; exact ⟨fun _ => rfl, fun _ => rfl⟩ }
    · exact pickA_tape.picks 0
  · rw [(stumblingA_same i).2.2.2.2.1]
    exact Or.inl rfl
  · rw [(stumblingA_same i).2.2.2.2.2]
    have hA : E'.a = Ea.a := by
      rcases h2 with h2 | h2
      · rw [ComesA, if_neg hn, if_neg (by rw [hc]; decide)] at h2
        obtain ⟨i, j, b, h2⟩ := h2
        rw [(stumblingA_same i).2.2.2.1] at h2
        simp only [pickA, Derived.coeffs.injEq] at h2
        exact h2.1.symm
      · exact h2
    have hB : E'.b = Ea.b := by
      rcases h3 with h3 | h3
      · rw [ComesB, if_neg hn, if_neg (by rw [hc]; decide)] at h3
        obtain ⟨i, j, b, h3⟩ := h3
        rw [(stumblingA_same i).2.2.2.1] at h3
        simp only [pickA, Derived.coeffs.injEq] at h3
        exact h3.2.symm
      · exact h3
    obtain ⟨f, a, b⟩ := E'
    have h1 := hF _ h1
    simp only at h1 hA hB
    subst h1 hA hB
    exact pickA_tape.gens 0 Ea ⟨0, Or.inl rfl⟩ (by rw [ComesA, if_neg hn, if_neg (by rw [hc]; decide)]; exact ⟨0, 0, _, rfl⟩)
      (by rw [ComesB, if_neg hn, if_neg (by rw [hc]; decide)]; exact ⟨0, 0, _, rfl⟩) Ea_delta
  · obtain rfl := hF f hf
    rw [hb, (stumblingA_same i).2.2.2.1]
    rw [(stumblingA_same j).2.2.1]
    exact zeros_call
  · obtain rfl := hF f hf
    cases e
    rw [hb, (stumblingA_same j).2.2.1, zeros_r]
    decide

/-- the curve belongs to the seed of zeros, by the relation of X9.62 -/
theorem Ea_suits : SuitsA ca zeros Ea where
  field := ⟨by decide +kernel, fun _ _ => by decide +kernel, by decide +kernel⟩
  call := by
    have hb : ca.bits = 3 := by decide +kernel
    rw [hb]
    exact related_call 3 (by decide) F5 5 rfl zeros zeros_seed 7 1 (by decide) (by rw [zeros_r]; decide) relatedA
  nonsingular := Ea_delta
  order := ⟨fun h => absurd h (by decide +kernel), fun h => absurd h (by decide +kernel), fun h => absurd h (by decide +kernel)⟩
  plain := ⟨fun h => absurd h (by decide +kernel), fun _ h => absurd h (by decide +kernel)⟩

/-- **C104, met**: `ecgen --fp --random --ansi=0…0 3`, calls among which the timer expires once, and the state after the first call -/
theorem ansi_not_stuck_met : ∃ (n : Int) (os : List Opt) (c : Config) (S : Bits.Bits) (E : Crv) (w : W) (st : St W), commandLine n os = some c ∧ c.seedAlgo = .ansi ∧
    c.field = FIELD_PRIME ∧ c.hexCheck = none ∧ c.cofactor = false ∧ c.pointsType = .prime ∧ SuitsA c S E ∧ RightA c E w.tape ∧ w.ub = false ∧
    (w.tape 5).cut.isSome ∧ Reaches (setup pari c) 0 9 0 (Engine.init 0 { w with cur := {} }) st ∧ st.state = 1 ∧ st.w.cur.seed = some S := by
  have hc : ca.seedAlgo = .ansi := by decide +kernel
  have hcov := covered 4 _ ca ca_some (Or.inr hc) fun _ h' => by rw [hc] at h'; cases h'
  have hsucc := succeeds_at pari ca hcov (by decide +kernel) (⟨{}, stumblingA, 0, false⟩ : W) 0 0 rfl (fun _ => rfl) {} _ (act_first pari ca hcov hc _ {})
    (fun h => by cases h)
  obtain ⟨st, h1, h2, h3⟩ := step_succeeds (setup pari ca) (Engine.init 0 (⟨{}, stumblingA, 0, false⟩ : W)) _ hsucc
  exact ⟨4, _, ca, zeros, Ea, ⟨{}, stumblingA, 0, false⟩, st, ca_some, hc, by decide +kernel, by decide +kernel, by decide +kernel, by decide +kernel, Ea_suits,
    stumblingA_right, rfl, rfl, .next .refl (by decide) h1, h2, by rw [h3]; rfl⟩

/-- **C104, met**: the same command line, seed, curve and calls -/
theorem ansi_all_found_met : ∃ (n : Int) (os : List Opt) (c : Config) (E : Crv) (w : W), commandLine n os = some c ∧ c.seedAlgo = .ansi ∧ c.hexCheck = none ∧
    SuitsA c (w.tape w.pos).seed E ∧ Listable c E ∧ RightA c E w.tape ∧ (w.tape w.pos).cut = none ∧ ∀ s, (w.tape w.pos).fail s = none :=
  ⟨4, _, ca, Ea, ⟨{}, stumblingA, 0, false⟩, ca_some, by decide +kernel, by decide +kernel, Ea_suits,
    ⟨clear_of Nat.card_pos (Or.inr (Or.inl (by decide +kernel))), Or.inr (Or.inl (by decide +kernel))⟩, stumblingA_right, rfl, fun _ => rfl⟩

end Ecgen.Whole
