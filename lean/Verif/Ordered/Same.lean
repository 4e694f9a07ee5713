import Verif.Ordered.Props

/-!
# All curves of a run of `--order` are the same one (C90)
-/

namespace Ecgen.Ordered

open Whole Output Output.Spec Cli Cm.Construct
open Seeded (curveOf)

variable {P : Pari} {c : Config} {prime : Bool} {N : Nat} {T : Nat → Pick}

/-! ## The discriminant does not depend on the call -/

theorem nextLoop_same {isprime : Int → Bool} {cornacchia2 : Nat → Nat → Option (Int × Int)} {logN N : Nat} : ∀ (n m : Nat) (s : QState) {x y},
    nextLoop isprime cornacchia2 logN N n s = some x → nextLoop isprime cornacchia2 logN N m s = some y → x = y := by
  intro n
  induction n with
  | zero => intro m s x y h; cases h
  | succ n ih =>
    intro m s x y h h'
    cases m with
    | zero => cases h'
    | succ m =>
      unfold nextLoop at h h'
      split at h
      · rename_i hlt
        rw [if_pos hlt] at h'
        split at h
        · rename_i f hf
          rw [hf] at h'
          cases h
          cases h'
          rfl
        · rename_i hf
          rw [hf] at h'
          exact ih m _ h h'
      · rename_i hlt
        rw [if_neg hlt] at h'
        obtain ⟨Sp, hS, h⟩ := Option.bind_eq_some_iff.1 h
        rw [hS] at h'
        exact ih m _ h h'

theorem minimal_same {isprime : Int → Bool} {issquarefree : Nat → Bool} {traces : Int → Nat → List Int} {N : Nat} : ∀ (n m d : Nat) {x y},
    qdiscMinimal isprime issquarefree traces N n d = some x → qdiscMinimal isprime issquarefree traces N m d = some y → x = y := by
  intro n
  induction n with
  | zero => intro m d x y h; cases h
  | succ n ih =>
    intro m d x y h h'
    cases m with
    | zero => cases h'
    | succ m =>
      unfold qdiscMinimal at h h'
      split at h
      · rename_i hsf
        rw [if_pos hsf] at h'
        split at h
        · rename_i t ht
          rw [ht] at h'
          cases h
          cases h'
          rfl
        · rename_i ht
          rw [ht] at h'
          exact ih m _ h h'
      · rename_i hsf
        rw [if_neg hsf] at h'
        exact ih m _ h h'

/-- two curves from one j-invariant -/
def Kin (r r' : Result) (t t' : (p : Nat) → ZMod p) : Prop :=
  ∃ (D D' : Int) (p : Nat) (_ : Fact p.Prime) (j : ZMod p) (e e' : ZMod p × ZMod p), r = ⟨D, p, e.1, e.2⟩ ∧ r' = ⟨D', p, e'.1, e'.2⟩ ∧ Regular (fromJ j) ∧
    (e = fromJ j ∨ e = twist (t p) (fromJ j)) ∧ (e' = fromJ j ∨ e' = twist (t' p) (fromJ j))

theorem prime_same {C C' : Cm.Construct.Calls} (hr : C'.roots = C.roots) {isprime : Int → Bool} {cornacchia2 : Nat → Nat → Option (Int × Int)} {logN N fuel fuel' : Nat} :
    ∀ (n m : Nat) (s : QState) {r r' : Result}, genPrime C isprime cornacchia2 logN N fuel n s = some r →
    genPrime C' isprime cornacchia2 logN N fuel' m s = some r' → Kin r r' C.T C'.T := by
  intro n
  induction n with
  | zero => intro m s r r' h; cases h
  | succ n ih =>
    intro m s r r' h h'
    cases m with
    | zero => cases h'
    | succ m =>
      unfold genPrime at h h'
      split at h
      · cases h
      rename_i f s1 hf
      split at h'
      · cases h'
      rename_i f' s1' hf'
      unfold qdiscNext at hf hf'
      obtain ⟨s0, hs0, hf⟩ := Option.bind_eq_some_iff.1 hf
      rw [hs0] at hf'
      have := nextLoop_same _ _ _ hf hf'
      cases this
      split at h
      case isFalse => cases h
      case isTrue hp =>
      rw [dif_pos hp] at h'
      letI : Fact f.p.toNat.Prime := ⟨hp⟩
      cases hj : (C.roots f.D f.p.toNat).find? fun j => Regular (fromJ j) with
      | none =>
        have e : constructAt C N f.D f.p.toNat hp = none := by simp only [constructAt, constructPrime, hj, Option.map_none]
        have e' : constructAt C' N f.D f.p.toNat hp = none := by simp only [constructAt, constructPrime, hr, hj, Option.map_none]
        rw [e] at h
        rw [e'] at h'
        exact ih m _ h h'
      | some j =>
        have hreg : Regular (fromJ j) := by simpa using List.find?_some hj
        simp only [constructAt, constructPrime, hj, Option.map_some, Option.some.injEq] at h
        simp only [constructAt, constructPrime, hr, hj, Option.map_some, Option.some.injEq] at h'
        exact ⟨f.D, f.D, f.p.toNat, ⟨hp⟩, j, _, _, h.symm, h'.symm, hreg, chosenPrime _ _ _ _, chosenPrime _ _ _ _⟩

theorem any_same {C C' : Cm.Construct.Calls} (hr : C'.roots = C.roots) {isprime : Int → Bool} {issquarefree : Nat → Bool} {traces : Int → Nat → List Int}
    {N fuel fuel' : Nat} {r r' : Result} (h : cmGenAny C isprime issquarefree traces N fuel = some (some r))
    (h' : cmGenAny C' isprime issquarefree traces N fuel' = some (some r')) : Kin r r' C.T C'.T := by
  unfold cmGenAny at h h'
  split at h
  · cases h
  rename_i D p hmin
  split at h'
  · cases h'
  rename_i D' p' hmin'
  have := minimal_same _ _ _ hmin hmin'
  cases this
  split at h
  case isFalse => cases h
  case isTrue hp =>
  rw [dif_pos hp] at h'
  letI : Fact p.toNat.Prime := ⟨hp⟩
  obtain ⟨o, ho, h⟩ := Option.map_eq_some_iff.1 h
  obtain ⟨e, rfl, rfl⟩ := Option.map_eq_some_iff.1 h
  obtain ⟨o', ho', h'⟩ := Option.map_eq_some_iff.1 h'
  obtain ⟨e', rfl, rfl⟩ := Option.map_eq_some_iff.1 h'
  unfold constructAny at ho ho'
  rw [hr] at ho'
  split at ho
  · cases ho
  rename_i j hj
  rw [hj] at ho'
  obtain ⟨y, hy, hyy⟩ := Option.map_eq_some_iff.1 ho
  obtain ⟨z, hz, hzz⟩ := Option.map_eq_some_iff.1 ho'
  cases hyy
  cases hzz
  exact ⟨D, D, p.toNat, ⟨hp⟩, j, _, _, rfl, rfl, by simpa using List.find?_some hj, chosen _ _ _ _ _ _ hy, chosen _ _ _ _ _ _ hz⟩

theorem built_same {i i' : Nat} {r r' : Result} (h : built P (T i) prime N = some r) (h' : built P (T i') prime N = some r') :
    Kin r r' (T i).T (T i').T := by
  unfold built at h h'
  cases prime with
  | true => exact prime_same (C := calls P (T i)) (C' := calls P (T i')) rfl _ _ _ h h'
  | false =>
    rw [if_neg (by decide), Option.join_eq_some_iff] at h h'
    exact any_same (C := calls P (T i)) (C' := calls P (T i')) rfl h h'

/-! ## Isomorphic curves -/

/-- the substitution `x = u² x'`, `y = u³ y'` makes one equation out of the other -/
def Isomorphic (p : Nat) (v v' : CurveV) : Prop := ∃ u : ZMod p, u ≠ 0 ∧ (v'.a : ZMod p) = u ^ 4 * (v.a : ZMod p) ∧ (v'.b : ZMod p) = u ^ 6 * (v.b : ZMod p)

/-- the ratio of two numbers that are not squares is a square -/
theorem ratio (p : Nat) [Fact p.Prime] (hp : 2 < p) (t t' : ZMod p) (h : ¬ IsSquare t) (h' : ¬ IsSquare t') : ∃ u : ZMod p, u ≠ 0 ∧ t' = u ^ 2 * t := by
  have hF := ringChar_ne p hp
  have h0 : t ≠ 0 := fun e => h (e ▸ IsSquare.zero)
  have h0' : t' ≠ 0 := fun e => h' (e ▸ IsSquare.zero)
  have e1 : quadraticChar (ZMod p) t = -1 := quadraticChar_neg_one_iff_not_isSquare.2 h
  have e2 : quadraticChar (ZMod p) t' = -1 := quadraticChar_neg_one_iff_not_isSquare.2 h'
  have e3 : quadraticChar (ZMod p) (t' * t) = 1 := by rw [map_mul, e1, e2]; rfl
  obtain ⟨s, hs⟩ := (quadraticChar_one_iff_isSquare (mul_ne_zero h0' h0)).1 e3
  have hs0 : s ≠ 0 := by
    rintro rfl
    rw [mul_zero] at hs
    exact mul_ne_zero h0' h0 hs
  refine ⟨s / t, div_ne_zero hs0 h0, ?_⟩
  field_simp
  linear_combination hs

theorem isomorphic (hC : Calls.Ok P T) (hodd : N % 2 = 1) (hR : Right P prime N T) (hp3 : ∀ i r, built P (T i) prime N = some r → 2 < r.p)
    {i i' : Nat} {r r' : Result} (h : built P (T i) prime N = some r) (h' : built P (T i') prime N = some r') (v v' : CurveV)
    (ha : v.a = r.a.val) (hb : v.b = r.b.val) (ha' : v'.a = r'.a.val) (hb' : v'.b = r'.b.val) : r'.p = r.p ∧ Isomorphic r.p v v' := by
  have hp2 := hp3 i r h
  obtain ⟨⟨_, hc⟩, -⟩ := hR i r h
  obtain ⟨⟨_, hc'⟩, -⟩ := hR i' r' h'
  obtain ⟨D, D', p, hF, j, e, e', rfl, rfl, hreg, he, he'⟩ := built_same h h'
  refine ⟨rfl, ?_⟩
  simp only at ha hb ha' hb' hp2 hc hc'
  unfold Isomorphic
  simp only [ha, hb, ha', hb', ZMod.natCast_zmod_val]
  have hT := hC.twist i p hp2
  have hT' := hC.twist i' p hp2
  have hpodd : p % 2 = 1 := by
    rcases hF.1.eq_two_or_odd with h | h
    · omega
    · exact h
  have ht := Count.card_twist (ringChar_ne p hp2) (fromJ j).1 (fromJ j).2 ((T i).T p) hT
  have ht' := Count.card_twist (ringChar_ne p hp2) (fromJ j).1 (fromJ j).2 ((T i').T p) hT'
  rw [ZMod.card] at ht ht'
  rcases he with rfl | rfl <;> rcases he' with rfl | rfl
  · exact ⟨1, one_ne_zero, by ring, by ring⟩
  · simp only [twist] at hc'
    omega
  · simp only [twist] at hc
    omega
  · obtain ⟨u, hu, e⟩ := ratio p hp2 _ _ hT hT'
    refine ⟨u, hu, ?_, ?_⟩ <;> simp only [twist, e] <;> ring

/-- **C90** All curves that a run of `--order` prints for an odd order of at least 50 that leaves the remainder 2 modulo 3 are the same one up to
isomorphism: over the same field, and the substitution `x = u² x'`, `y = u³ y'` makes one equation out of the other. Nothing that happens during the run
makes a difference but for `u`. (Partial as C88.) -/
theorem order_run_same_partial (malloc : Nat → List Parson.Byte) (hm : ∀ n, (malloc n).length = n) (P : Pari) (hP : P.Ok)
    (n : Int) (os : List Opt) (c : Config) (h : commandLine n os = some c) (ha : c.method = METHOD_CM) (ns : List Nat)
    (hf : ∀ s, Opt.order s ∈ os → Factors s ns) (h50 : 50 ≤ ns.prod) (h3 : ns.prod % 3 = 2) (hodd : ns.prod % 2 = 1)
    (fuel : Nat) (w : W) (hT : ∀ N prime, accepted P c = some (N, prime) → TapeOk P c prime N w.tape) (hC : Calls.Ok P w.tape)
    (hd : ¬ (ns.length = 1 ∧ ns.prod.Prime) → Decided P ns.prod w.tape) (hstatus : (produce P c fuel w).2 = 0)
    (hs : ∀ v ∈ Json.generated (one P c fuel) (toSize c.count) w, ∀ j, Parson.outputJjson c.hexDigits v = .ok j →
      (Parson.render true 0 j).length ≤ 2147483646) :
    ∃ js : List Output.Json, (∀ j, Parson.Spec.Document (bytes malloc P c fuel w) (Parson.encode j) ↔ j = .arr js) ∧ js.length = toSize c.count ∧
      ∀ j ∈ js, ∀ j' ∈ js, ∃ v v' p, readCurve j = some v ∧ readCurve j' = some v' ∧ v.field = .prime p ∧ v'.field = .prime p ∧ Isomorphic p v v' := by
  have hF := typed n os c h ha ns hf
  obtain ⟨js, h1, h2, h3'⟩ := run_prints malloc hm P hP c ha fuel w hT hstatus hs
    (fun v => ∃ N prime, accepted P c = some (N, prime) ∧ ∃ i r, built P (w.tape i) prime N = some r ∧ v.field = .prime r.p ∧ v.a = r.a.val ∧ v.b = r.b.val)
    fun N prime x v hacc hx hv => by
      obtain ⟨-, -, i, r, hb, hp, h4, h5, h6, -⟩ := curve_sound x hx v hv
      exact ⟨N, prime, hacc, i, r, hb, h4, h5, h6⟩
  refine ⟨js, h1, h2, fun j hj j' hj' => ?_⟩
  obtain ⟨v, hv, N, prime, hacc, i, r, hb, f1, f2, f3⟩ := h3' j hj
  obtain ⟨v', hv', N', prime', hacc', i', r', hb', f1', f2', f3'⟩ := h3' j' hj'
  rw [hacc] at hacc'
  cases hacc'
  obtain ⟨rfl, -, -, h6⟩ := accepted_factors hP ns hF hacc
  have hR : Right P prime ns.prod w.tape := right hP hC h50 (fun e => (h6.1 e).2) (fun i r hb => by
    obtain ⟨-, -, u, hu⟩ := built_found hP hC hb
    exact disc_ne _ _ _ u h3 hu) fun e => hd fun k => by
      rw [h6.2 k] at e
      cases e
  obtain ⟨e, hiso⟩ := isomorphic hC hodd hR (fun i r hb => by
    have := (interval ns.prod r.p h50 (hR i r hb).2).1
    omega) hb hb' v v' f2 f3 f2' f3'
  exact ⟨v, v', r.p, hv, hv', f1, by rw [f1', e], hiso⟩

end Ecgen.Ordered
