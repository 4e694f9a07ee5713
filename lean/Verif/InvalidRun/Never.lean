import Verif.InvalidRun.Props
import Verif.Cm.ConstructLemmas
import Verif.Cm.Props
import Mathlib.Tactic.LinearCombination

/-!
# Runs of the invalid curve method that cannot end well (C93)
-/

namespace Ecgen.InvalidRun

open Output Output.Spec Cli Whole Json

/-! ## No prime is selected -/

theorem text_last {t : List Parson.Byte} {v : Parson.Value} (h : Parson.Spec.Text t v) :
    ∃ t0 x, t = t0 ++ [x] ∧ x ∈ [108, 101, Parson.quote, 93, 125] := by
  cases h with
  | null => exact ⟨[110, 117, 108], 108, rfl, by simp⟩
  | «true» => exact ⟨[116, 114, 117], 101, rfl, by simp⟩
  | «false» => exact ⟨[102, 97, 108, 115], 101, rfl, by simp⟩
  | str h => exact ⟨_ :: _, _, by rw [List.cons_append], by simp⟩
  | arrEmpty h => exact ⟨_ :: _, _, by rw [List.cons_append], by simp⟩
  | arr h => exact ⟨_ :: _, _, by rw [List.cons_append], by simp⟩
  | objEmpty h => exact ⟨_ :: _, _, by rw [List.cons_append], by simp⟩
  | obj h => exact ⟨_ :: _, _, by rw [List.cons_append], by simp⟩

/-- a text that ends with a comma and a newline is no JSON document -/
theorem comma_no_document (t : List Parson.Byte) (v : Parson.Value) : ¬ Parson.Spec.Document (t ++ [44, 10]) v := by
  rintro ⟨w, t', w', -, h2, h3, h⟩
  obtain ⟨t0, x, rfl, hx⟩ := text_last h2
  have e := congrArg List.reverse h
  simp only [List.reverse_append, List.reverse_cons, List.reverse_nil, List.nil_append, List.append_assoc, List.cons_append] at e
  have hw : ∀ b ∈ w'.reverse, b = 32 ∨ b = 9 ∨ b = 10 ∨ b = 13 := fun b hb => by
    have := h3 b (List.mem_reverse.1 hb)
    simpa using this
  match hr : w'.reverse, hw with
  | [], _ =>
    rw [hr] at e
    simp only [List.nil_append, List.cons.injEq] at e
    rw [← e.1] at hx
    revert hx; decide
  | [b], _ =>
    rw [hr] at e
    simp only [List.cons_append, List.nil_append, List.cons.injEq] at e
    rw [← e.2.1] at hx
    revert hx; decide
  | b :: b' :: r, hw =>
    rw [hr] at e
    simp only [List.cons_append, List.cons.injEq] at e
    have := hw b' (by simp)
    rw [← e.2.1] at this
    revert this; decide

/-- **C93** When no prime is selected, as for `--invalid=24-28`, a run that ends has the status 1, and what it has printed is not JSON: nothing, or an array
that is not closed. -/
theorem invalid_run_empty (malloc : Nat → List Parson.Byte) (P : Pari) (hP : P.Ok) (np : Nat → Nat) (hnp : Invalid.NextSpec np) (c : Config) (s t : List Char)
    (hst : c.invalidPrimes = some (s ++ '-' :: t)) (h1 : Number s) (h2 : Number t) (hno : ∀ q : Nat, q.Prime → Invalid.value s ≤ q → Invalid.value t < q)
    (fuel : Nat) (w : W) (hT : TapeOk (original c) w.tape) (hu : w.ub = false) (ts : List (Tok Output.Curve)) (r : Int)
    (h : produce P np c fuel w = .done (ts, r)) : r = 1 ∧ ∀ v, ¬ Parson.Spec.Document (bytes malloc c ts) v := by
  have hm : Meant c.bits c.invalidPrimes := by rw [hst]; exact Or.inr ⟨s, t, rfl, h1, h2⟩
  rcases run_cases P hP np hnp c hm fuel w hT hu with h3 | h3 | ⟨v0, o, f, a, qs, -, hsel, h3 | ⟨-, h3⟩ | ⟨hne, ts', es, h3, -⟩⟩
  · rw [h] at h3; cases h3
  · rw [h] at h3; cases h3
    refine ⟨rfl, ?_⟩
    rintro v ⟨w, t', w', -, h2, -, h⟩
    obtain ⟨t0, x, rfl, -⟩ := text_last h2
    simp [bytes, Parson.outputText] at h
  · rw [h] at h3; cases h3
  · rw [h] at h3; cases h3
    refine ⟨rfl, fun v hv => ?_⟩
    have e : bytes malloc c [.open, .obj v0, .comma] = (91 :: 10 :: Parson.curveText malloc c.hexDigits v0) ++ [44, 10] := by
      simp [bytes, Parson.outputText, Parson.tokText]
    rw [e] at hv
    exact comma_no_document _ _ hv
  · exfalso
    obtain ⟨q, hq⟩ := List.exists_mem_of_ne_nil _ hne
    obtain ⟨k1, k2, k3⟩ := ((hsel.range s t hst h1 h2).2 q).1 hq
    have := hno q k1 k2
    omega

/-! ## A prime is too large -/

/-- what is known at the end -/
theorem run_end (P : Pari) (hP : P.Ok) (np : Nat → Nat) (hnp : Invalid.NextSpec np) (c : Config) (hr : Meant c.bits c.invalidPrimes)
    (fuel : Nat) (w : W) (hT : TapeOk (original c) w.tape) (hu : w.ub = false) (ts : List (Tok Output.Curve)) (h : produce P np c fuel w = .done (ts, 0)) :
    ∃ v0 qs, .obj v0 ∈ ts.take 2 ∧ Asked (original c) (curveV v0) ∧ Selected c.invalidPrimes (curveV v0).order qs ∧
      ∀ q ∈ qs, ∃ v, Serves c (curveV v0) qs q (curveV v) := by
  rcases run_cases P hP np hnp c hr fuel w hT hu with h1 | h1 | ⟨v0, o, f, a, qs, hfirst, hsel, h1 | ⟨-, h1⟩ | ⟨hne, ts', es, h1, harr, hperm, hst⟩⟩
  · rw [h] at h1; cases h1
  · rw [h] at h1; cases h1
  · rw [h] at h1; cases h1
  · rw [h] at h1; cases h1
  · rw [h] at h1
    cases h1
    obtain ⟨x, hx1, hx2, hx3, -⟩ := id hfirst
    have ho : (curveV v0).order = o := by
      obtain ⟨f2, a2, b2, n2, E2, l2, g2, -, -, -, k4, -, -, rfl⟩ := printed_values hx2
      rw [hx3] at k4
      cases k4
      rfl
    refine ⟨v0, qs, ?_, curve_asked (original c) (covered_original c) w.tape (coeffs_fine hT) x hx1 v0 hx2, by rw [ho]; exact hsel, fun q hq => ?_⟩
    · generalize es.map Prod.snd = vs at harr
      cases harr with
      | items hi =>
        cases hi with
        | one c => simp
        | more c hi => simp
    · obtain ⟨i, hi, rfl⟩ := List.mem_iff_getElem.1 hq
      have : i ∈ es.map Prod.fst := hperm.symm.subset (List.mem_range.2 hi)
      obtain ⟨e, he, rfl⟩ := List.mem_map.1 this
      refine ⟨e.2, ?_⟩
      have hg : qs[e.1] = qs.getD e.1 0 := by simp [List.getD, hi]
      rw [hg]
      exact stored_serves hT hfirst (hst e he)

/-- the order of an asked curve is bounded -/
theorem asked_order {c : Config} {v : CurveV} (h : Asked c v) : v.order ≤ 2 * 2 ^ c.bits + 1 := by
  obtain ⟨-, f, h1, h2, -, -, -, -, h3, -⟩ := h
  rw [h3]
  exact (order_bound (h1 ▸ h2) _).2.1

/-- **C93** When a selected prime exceeds the order of every curve over fields of the size asked for, the run never ends with the status 0, whatever PARI
draws. -/
theorem invalid_run_large (P : Pari) (hP : P.Ok) (np : Nat → Nat) (hnp : Invalid.NextSpec np) (c : Config) (s t : List Char)
    (hst : c.invalidPrimes = some (s ++ '-' :: t)) (h1 : Number s) (h2 : Number t) (q : Nat) (hq : q.Prime) (hs : Invalid.value s ≤ q)
    (ht : q ≤ Invalid.value t) (hl : 2 * 2 ^ c.bits + 1 < q) (fuel : Nat) (w : W) (hT : TapeOk (original c) w.tape) (hu : w.ub = false)
    (ts : List (Tok Output.Curve)) : produce P np c fuel w ≠ .done (ts, 0) := by
  intro h
  have hm : Meant c.bits c.invalidPrimes := by rw [hst]; exact Or.inr ⟨s, t, rfl, h1, h2⟩
  obtain ⟨v0, qs, -, -, hsel, hall⟩ := run_end P hP np hnp c hm fuel w hT hu ts h
  obtain ⟨v, ha, -, -, hd⟩ := hall q (((hsel.range s t hst h1 h2).2 q).2 ⟨hq, hs, ht⟩)
  have h3 := (hd (lt_of_le_of_lt ht h2.2.2)).1
  have h4 := asked_order ha
  have h5 : (curveV v).order ≠ 0 := by
    obtain ⟨-, f, -, -, -, -, -, -, h5, -⟩ := ha
    rw [h5]
    exact Nat.card_pos.ne'
  have := Nat.le_of_dvd (Nat.pos_of_ne_zero h5) h3
  have e : (invalid c).bits = c.bits := rfl
  rw [e] at h4
  omega

/-! ## The first coefficient is zero -/

/-- over prime fields with `p ≡ 2 mod 3` all curves `y² = x³ + b` have `p + 1` points -/
theorem zero_order {c : Config} {v : CurveV} (h : Asked c v) {p : Nat} (hf : v.field = .prime p) (h3 : p % 3 = 2) (ha : v.a = 0) : v.order = p + 1 := by
  obtain ⟨-, f, h1, -, -, -, -, hd, ho, -⟩ := h
  obtain ⟨f, hg⟩ := f
  simp only at h1
  rw [hf] at h1
  subst h1
  have hp : p.Prime := hg
  have : Fact p.Prime := ⟨hp⟩
  rw [ho]
  rw [ha] at hd ⊢
  have e0 : (elem ⟨.prime p, hg⟩ 0 : Carrier ⟨.prime p, hg⟩) = (0 : ZMod p) := Nat.cast_zero
  rw [e0] at hd ⊢
  generalize hb : (elem ⟨.prime p, hg⟩ v.b : Carrier ⟨.prime p, hg⟩) = b at hd ⊢
  change ZMod p at b
  have h2' : (2 : ZMod p) ≠ 0 := fun h => hd (by
    change (WeierstrassCurve.mk (0 : ZMod p) 0 0 0 b).Δ = 0
    simp only [WeierstrassCurve.Δ, WeierstrassCurve.b₂, WeierstrassCurve.b₄, WeierstrassCurve.b₆, WeierstrassCurve.b₈]
    linear_combination (-216 * b ^ 2) * h)
  have h2 : p ≠ 2 := fun h => h2' (by subst h; exact CharP.cast_eq_zero (ZMod 2) 2)
  have hreg : Cm.Construct.Regular ((0 : ZMod p), b) := fun h => hd (by
    change 4 * (0 : ZMod p) ^ 3 + 27 * b ^ 2 = 0 at h
    change (WeierstrassCurve.mk (0 : ZMod p) 0 0 0 b).Δ = 0
    simp only [WeierstrassCurve.Δ, WeierstrassCurve.b₂, WeierstrassCurve.b₄, WeierstrassCurve.b₆, WeierstrassCurve.b₈]
    linear_combination -16 * h)
  have h := Cm.Construct.natCard_point h2' (0 : ZMod p) b hreg
  rw [Count.card_cubes (Cm.ringChar_ne_two p h2) (Count.cube_bijective (by rw [ZMod.card]; exact h3)) b, ZMod.card] at h
  exact h

theorem primes_dvd {N : Nat} {l : List Nat} (hl : l.Pairwise (· < ·)) (hp : ∀ q ∈ l, q.Prime) (hd : ∀ q ∈ l, q ∣ N) : l.prod ∣ N := by
  have hn : l.Nodup := hl.imp (fun h => Nat.ne_of_lt h)
  have h := Finset.prod_primes_dvd (s := l.toFinset) N (fun q hq => (hp q (List.mem_toFinset.1 hq)).prime) (fun q hq => hd q (List.mem_toFinset.1 hq))
  have e := List.prod_toFinset (fun q : Nat => q) hn
  rw [List.map_id'] at e
  rwa [e] at h

/-- a run without a selection of primes that ends with the status 0 has not begun with `y² = x³ + b` over a prime field with `p ≡ 2 mod 3` -/
theorem run_end_zero (P : Pari) (hP : P.Ok) (np : Nat → Nat) (hnp : Invalid.NextSpec np) (c : Config) (hr : c.invalidPrimes = none) (hb : c.bits < 2 ^ 59)
    (fuel : Nat) (w : W) (hT : TapeOk (original c) w.tape) (hu : w.ub = false) (ts : List (Tok Output.Curve)) (h : produce P np c fuel w = .done (ts, 0)) :
    ∃ v0, .obj v0 ∈ ts.take 2 ∧ ¬ ((curveV v0).a = 0 ∧ ∃ p, (curveV v0).field = .prime p ∧ p % 3 = 2) := by
  have hm : Meant c.bits c.invalidPrimes := by rw [hr]; exact hb
  obtain ⟨v0, qs, hv0, hask, hsel, hall⟩ := run_end P hP np hnp c hm fuel w hT hu ts h
  refine ⟨v0, hv0, ?_⟩
  rintro ⟨ha, p, hf, h3⟩
  have ho := zero_order hask hf h3 ha
  obtain ⟨rs, n, hqs, hlist, hprod, -⟩ := hsel.product hr
  rw [ho] at hprod
  have hdvd : ∀ q ∈ qs, q < 2 ^ 63 → q ∣ p + 1 := fun q hq hlt => by
    obtain ⟨v, hv1, hv2, hv3, hv4⟩ := hall q hq
    have := zero_order hv1 (hv2.trans hf) h3 (hv3.trans ha)
    rw [← this]
    exact (hv4 hlt).1
  have hle : p + 1 ≤ 2 ^ (c.bits + 2) := by
    obtain ⟨-, f, h1, h2, -, -, -, -, h4, -⟩ := hask
    rw [← ho, h4]
    exact (order_bound (h1 ▸ h2) _).2.2
  have hsq : p + 1 ≤ (p + 1) ^ 2 := Nat.le_self_pow (by omega) _
  by_cases hbig : n < 2 ^ 63
  · have hsub : ∀ q ∈ rs, q ∈ qs := fun q hq => by rw [hqs]; exact List.mem_append_left _ hq
    have h1 : rs.prod ∣ p + 1 := by
      refine primes_dvd ?_ (fun q hq => ((hlist.2 q).1 (hsub q hq)).1) fun q hq => ?_
      · have := hlist.1
        rw [hqs] at this
        exact (List.pairwise_append.1 this).1
      · have hm := ((hlist.2 q).1 (hsub q hq)).2.2
        exact hdvd q (hsub q hq) (by omega)
    have := Nat.le_of_dvd (by omega) h1
    omega
  · have h1 : primorial (2 ^ 62) ∣ p + 1 := by
      refine Finset.prod_primes_dvd _ (fun q hq => (Finset.mem_filter.1 hq).2.prime) fun q hq => ?_
      obtain ⟨k1, k2⟩ := Finset.mem_filter.1 hq
      have k1 := Finset.mem_range.1 k1
      exact hdvd q ((hlist.2 q).2 ⟨k2, k2.two_le, by omega⟩) (by omega)
    have := Nat.le_of_dvd (by omega) h1
    have := order_small hb hle
    omega

theorem loop_more {σ : Type} (S : Engine.Setup σ) (start stop : Nat) (retry : Int) (k : Nat) : ∀ (n : Nat) (st : Engine.St σ) (r : Int × Engine.St σ),
    Engine.loop S start stop retry n st = some r → Engine.loop S start stop retry (n + k) st = some r := by
  intro n
  induction n with
  | zero =>
    intro st r h
    unfold Engine.loop at h
    split at h
    · cases h
    · rename_i hs
      rw [Nat.zero_add]
      cases k with
      | zero => unfold Engine.loop; rw [if_neg hs]; exact h
      | succ k => unfold Engine.loop; rw [if_neg hs]; exact h
  | succ n ih =>
    intro st r h
    rw [Nat.succ_add]
    unfold Engine.loop at h ⊢
    split at h
    · rename_i hs
      rw [if_pos hs]
      revert h
      cases Engine.step S start retry st with
      | inl st' => exact fun h => ih st' r h
      | inr st' => exact fun h => h
    · rename_i hs
      rw [if_neg hs]
      exact h

/-- the result of a search does not depend on the number of rounds that are allowed -/
theorem phase_unique {P : Pari} {bits : Nat} {S : Cli.Setup} {primes : List Nat} {start stop : Nat} {retry : Int} {f1 f2 : Nat} {w : W} {x y : Int × W}
    (h1 : phase P bits S primes start stop retry f1 w = .done x) (h2 : phase P bits S primes start stop retry f2 w = .done y) : x = y := by
  unfold phase Engine.genRetry at h1 h2
  by_cases e1 : start = stop
  · rw [if_pos e1] at h1 h2
    exact Res.done.inj (h1.symm.trans h2)
  by_cases e2 : start > stop
  · rw [if_neg e1, if_pos e2] at h1 h2
    exact Res.done.inj (h1.symm.trans h2)
  rw [if_neg e1, if_neg e2] at h1 h2
  cases h3 : Engine.loop (setup P bits S primes) start stop retry f1 (Engine.init start w) with
  | none => rw [h3] at h1; cases h1
  | some r =>
    cases h4 : Engine.loop (setup P bits S primes) start stop retry f2 (Engine.init start w) with
    | none => rw [h4] at h2; cases h2
    | some r' =>
      have h5 := loop_more _ _ _ _ f2 _ _ _ h3
      have h6 := loop_more _ _ _ _ f1 _ _ _ h4
      rw [Nat.add_comm, h6] at h5
      cases h5
      rw [h3] at h1
      rw [h4] at h2
      exact Res.done.inj (h1.symm.trans h2)

theorem save_head (primes : List Nat) (o : Nat) (v : Output.Curve) : ∀ (i : Nat) (st : St), ∃ l, (save primes o v i st).out = st.out ++ l := by
  intro i
  induction i with
  | zero => exact fun st => ⟨[], (List.append_nil _).symm⟩
  | succ i ih =>
    intro st
    unfold save
    obtain ⟨l, h⟩ := ih (if wanted primes st.got o i then
        { st with
          got := fun j => if j = i then true else st.got j
          count := st.count + 1
          out := st.out ++ .obj v :: (if st.count ≠ primes.length - 1 then [.comma] else []) }
      else st)
    rw [h]
    by_cases hw : wanted primes st.got o i = true
    · rw [if_pos hw]
      exact ⟨_, List.append_assoc _ _ _⟩
    · rw [if_neg hw]
      exact ⟨_, rfl⟩

theorem round_head (P : Pari) (c : Config) (primes : List Nat) (f : Fld) (a : Elt) (fuel : Nat) (st st' : St)
    (h : round P c primes f a fuel st = .done st') : ∃ l, st'.out = st.out ++ l := by
  unfold round at h
  split at h
  · cases h
  · cases h
  · split at h
    · cases h
    · split at h
      · split at h
        · cases h
        · cases h
        · split at h
          · cases h; exact ⟨[], (List.append_nil _).symm⟩
          · split at h
            · cases h
            · cases h
            · split at h
              · cases h; exact save_head _ _ _ _ _
              · cases h
      · cases h; exact ⟨[], (List.append_nil _).symm⟩

theorem search_head (P : Pari) (c : Config) (primes : List Nat) (f : Fld) (a : Elt) (fuel : Nat) : ∀ (k : Nat) (st st' : St),
    search P c primes f a fuel k st = .done st' → ∃ l, st'.out = st.out ++ l := by
  intro k
  induction k with
  | zero =>
    intro st st' h
    unfold search at h
    split at h
    · cases h
    · cases h; exact ⟨[], (List.append_nil _).symm⟩
  | succ k ih =>
    intro st st' h
    unfold search at h
    split at h
    · split at h
      · cases h
      · cases h
      · rename_i st1 h1
        obtain ⟨l1, e1⟩ := round_head _ _ _ _ _ _ _ _ h1
        obtain ⟨l2, e2⟩ := ih _ _ h
        exact ⟨l1 ++ l2, by rw [e2, e1, List.append_assoc]⟩
    · cases h; exact ⟨[], (List.append_nil _).symm⟩

/-- **C93** A run without a selection of primes whose first part finds `y² = x³ + b` over a prime field with `p ≡ 2 mod 3` never ends with the status 0: all
curves with this first coefficient have `p + 1` points, which not all of the primes divide. -/
theorem invalid_run_zero (P : Pari) (hP : P.Ok) (np : Nat → Nat) (hnp : Invalid.NextSpec np) (c : Config) (hr : c.invalidPrimes = none) (hb : c.bits < 2 ^ 59)
    (w w' : W) (hT : TapeOk (original c) w.tape) (hu : w.ub = false) (f0 : Nat) (h0 : phase P c.bits (originalSetup c) [] 1 7 0 f0 { w with cur := {} } = .done (1, w'))
    (v : Output.Curve) (hv : outCurve w'.cur = some v) (p : Nat) (ha : (curveV v).a = 0) (hf : (curveV v).field = .prime p) (h3 : p % 3 = 2)
    (fuel : Nat) (ts : List (Tok Output.Curve)) : produce P np c fuel w ≠ .done (ts, 0) := by
  intro h
  obtain ⟨v0, hv0, hn⟩ := run_end_zero P hP np hnp c hr hb fuel w hT hu ts h
  apply hn
  have : v0 = v := by
    unfold produce at h
    split at h
    · cases h
    · cases h
    · rename_i r w1 h1
      cases phase_unique h0 h1
      rw [if_neg (by decide)] at h
      split at h
      · rename_i v' o f a k1 k2 k3 k4
        rw [hv] at k1
        cases k1
        split at h
        · cases h
        · split at h
          · cases h
          · split at h
            · cases h
            · cases h
            · rename_i st hst
              cases h
              obtain ⟨l, e⟩ := search_head _ _ _ _ _ _ _ _ _ hst
              rw [e] at hv0
              simpa using hv0
      · cases h
  subst this
  exact ⟨ha, p, hf, h3⟩

end Ecgen.InvalidRun
