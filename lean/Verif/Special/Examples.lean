import Verif.Special.Props
import Verif.Whole.Examples

/-!
# Runs (C81, C82, C83)

`--anomalous` with 7 bits finds a curve over the field of 41 elements; `--supersingular` with the typed prime 13 finds one through the root 5 of the
class polynomial of -7; `--family=bn` with the parameter -1 finds `y² = x³ + 2` over the field of 19 elements, after it has tried `y² = x³ + 1`.
-/

namespace Ecgen.Special

open Whole Output Output.Spec Cli
open Seeded (Fp)

/-! ## Runs with and without failures -/

/-- a round of the search -/
def Move {σ : Type} (S : Engine.Setup σ) (u v : Nat × σ) : Prop :=
  (Engine.Spec.Succeeds S u.1 u.2 1 v.2 ∧ v.1 = u.1 + 1) ∨
  ∃ d w1, S.gen u.1 u.2 = (w1, .ret d) ∧ d ≤ 0 ∧ d ≠ Engine.INT_MIN ∧ (u.1 : Int) + d = v.1 ∧ v.2 = Engine.Spec.cleaned S v.1 u.1 w1

open Engine Engine.Spec in
theorem step_move {σ : Type} (S : Engine.Setup σ) (st : Engine.St σ) (v : Nat × σ) (h : Move S (st.state, st.w) v) :
    ∃ st', step S 0 0 st = .inl st' ∧ st'.state = v.1 ∧ st'.w = v.2 := by
  rcases h with ⟨h1, h2⟩ | ⟨d, w1, h1, h2, h3, h4, h5⟩
  · obtain ⟨st', e1, e2, e3⟩ := step_succeeds S st _ h1
    exact ⟨st', e1, e2.trans h2.symm, e3⟩
  · simp only at h1 h4 h5
    have he : execStage S 0 st.state st.w st.log = (w1, d, Ev.gen st.state (.ret d) :: st.log) := by
      unfold execStage
      rw [h1]
      simp only
      rw [if_neg (by omega)]
    unfold step
    simp only [he]
    have hne : ¬ (d = INT_MIN ∨ (st.state : Int) + d < 0) := by
      rintro (h | h)
      · exact h3 h
      · omega
    rw [if_pos h2, if_neg hne, if_neg (by simp)]
    refine ⟨_, rfl, ?_, ?_⟩
    · simp only; omega
    · simp only
      rw [unrollLoop_world, h5]
      congr 1
      omega

open Engine in
theorem loop_chain {σ : Type} (S : Engine.Setup σ) (n : Nat) : ∀ (cfg : Nat → Nat × σ), (∀ i, i < n → (cfg i).1 < 9 ∧ Move S (cfg i) (cfg (i + 1))) →
    (cfg n).1 = 9 → ∀ st : Engine.St σ, st.state = (cfg 0).1 → st.w = (cfg 0).2 → ∃ st', loop S 0 9 0 n st = some (1, st') ∧ st'.w = (cfg n).2 := by
  induction n with
  | zero =>
    intro cfg _ h9 st hs hw
    refine ⟨st, ?_, hw⟩
    unfold loop
    rw [if_neg (by omega)]
  | succ n ih =>
    intro cfg h h9 st hs hw
    obtain ⟨h1, h2⟩ := h 0 (by omega)
    obtain ⟨st', e1, e2, e3⟩ := step_move S st (cfg 1) (by rw [hs, hw]; exact h2)
    unfold loop
    rw [if_pos (by omega), e1]
    exact ih (fun i => cfg (i + 1)) (fun i hi => h (i + 1) (by omega)) h9 st' e2 e3

/-- every call is the same -/
def world (p : Pick) (x : St) (i : Nat) : W := ⟨x, fun _ => p, i, false⟩

theorem move_ok (P : Pari) (c : Config) (p : Pick) (hcut : p.cut = none) (hfail : ∀ s, p.fail s = none) (s : Nat) (x x' : St)
    (hact : act P c p s x = some (x', 1)) (hacc : ∀ k ∈ checksOf c s, k ≠ .hexParam ∧ verdict x' k = some 1) (i : Nat) :
    Move (setup P c) (s, world p x i) (s + 1, world p x' (i + 1)) := by
  refine Or.inl ⟨⟨world p x' (i + 1), ?_, by decide, ?_⟩, rfl⟩
  · change gen P c (tables c) s _ = _
    have hp : (world p x i).pick = p := rfl
    simp only [gen, hp, hcut, hfail]
    change done _ (act P c p s x) = _
    rw [hact]
    rfl
  · rw [checks_eq]
    generalize checksOf c s = l at hacc
    induction l with
    | nil => exact .nil _
    | cons k l ih =>
      obtain ⟨h1, h2⟩ := hacc k List.mem_cons_self
      have hck : check (world p x' (i + 1)) k = (world p x' (i + 1), 1) := by
        cases k with
        | hexParam => exact absurd rfl h1
        | _ => simp only [check, world, h2]
      rw [List.map_cons]
      refine .cons ?_ ?_
      · rw [hck]; exact Int.one_pos
      · rw [hck]; exact ih fun k hk => hacc k (List.mem_cons_of_mem _ hk)

theorem move_back (P : Pari) (c : Config) (p : Pick) (hcut : p.cut = none) (hfail : ∀ s, p.fail s = none) (s s' : Nat) (d : Int) (x x' y : St)
    (hact : act P c p s x = some (x', d)) (hd : d ≤ 0) (hm : d ≠ Engine.INT_MIN) (hs : (s : Int) + d = s') (i : Nat)
    (hy : Engine.Spec.cleaned (setup P c) s' s (world p x' (i + 1)) = world p y (i + 1)) :
    Move (setup P c) (s, world p x i) (s', world p y (i + 1)) := by
  refine Or.inr ⟨d, world p x' (i + 1), ?_, hd, hm, hs, hy.symm⟩
  change gen P c (tables c) s _ = _
  have hp : (world p x i).pick = p := rfl
  simp only [gen, hp, hcut, hfail]
  change done _ (act P c p s x) = _
  rw [hact]
  rfl

/-- the search -/
theorem one_chain (P : Pari) (c : Config) (p : Pick) (x0 : St) (hx : x0 = (fresh (world p {} 0)).st) (n : Nat) (cfg : Nat → Nat × St) (h0 : cfg 0 = (0, x0))
    (h9 : (cfg n).1 = 9) (h : ∀ i, i < n → (cfg i).1 < 9 ∧ Move (setup P c) ((cfg i).1, world p (cfg i).2 i) ((cfg (i + 1)).1, world p (cfg (i + 1)).2 (i + 1))) :
    ∃ w', one P c n (world p {} 0) = (outCurve (cfg n).2.cur, w') := by
  obtain ⟨st, h1, h2⟩ := loop_chain (setup P c) n (fun i => ((cfg i).1, world p (cfg i).2 i)) h h9
    (Engine.init 0 (fresh (world p {} 0))) (by simp only [h0]; rfl) (by simp only [h0]; rw [hx]; rfl)
  have hg : Engine.gen (setup P c) 0 9 n (fresh (world p {} 0)) = some (1, st) := by
    unfold Engine.gen Engine.genRetry
    rw [if_neg (by decide), if_neg (by decide)]
    exact h1
  refine ⟨st.w, ?_⟩
  simp only [one, hg]
  rw [if_neg (by decide), h2]
  rfl

theorem generated_one (P : Pari) (c : Config) (n : Nat) (w w' : W) (v : Output.Curve) (h : one P c n w = (some v, w')) :
    Json.generated (one P c n) 1 w = [v] := by
  simp only [Json.generated, h]

/-! ## Groups -/

open AddSubgroup in
/-- an element of the order of the group -/
theorem gens_of_order {A : Type} [AddCommGroup A] [Finite A] (g : A) (h : addOrderOf g = Nat.card A) (h1 : 1 < Nat.card A) : Group.GensSpec A [g] := by
  refine ⟨fun h0 => ?_, fun x => ?_⟩
  · rw [h0, addOrderOf_zero] at h
    omega
  · have : zmultiples g = ⊤ := by
      apply AddSubgroup.eq_top_of_card_eq
      rw [Nat.card_zmultiples, h]
    rw [this]
    trivial

/-- a group whose order is a product of two different primes, or a prime, is cyclic -/
theorem cyclic_two {A : Type} [AddCommGroup A] [Finite A] (p q : Nat) (hp : p.Prime) (hq : q.Prime ∨ q = 1) (hne : p ≠ q) (h : Nat.card A = p * q) :
    ∃ g : A, addOrderOf g = Nat.card A := by
  have : Fact p.Prime := ⟨hp⟩
  obtain ⟨x, hx⟩ := exists_prime_addOrderOf_dvd_card' (G := A) p (by rw [h]; exact Dvd.intro _ rfl)
  rcases hq with hq | rfl
  · have : Fact q.Prime := ⟨hq⟩
    obtain ⟨y, hy⟩ := exists_prime_addOrderOf_dvd_card' (G := A) q (by rw [h]; exact Dvd.intro_left _ rfl)
    refine ⟨x + y, ?_⟩
    rw [(AddCommute.all x y).addOrderOf_add_eq_mul_addOrderOf_of_coprime (by rw [hx, hy]; exact (Nat.coprime_primes hp hq).2 hne), hx, hy, h]
  · exact ⟨x, by rw [hx, h, mul_one]⟩

open Classical in
/-- one generator, if there is one -/
noncomputable def gensOf (E : Crv) : List E.Pt := if h : ∃ g : E.Pt, Group.GensSpec E.Pt [g] then [Classical.choose h] else []

theorem gensOf_spec (E : Crv) (h : ∃ g : E.Pt, addOrderOf g = Nat.card E.Pt) (h1 : 1 < Nat.card E.Pt) :
    ∃ g, gensOf E = [g] ∧ Group.GensSpec E.Pt [g] ∧ addOrderOf g = Nat.card E.Pt := by
  obtain ⟨g, hg⟩ := h
  have hex : ∃ g : E.Pt, Group.GensSpec E.Pt [g] := ⟨g, gens_of_order g hg h1⟩
  refine ⟨Classical.choose hex, ?_, Classical.choose_spec hex, ?_⟩
  · unfold gensOf
    rw [dif_pos hex]
  · exact addOrderOf_eq_card_of_forall_mem_zmultiples (Classical.choose_spec hex).2

/-! ## PARI and the user -/

/-- functions as PARI promises them, as far as they are needed -/
noncomputable def pari : Pari where
  toPari := Whole.pari
  nextprime n := Nat.find (Nat.exists_infinite_primes n)
  roots n q := if n = 7 ∧ q = 13 then [5] else []

theorem pari_ok : pari.toPari.Ok := Whole.pari_ok

/-- every call: no failures, the field `f`, the parameter `z`, the random numbers `b` and `k` -/
noncomputable def pick (f : Fld) (z b : Int) (k : Nat) : Pick :=
  { cut := none, fail := fun _ => none, seed := ⟨[], false, 0, 0⟩, randomField := f, typedField := f, elt := fun _ => .int 0,
    sea := fun E => Nat.card E.Pt, gens := gensOf, which := fun _ _ => 0, mul := fun _ _ _ => 1, mul0 := 1, info := [], verdict := none,
    left := (none, none, none), z := z, bs := fun _ => b, cs := fun _ _ => k, cm := (0, 0), fuel := 9, address := 0 }

theorem pick_behaves (c : Config) (f : Fld) (z b : Int) (k : Nat) (h1 : c.method = METHOD_SUPERSINGULAR → FieldAsked c f.1 ∧ FieldAsked { c with random := 0 } f.1)
    (h2 : c.method = METHOD_ANOMALOUS → ∃ lo hi, Cm.Bounds 163 c.bits lo hi ∧ lo ≤ b ∧ b ≤ hi) : (pick f z b k).Ok c where
  cut x h := by cases h
  fail s d h := by cases h
  randomField h := (h1 h).1
  typedField h := (h1 h).2
  bs h := by
    obtain ⟨lo, hi, e1, e2⟩ := h2 h
    exact ⟨lo, hi, e1, fun _ => e2⟩
  which n i h := h
  mul o i j h := ⟨Nat.le_refl 1, by simp only [pick]; omega⟩
  info := ⟨fun x h => (nomatch h), List.nodup_nil⟩
  verdict d h := by cases h

/-- the rest of the run is the same for all: the stages after the order, without points and metadata -/
theorem tail_act (c : Config) (h : Covered c) (hp : c.pointsType = .none) (hm : c.metadata = false) (p : Pick) (hpg : p.gens = gensOf)
    (x : St) (E : Crv) (n : Nat) (hE : x.cur.crv = some E) (ho : x.cur.order = some n) (g : E.Pt) (hg : gensOf E = [g]) :
    act pari c p 6 x = some ({ x with cur := { x.cur with gens := some ⟨E, [⟨⟨g, addOrderOf g, n / addOrderOf g⟩, []⟩]⟩ } }, 1) ∧
    (∀ y, act pari c p 7 y = some (y, 1)) ∧ ∀ y, act pari c p 8 y = some (y, 1) := by
  obtain ⟨-, -, t1, t2, -, t3⟩ := table_common c h
  have hc : pointsChoice c = .skip := by simp only [pointsChoice, hp]
  rw [hc] at t2
  rw [hm, if_neg (by decide)] at t3
  refine ⟨?_, fun y => ?_, fun y => ?_⟩
  · cases hv : (view c).unique <;> rw [hv] at t1 <;>
      simp only [Bool.false_eq_true, if_false, if_true, act, stageOf, t1, Option.bind_some, id, call, Whole.call, hE, ho, gensStage, Option.map_some, hpg, hg,
        found, Group.gensOne, Group.gensAny, List.map_cons, List.map_nil, Group.gensPoint, bare] <;> rfl
  · simp only [act, stageOf, t2, Option.bind_some, id, call, Whole.call, Option.map_some]
  · simp only [act, stageOf, t3, Option.bind_some, id, call, Whole.call, Option.map_some]

/-- the checks of the runs -/
theorem accepted (c : Config) (h : Covered c) (hh : c.hexCheck = none) (s : Nat) (x : St) (hd : s = 4 → ∃ E, x.cur.crv = some E ∧ E.eqn.Δ ≠ 0) (k : Check)
    (hk : k ∈ checksOf c s) : k ≠ .hexParam ∧ verdict x k = some 1 := by
  rw [table_checks c h] at hk
  split at hk
  · obtain ⟨E, h1, h2⟩ := hd (by assumption)
    rw [List.mem_singleton] at hk
    subst hk
    refine ⟨by decide, ?_⟩
    simp only [verdict, h1, Option.map_some]
    rw [if_neg h2]
  · rw [if_neg (by rw [hh]; simp)] at hk
    cases hk

/-- what is printed -/
def printed (sd : Option Bits.Bits) (q a b n x y : Nat) : Output.Curve :=
  ⟨sd, .prime q, .intmod a q, .intmod b q, n, [⟨⟨.intmod x q, .intmod y q, n, some 1⟩, []⟩], []⟩

/-- the equation, on numbers -/
def On (q a b u v : Nat) : Prop := (v * v) % q = (u * u * u + a * u + b) % q

theorem on_of (q : Nat) (hq : q.Prime) (a b : Nat) (u v : Carrier (Fp q hq)) (h : (obj q hq a b).eqn.Equation u v) :
    On q a b (num (Fp q hq) u) (num (Fp q hq) v) := by
  have : Fact q.Prime := ⟨hq⟩
  have hv : ((num (Fp q hq) v : Nat) : ZMod q) = v := elem_num (Fp q hq) v
  have hu : ((num (Fp q hq) u : Nat) : ZMod q) = u := elem_num (Fp q hq) u
  have h' : (Invalid.primeCurve ((a : Nat) : ZMod q) ((b : Nat) : ZMod q)).Equation u v := by rw [← eqn_obj q hq a b]; exact h
  replace h' := (WeierstrassCurve.Affine.equation_iff (W := Invalid.primeCurve ((a : Nat) : ZMod q) ((b : Nat) : ZMod q)) u v).1 h'
  unfold On
  rw [← Nat.ModEq, ← ZMod.natCast_eq_natCast_iff]
  push_cast
  rw [← hv, ← hu] at h'
  simp only [Invalid.primeCurve] at h'
  generalize ((num (Fp q hq) u : Nat) : ZMod q) = s at h' ⊢
  generalize ((num (Fp q hq) v : Nat) : ZMod q) = t at h' ⊢
  linear_combination h'

/-- what is printed of the curve and a generator of its group -/
theorem out_printed (x : Cur) (q : Nat) (hq : q.Prime) (a b n : Nat) (g : (obj q hq a b).Pt) (hn : 1 < n) (hg : addOrderOf g = n)
    (h1 : x.field = some (Fp q hq)) (h2 : x.a = some (.intmod a q)) (h3 : x.b = some (.intmod b q)) (h4 : x.order = some n) (h5 : x.info = [])
    (h6 : x.gens = some ⟨obj q hq a b, [⟨⟨g, addOrderOf g, n / addOrderOf g⟩, []⟩]⟩) :
    ∃ u v, u < q ∧ v < q ∧ On q a b u v ∧ outCurve x = some (printed x.seed q a b n u v) := by
  cases g with
  | zero =>
    have : addOrderOf (0 : (obj q hq a b).Pt) = n := hg
    rw [addOrderOf_zero] at this
    omega
  | some u v hns =>
    refine ⟨num (Fp q hq) u, num (Fp q hq) v, num_lt (Fp q hq) u, num_lt (Fp q hq) v, on_of q hq a b u v hns.1, ?_⟩
    have e : ∀ u, ielement (out (Fp q hq).1) (num (Fp q hq) u) = some (.intmod (num (Fp q hq) u) q) := by
      intro u
      change some (Elt.intmod (num (Fp q hq) u % q) q) = _
      rw [Nat.mod_eq_of_lt (show num (Fp q hq) u < q from num_lt (Fp q hq) u)]
    rw [hg, Nat.div_self (by omega)] at h6
    simp only [outCurve, h1, h2, h3, h4, h5, h6, List.map_cons, List.map_nil, outSub, outPoint, e, Option.bind_some, allSome, Option.map_some]
    rfl

/-- a run that has come to the generators ends -/
theorem ends (c : Config) (h : Covered c) (hp : c.pointsType = .none) (hm : c.metadata = false) (hh : c.hexCheck = none)
    (f : Fld) (z r : Int) (k : Nat) (q : Nat) (hq : q.Prime) (a b n : Nat) (hcyc : ∃ g : (obj q hq a b).Pt, addOrderOf g = Nat.card (obj q hq a b).Pt)
    (hn : Nat.card (obj q hq a b).Pt = n) (hn1 : 1 < n) (m : Nat) (cfg : Nat → Nat × St) (h0 : cfg 0 = (0, (fresh (world (pick f z r k) {} 0)).st))
    (x : St) (h6 : cfg m = (6, x))
    (hmv : ∀ i, i < m → (cfg i).1 < 9 ∧ Move (setup pari c) ((cfg i).1, world (pick f z r k) (cfg i).2 i) ((cfg (i + 1)).1, world (pick f z r k) (cfg (i + 1)).2 (i + 1)))
    (h1 : x.cur.field = some (Fp q hq)) (h2 : x.cur.a = some (.intmod a q)) (h3 : x.cur.b = some (.intmod b q)) (h4 : x.cur.order = some n) (h5 : x.cur.info = [])
    (h7 : x.cur.crv = some (obj q hq a b)) :
    ∃ u v, u < q ∧ v < q ∧ On q a b u v ∧ ∃ w', one pari c (m + 3) (world (pick f z r k) {} 0) = (some (printed x.cur.seed q a b n u v), w') := by
  obtain ⟨g, e1, -, e2⟩ := gensOf_spec (obj q hq a b) hcyc (by omega)
  rw [hn] at e2
  let y : St := { x with cur := { x.cur with gens := some ⟨obj q hq a b, [⟨⟨g, addOrderOf g, n / addOrderOf g⟩, []⟩]⟩ } }
  obtain ⟨t6, t7, t8⟩ := tail_act c h hp hm (pick f z r k) rfl x (obj q hq a b) n h7 h4 g e1
  let cfg' : Nat → Nat × St := fun i => if i ≤ m then cfg i else (6 + (i - m), y)
  have hc : ∀ i, m < i → cfg' i = (6 + (i - m), y) := fun i hi => if_neg (by omega)
  have hc' : ∀ i, i ≤ m → cfg' i = cfg i := fun i hi => if_pos hi
  obtain ⟨w', hw⟩ := one_chain pari c (pick f z r k) _ rfl (m + 3) cfg' (by rw [hc' 0 (by omega)]; exact h0) (by rw [hc _ (by omega)]; simp) (by
    intro i hi
    by_cases hlt : i < m
    · rw [hc' i (by omega), hc' (i + 1) (by omega)]
      exact hmv i hlt
    · have acc : ∀ s, s ≠ 4 → ∀ k ∈ checksOf c s, k ≠ .hexParam ∧ verdict y k = some 1 := fun s hs k hk => accepted c h hh s y (fun e => absurd e hs) k hk
      rcases (show i = m ∨ i = m + 1 ∨ i = m + 2 by omega) with rfl | rfl | rfl
      · rw [hc' i (by omega), hc (i + 1) (by omega), h6, show 6 + (i + 1 - i) = 6 + 1 by omega]
        exact ⟨(by decide : 6 < 9), move_ok pari c _ rfl (fun _ => rfl) 6 x y t6 (acc 6 (by decide)) i⟩
      · rw [hc (m + 1) (by omega), hc (m + 1 + 1) (by omega), show 6 + (m + 1 - m) = 7 by omega, show 6 + (m + 1 + 1 - m) = 7 + 1 by omega]
        exact ⟨(by decide : 7 < 9), move_ok pari c _ rfl (fun _ => rfl) 7 y y (t7 y) (acc 7 (by decide)) _⟩
      · rw [hc (m + 2) (by omega), hc (m + 2 + 1) (by omega), show 6 + (m + 2 - m) = 8 by omega, show 6 + (m + 2 + 1 - m) = 8 + 1 by omega]
        exact ⟨(by decide : 8 < 9), move_ok pari c _ rfl (fun _ => rfl) 8 y y (t8 y) (acc 8 (by decide)) _⟩)
  obtain ⟨u, v, hu', hv', hon, ho⟩ := out_printed y.cur q hq a b n g hn1 e2 h1 h2 h3 h4 h5 rfl
  refine ⟨u, v, hu', hv', hon, w', ?_⟩
  rw [hw, hc _ (by omega)]
  exact congrArg (·, w') ho

/-- such a run has the status 0 and prints a short text -/
theorem met (c : Config) (hcount : toSize c.count = 1) (fuel : Nat) (w : W) (sd : Option Bits.Bits) (q a b n : Nat)
    (hr : ∃ u v, u < q ∧ v < q ∧ On q a b u v ∧ ∃ w', one pari c fuel w = (some (printed sd q a b n u v), w'))
    (hs : ∀ u v : Fin q, (v.1 * v.1) % q = (u.1 * u.1 * u.1 + a * u.1 + b) % q → short c.hexDigits (printed sd q a b n u v) = true) :
    (produce pari c fuel w).2 = 0 ∧ ∀ v ∈ Json.generated (one pari c fuel) (toSize c.count) w, ∀ j, Parson.outputJjson c.hexDigits v = .ok j →
      (Parson.render true 0 j).length ≤ 2147483646 := by
  obtain ⟨u, v, hu, hv, hon, w', hw⟩ := hr
  have hgen := generated_one _ _ _ _ _ _ hw
  refine ⟨?_, ?_⟩
  · rw [produce, (Json.generate_objects _ _ _).2, hcount, hgen]
    rfl
  · rw [hcount, hgen]
    intro y hy
    rw [List.mem_singleton] at hy
    subst hy
    exact short_spec (hs ⟨u, hu⟩ ⟨v, hv⟩ hon)

/-! ## Anomalous curves -/

theorem p41 : Nat.Prime 41 := by norm_num

/-- `--fp --anomalous --random --points=none 7` -/
def cA : Config := (commandLine 5 [.fp, .anomalous, .random none, .points "none".toList, .arg "7".toList]).get (by decide +kernel)

theorem cA_some : commandLine 5 [.fp, .anomalous, .random none, .points "none".toList, .arg "7".toList] = some cA := (Option.some_get _).symm

theorem cA_method : cA.method = METHOD_ANOMALOUS := by decide +kernel

theorem cA_covered : Covered cA := covered _ _ _ cA_some (Or.inl cA_method)

abbrev EA : Crv := obj 41 p41 13 36

instance : Fact (Nat.Prime 41) := ⟨p41⟩

theorem EA_delta : EA.eqn.Δ ≠ 0 := by
  rw [ne_eq, disc_iff]
  decide +kernel

theorem EA_card : Nat.card EA.Pt = 41 := by
  rw [(card_obj 41 p41 13 36 EA_delta).2]
  decide +kernel

noncomputable def pickA : Pick := pick (Fp 41 p41) 1 0 1

theorem drawnA (q : Nat) (h : Drawn pari cA (fun _ => pickA) q) : q = 41 := by
  obtain ⟨i, n, e⟩ := h.1 cA_method
  have : Cm.anomalousP 163 0 = 41 := by decide
  rw [show (pickA.bs n) = 0 from rfl, this] at e
  exact_mod_cast e

theorem tapeA : TapeOk pari cA fun _ => pickA where
  picks _ := pick_behaves cA _ _ _ _ (fun h => absurd (cA_method ▸ h) (by decide)) fun _ => ⟨0, 0,
    ⟨by decide, by decide +kernel, fun b h1 h2 => by omega, by decide +kernel, fun b hb => by
      have : ((2 : Int) ^ cA.bits - ((163 : Int) + 1).tdiv 4).tdiv 163 = 0 := by decide +kernel
      rw [this]
      nlinarith⟩, by decide, by decide⟩
  gens i q hq a b h1 h2 h3 := by
    have e := drawnA q h1
    subst e
    have h4 : Nat.card (obj 41 hq a b).Pt = 41 := h3.1 cA_method
    obtain ⟨g, e1, e2, -⟩ := gensOf_spec (obj 41 hq a b) (cyclic_two 41 1 p41 (Or.inr rfl) (by decide) (by rw [h4])) (by rw [h4]; decide)
    change Group.GensSpec _ (gensOf _)
    rw [e1]
    exact e2

theorem grossA : Gross pari cA fun _ => pickA := by
  intro q hq h
  have e := drawnA q h
  subst e
  have : Count.card (-34790720 : ZMod 41) 78984748304 = 41 + 2 := by decide +kernel
  exact this

/-- the states of the run -/
noncomputable def courseA : Nat → St
  | 0 | 1 => {}
  | 2 | 3 => { cur := { field := some (Fp 41 p41) } }
  | 4 => { cur := { field := some (Fp 41 p41), a := some (.intmod 13 41), b := some (.intmod 36 41) } }
  | 5 => { cur := { field := some (Fp 41 p41), a := some (.intmod 13 41), b := some (.intmod 36 41), crv := some EA } }
  | _ => { cur := { field := some (Fp 41 p41), a := some (.intmod 13 41), b := some (.intmod 36 41), crv := some EA, order := some 41 } }

theorem courseA_act : ∀ s, s < 6 → act pari cA pickA s (courseA s) = some (courseA (s + 1), 1) := by
  obtain ⟨-, t0, t1, t3, t5, g1, g3⟩ : _ := (table cA cA_covered).resolve_right (by rintro (h | h) <;> exact absurd (cA_method ▸ h.1) (by decide))
  obtain ⟨t2, t4, -⟩ := table_common cA cA_covered
  intro s hs
  match s, hs with
  | 0, _ => simp only [act, stageOf, t0, Option.bind_some, id, call, Whole.call, Option.map_some, courseA]
  | 1, _ =>
    have hd : anomalousDraw pari pickA ⟨163, (-640320) ^ 3, 3717878010⟩ ⟨11, (-32) ^ 3, 21⟩ = some 41 := by
      have e : ∀ n, pickA.bs n = 0 := fun _ => rfl
      have e2 : Cm.anomalousP 163 0 = 41 := by decide
      have e3 : pari.isprimeI 41 = true := (isprimeI_spec pari pari_ok 41).2 ⟨by decide, p41⟩
      have e4 : jacobiSym 21 41 = 1 := by norm_num
      unfold anomalousDraw
      simp only [e, e2, e3, show Int.toNat 41 = 41 from rfl, e4]
      rfl
    simp only [act, stageOf, t1, g1, Option.bind_some, id, call, anomalousField, row_three, row_zero, hd, setPrime_spec _ _ p41, courseA]
  | 2, _ => simp only [act, stageOf, t2, Option.bind_some, id, call, Whole.call, Option.map_some, courseA]
  | 3, _ =>
    have e1 : jacobiSym 3717878010 41 = -1 := by norm_num
    have e2 : ∀ n, pickA.cs 41 n = 1 := fun _ => rfl
    have e3 : Cm.anomalousNull 3717878010 41 = false := by unfold Cm.anomalousNull; simp [e1]
    have e4 : anomalousAB 41 p41 ((-640320) ^ 3) 1 = some (13, 36) := by
      have : (((1728 - (-640320) ^ 3 : Int) : ZMod 41)) ≠ 0 := by decide +kernel
      unfold anomalousAB
      rw [if_neg this]
      have e5 : (Cm.anomalousCoeffs ((((-640320) ^ 3 : Int) : Int) : ZMod 41) ((1 : Nat) : ZMod 41)) = (13, 36) := by
        decide +kernel
      rw [e5]
      rfl
    have e6 : ((List.range pickA.fuel).find? fun n => decide (jacobiSym (pickA.cs 41 n) 41 = -jacobiSym 3717878010 41)) = some 0 := by
      have e7 : jacobiSym ((1 : Nat) : Int) 41 = 1 := by norm_num
      simp only [e1, e2, e7]
      rfl
    simp only [act, stageOf, t3, g3, Option.bind_some, id, call]
    rw [withPrime_spec (hq := p41) rfl]
    simp only [anomalousEquation, row_three, Option.bind_some, e3, e6]
    rw [e2, e4]
    rfl
  | 4, _ => simp only [act, stageOf, t4, Option.bind_some, id, call, Whole.call, Option.map_some, courseA]
  | 5, _ =>
    simp only [act, stageOf, t5, Option.bind_some, id, call]
    rw [withPrime_spec (hq := p41) rfl]
    rfl

theorem runA : ∃ u v, u < 41 ∧ v < 41 ∧ On 41 13 36 u v ∧ ∃ w', one pari cA 9 (world pickA {} 0) = (some (printed none 41 13 36 41 u v), w') :=
  ends cA cA_covered (by decide +kernel) (by decide +kernel) (by decide +kernel) _ _ _ _ 41 p41 13 36 41
    (cyclic_two 41 1 p41 (Or.inr rfl) (by decide) (by rw [EA_card])) EA_card (by decide) 6 (fun i => (i, courseA i)) rfl (courseA 6) rfl
    (fun i hi => ⟨by simp only; omega, move_ok pari cA _ rfl (fun _ => rfl) i _ _ (courseA_act i hi)
      (fun k hk => accepted cA cA_covered (by decide +kernel) i _ (fun e => by subst e; exact ⟨EA, rfl, EA_delta⟩) k hk) i⟩)
    rfl rfl rfl rfl rfl rfl

/-- **C81, met**: the run of `ecgen --fp --anomalous --random --points=none 7` -/
theorem anomalous_met : ∃ (n : Int) (os : List Opt) (c : Config) (w : W), commandLine n os = some c ∧ c.method = METHOD_ANOMALOUS ∧
    TapeOk pari c w.tape ∧ Gross pari c w.tape ∧ toSize c.count = 1 ∧ (produce pari c 9 w).2 = 0 ∧
    ∀ v ∈ Json.generated (one pari c 9) (toSize c.count) w, ∀ j, Parson.outputJjson c.hexDigits v = .ok j →
      (Parson.render true 0 j).length ≤ 2147483646 :=
  have hcount : toSize cA.count = 1 := by decide +kernel
  ⟨5, _, cA, world pickA {} 0, cA_some, cA_method, tapeA, grossA, hcount, met cA hcount 9 _ _ _ _ _ _ runA (by decide +kernel)⟩

/-! ## Supersingular curves -/

theorem p13 : Nat.Prime 13 := by norm_num

instance : Fact (Nat.Prime 13) := ⟨p13⟩

/-- `--fp --supersingular --points=none 4` -/
def cS : Config := (commandLine 4 [.fp, .supersingular, .points "none".toList, .arg "4".toList]).get (by decide +kernel)

theorem cS_some : commandLine 4 [.fp, .supersingular, .points "none".toList, .arg "4".toList] = some cS := (Option.some_get _).symm

theorem cS_method : cS.method = METHOD_SUPERSINGULAR := by decide +kernel

theorem cS_covered : Covered cS := covered _ _ _ cS_some (Or.inr (Or.inl cS_method))

abbrev ES : Crv := obj 13 p13 9 4

theorem ES_delta : ES.eqn.Δ ≠ 0 := by
  rw [ne_eq, disc_iff]
  decide +kernel

theorem ES_card : Nat.card ES.Pt = 14 := by
  rw [(card_obj 13 p13 9 4 ES_delta).2]
  decide +kernel

noncomputable def pickS : Pick := pick (Fp 13 p13) 1 0 1

theorem drawnS (q : Nat) (h : Drawn pari cS (fun _ => pickS) q) : q = 13 := by
  obtain ⟨i, e | e⟩ := h.2.1 cS_method
  · cases e; rfl
  · cases e; rfl

theorem tapeS : TapeOk pari cS fun _ => pickS where
  picks _ := pick_behaves cS _ _ _ _ (fun _ => ⟨⟨by decide +kernel, by decide +kernel, by decide +kernel⟩, by decide +kernel, by decide +kernel, by decide +kernel⟩)
    (fun h => absurd (cS_method ▸ h) (by decide))
  gens i q hq a b h1 h2 h3 := by
    have e := drawnS q h1
    subst e
    have h4 : Nat.card (obj 13 hq a b).Pt = 14 := h3.2.1 cS_method
    obtain ⟨g, e1, e2, -⟩ := gensOf_spec (obj 13 hq a b) (cyclic_two 2 7 Nat.prime_two (Or.inl (by decide)) (by decide) (by rw [h4])) (by rw [h4]; decide)
    change Group.GensSpec _ (gensOf _)
    rw [e1]
    exact e2

theorem searchS : Cm.superEquation pari.nextprime 13 9 = some (.root 7) := by
  have n4 : pari.nextprime 4 = 5 := (Nat.find_eq_iff _).2 ⟨by decide, by decide⟩
  have n6 : pari.nextprime 6 = 7 := (Nat.find_eq_iff _).2 ⟨by decide, by decide⟩
  have j3 : jacobiSym 13 3 = 1 := by norm_num
  have j7 : jacobiSym 13 7 = -1 := by norm_num
  unfold Cm.superEquation
  simp [Cm.superSearch, n4, n6, j3, j7]

theorem deuringS : Deuring pari cS fun _ => pickS := by
  intro i q n hq h e
  have := drawnS q h
  subst this
  rw [show pickS.fuel = 9 from rfl, searchS] at e
  cases e
  intro j hj
  have : j = 5 := by simpa [pari] using hj
  subst this
  have : ∀ a b : ZMod 13, Cm.HasJ a b ((5 : Nat) : ZMod 13) → Count.card a b = 13 + 1 := by
    unfold Cm.HasJ
    decide +kernel
  exact this

/-- the states of the run -/
noncomputable def courseS : Nat → St
  | 0 | 1 => {}
  | 2 | 3 => { cur := { field := some (Fp 13 p13) } }
  | 4 => { cur := { field := some (Fp 13 p13), a := some (.intmod 9 13), b := some (.intmod 4 13) } }
  | 5 => { cur := { field := some (Fp 13 p13), a := some (.intmod 9 13), b := some (.intmod 4 13), crv := some ES } }
  | _ => { cur := { field := some (Fp 13 p13), a := some (.intmod 9 13), b := some (.intmod 4 13), crv := some ES, order := some 14 } }

theorem courseS_act : ∀ s, s < 6 → act pari cS pickS s (courseS s) = some (courseS (s + 1), 1) := by
  obtain ⟨-, t0, t1, t3, t5⟩ : _ := ((table cS cS_covered).resolve_left (fun h => absurd (cS_method ▸ h.1) (by decide))).resolve_right
    (fun h => absurd (cS_method ▸ h.1) (by decide))
  rw [if_neg (by decide +kernel)] at t1
  obtain ⟨t2, t4, -⟩ := table_common cS cS_covered
  intro s hs
  match s, hs with
  | 0, _ => simp only [act, stageOf, t0, Option.bind_some, id, call, Whole.call, Option.map_some, courseS]
  | 1, _ => simp only [act, stageOf, t1, Option.bind_some, id, call, Whole.call, Option.map_some, courseS]; rfl
  | 2, _ => simp only [act, stageOf, t2, Option.bind_some, id, call, Whole.call, Option.map_some, courseS]
  | 3, _ =>
    have e4 : superAB 13 p13 5 = some (9, 4) := by
      have : (4 * (1728 - ((5 : Nat) : ZMod 13)) : ZMod 13) ≠ 0 := by decide +kernel
      unfold superAB
      rw [if_neg this]
      have e5 : (Cm.superCoeffs ((5 : Nat) : ZMod 13)) = (9, 4) := by decide +kernel
      rw [e5]
      rfl
    have e6 : pari.roots 7 13 = [5] := rfl
    simp only [act, stageOf, t3, Option.bind_some, id, call]
    rw [withPrime_spec (hq := p13) rfl]
    simp only [superEquation, show pickS.fuel = 9 from rfl, searchS, e6, e4]
    rfl
  | 4, _ => simp only [act, stageOf, t4, Option.bind_some, id, call, Whole.call, Option.map_some, courseS]
  | 5, _ =>
    simp only [act, stageOf, t5, Option.bind_some, id, call]
    rw [withPrime_spec (hq := p13) rfl]
    rfl

theorem runS : ∃ u v, u < 13 ∧ v < 13 ∧ On 13 9 4 u v ∧ ∃ w', one pari cS 9 (world pickS {} 0) = (some (printed none 13 9 4 14 u v), w') :=
  ends cS cS_covered (by decide +kernel) (by decide +kernel) (by decide +kernel) _ _ _ _ 13 p13 9 4 14
    (cyclic_two 2 7 Nat.prime_two (Or.inl (by decide)) (by decide) (by rw [ES_card])) ES_card (by decide) 6 (fun i => (i, courseS i)) rfl (courseS 6) rfl
    (fun i hi => ⟨by simp only; omega, move_ok pari cS _ rfl (fun _ => rfl) i _ _ (courseS_act i hi)
      (fun k hk => accepted cS cS_covered (by decide +kernel) i _ (fun e => by subst e; exact ⟨ES, rfl, ES_delta⟩) k hk) i⟩)
    rfl rfl rfl rfl rfl rfl

/-- **C82, met**: the run of `ecgen --fp --supersingular --points=none 4` with the prime 13 -/
theorem supersingular_met : ∃ (n : Int) (os : List Opt) (c : Config) (w : W), commandLine n os = some c ∧ c.method = METHOD_SUPERSINGULAR ∧
    TapeOk pari c w.tape ∧ Deuring pari c w.tape ∧ toSize c.count = 1 ∧ (produce pari c 9 w).2 = 0 ∧
    ∀ v ∈ Json.generated (one pari c 9) (toSize c.count) w, ∀ j, Parson.outputJjson c.hexDigits v = .ok j →
      (Parson.render true 0 j).length ≤ 2147483646 :=
  have hcount : toSize cS.count = 1 := by decide +kernel
  ⟨4, _, cS, world pickS {} 0, cS_some, cS_method, tapeS, deuringS, hcount, met cS hcount 9 _ _ _ _ _ _ runS (by decide +kernel)⟩

/-! ## Families -/

theorem p19 : Nat.Prime 19 := by norm_num

instance : Fact (Nat.Prime 19) := ⟨p19⟩

/-- `--fp --family=bn --points=none 5` -/
def cF : Config := (commandLine 4 [.fp, .family "bn".toList, .points "none".toList, .arg "5".toList]).get (by decide +kernel)

theorem cF_some : commandLine 4 [.fp, .family "bn".toList, .points "none".toList, .arg "5".toList] = some cF := (Option.some_get _).symm

theorem cF_method : cF.method = METHOD_FAMILY := by decide +kernel

theorem cF_covered : Covered cF := covered _ _ _ cF_some (Or.inr (Or.inr cF_method))

theorem cF_family : fam cF.family = .BN := by decide +kernel

abbrev EF (b : Nat) : Crv := obj 19 p19 0 b

theorem EF_delta (b : Nat) (h : b = 1 ∨ b = 2) : (EF b).eqn.Δ ≠ 0 := by
  rw [ne_eq, disc_iff]
  rcases h with rfl | rfl <;> decide +kernel

theorem EF_card1 : Nat.card (EF 1).Pt = 12 := by
  rw [(card_obj 19 p19 0 1 (EF_delta 1 (Or.inl rfl))).2]
  decide +kernel

theorem EF_card2 : Nat.card (EF 2).Pt = 13 := by
  rw [(card_obj 19 p19 0 2 (EF_delta 2 (Or.inr rfl))).2]
  decide +kernel

noncomputable def pickF : Pick := pick (Fp 19 p19) (-1) 0 1

theorem rF : Family.rz .BN (Family.nz .BN ((-1 : Int) : ℚ)) = 13 := by
  simp only [Family.rz, Family.nz]
  norm_num

theorem fieldF : Family.genField pari.isprimeI .BN (-1) = some 19 := by
  refine (Family.genField_some pari.isprimeI (isprimeI_spec pari pari_ok) _ _ _).2 ⟨?_, by decide, p19, 13, rF, by decide, p13⟩
  simp only [Family.pz, Family.nz]
  norm_num

theorem orderF (n : Int) : Family.genOrder .BN (-1) n = if (13 : Int) ∣ n then some n else none := by
  have : Family.asInt (13 : ℚ) = some 13 := rfl
  simp only [Family.genOrder, rF, this]

theorem drawnF (q : Nat) (h : Drawn pari cF (fun _ => pickF) q) : q = 19 := by
  obtain ⟨i, e⟩ := h.2.2 cF_method
  rw [cF_family, show pickF.z = -1 from rfl, fieldF] at e
  have : (19 : Int) = q := Option.some.inj e
  omega

/-- a curve and its twist have 40 points together -/
theorem card_le (hq : Nat.Prime 19) (a b : Nat) (h : (obj 19 hq a b).eqn.Δ ≠ 0) : Nat.card (obj 19 hq a b).Pt ≤ 39 := by
  rw [(card_obj 19 hq a b h).2]
  have h2 : ringChar (ZMod 19) ≠ 2 := by rw [ZMod.ringChar_zmod_n]; decide
  have := Count.card_twist h2 ((a : Nat) : ZMod 19) ((b : Nat) : ZMod 19) (-1) (by decide +kernel)
  rw [ZMod.card] at this
  have h1 : 1 ≤ Count.card (((a : Nat) : ZMod 19) * (-1) ^ 2) (((b : Nat) : ZMod 19) * (-1) ^ 3) := by unfold Count.card; omega
  omega

theorem tapeF : TapeOk pari cF fun _ => pickF where
  picks _ := pick_behaves cF _ _ _ _ (fun h => absurd (cF_method ▸ h) (by decide)) (fun h => absurd (cF_method ▸ h) (by decide))
  gens i q hq a b h1 h2 h3 := by
    have e := drawnF q h1
    subst e
    obtain ⟨j, -, r, e1, e2⟩ := h3.2.2 cF_method
    rw [cF_family, show pickF.z = -1 from rfl, rF] at e1
    have e3 : (13 : Nat) = r := by exact_mod_cast e1
    subst e3
    have hle := card_le hq a b h2
    have hpos : 0 < Nat.card (obj 19 hq a b).Pt := Nat.card_pos
    obtain ⟨k, hk⟩ := e2
    have hk3 : k = 1 ∨ k = 2 ∨ k = 3 := by omega
    have hcyc : ∃ g : (obj 19 hq a b).Pt, addOrderOf g = Nat.card (obj 19 hq a b).Pt :=
      cyclic_two 13 k p13 (by rcases hk3 with rfl | rfl | rfl <;> [exact Or.inr rfl; exact Or.inl Nat.prime_two; exact Or.inl Nat.prime_three]) (by omega) hk
    obtain ⟨g, e1, e2, -⟩ := gensOf_spec (obj 19 hq a b) hcyc (by omega)
    change Group.GensSpec _ (gensOf _)
    rw [e1]
    exact e2

/-- the seed of the parameter -1 -/
theorem seedF : ∃ sd, Bits.fromI (-1) = some sd := by
  obtain ⟨sd, h, -⟩ := Bits.fromI_value (-1)
  exact ⟨sd, h⟩

/-- a state of the run -/
noncomputable abbrev stF (sd : Bits.Bits) (b : Option Nat) (crv : Option Crv) (n : Option Nat) : St :=
  { cur := { seed := some sd, field := some (Fp 19 p19), a := b.map fun _ => .intmod 0 19, b := b.map fun b => .intmod b 19, crv := crv, order := n },
    z := some (-1), sb := b, scb := b.map fun _ => 0 }

/-- the states of the run: the first curve is given up -/
noncomputable def courseF (sd : Bits.Bits) : Nat → Nat × St
  | 0 => (0, {})
  | 1 => (1, { cur := { seed := some sd }, z := some (-1) })
  | 2 => (2, stF sd none none none)
  | 3 => (3, stF sd none none none)
  | 4 => (4, stF sd (some 1) none none)
  | 5 => (5, stF sd (some 1) (some (EF 1)) none)
  | 6 => (3, stF sd (some 1) none none)
  | 7 => (4, stF sd (some 2) none none)
  | 8 => (5, stF sd (some 2) (some (EF 2)) none)
  | _ => (6, stF sd (some 2) (some (EF 2)) (some 13))

theorem courseF_move (sd : Bits.Bits) (hsd : Bits.fromI (-1) = some sd) : ∀ i, i < 9 → (courseF sd i).1 < 9 ∧
    Move (setup pari cF) ((courseF sd i).1, world pickF (courseF sd i).2 i) ((courseF sd (i + 1)).1, world pickF (courseF sd (i + 1)).2 (i + 1)) := by
  obtain ⟨-, t0, t1, t3, t5⟩ : _ := ((table cF cF_covered).resolve_left (fun h => absurd (cF_method ▸ h.1) (by decide))).resolve_left
    (fun h => absurd (cF_method ▸ h.1) (by decide))
  rw [if_neg (by decide +kernel)] at t0 t3
  obtain ⟨t2, t4, -⟩ := table_common cF cF_covered
  have acc : ∀ s x, (s = 4 → ∃ E, x.cur.crv = some E ∧ E.eqn.Δ ≠ 0) → ∀ k ∈ checksOf cF s, k ≠ .hexParam ∧ verdict x k = some 1 :=
    fun s x h k hk => accepted cF cF_covered (by decide +kernel) s x h k hk
  have hz : pickF.z = -1 := rfl
  have hc1 : pari.card (EF 1) = 12 := (pari_ok.card _ (EF_delta 1 (Or.inl rfl))).trans EF_card1
  have hc2 : pari.card (EF 2) = 13 := (pari_ok.card _ (EF_delta 2 (Or.inr rfl))).trans EF_card2
  intro i hi
  match i, hi with
  | 0, _ =>
    refine ⟨(by decide : 0 < 9), move_ok pari cF _ rfl (fun _ => rfl) 0 _ _ ?_ (acc 0 _ (nomatch ·)) 0⟩
    simp only [act, stageOf, t0, Option.bind_some, id, call, hz, hsd, Option.map_some, courseF]
  | 1, _ =>
    refine ⟨(by decide : 1 < 9), move_ok pari cF _ rfl (fun _ => rfl) 1 _ _ ?_ (acc 1 _ (nomatch ·)) 1⟩
    simp only [act, stageOf, t1, Option.bind_some, id, call, courseF, familyField, cF_family, fieldF, show Int.toNat 19 = 19 from rfl, setPrime_spec _ _ p19]
    rfl
  | 2, _ =>
    refine ⟨(by decide : 2 < 9), move_ok pari cF _ rfl (fun _ => rfl) 2 _ _ ?_ (acc 2 _ (nomatch ·)) 2⟩
    simp only [act, stageOf, t2, Option.bind_some, id, call, Whole.call, Option.map_some, courseF]
  | 3, _ =>
    refine ⟨(by decide : 3 < 9), move_ok pari cF _ rfl (fun _ => rfl) 3 _ _ ?_ (acc 3 _ (nomatch ·)) 3⟩
    simp only [act, stageOf, t3, Option.bind_some, id, call]
    rw [withPrime_spec (hq := p19) rfl]
    rfl
  | 4, _ =>
    refine ⟨(by decide : 4 < 9), move_ok pari cF _ rfl (fun _ => rfl) 4 _ _ ?_ (acc 4 _ fun _ => ⟨_, rfl, EF_delta 1 (Or.inl rfl)⟩) 4⟩
    simp only [act, stageOf, t4, Option.bind_some, id, call, Whole.call, Option.map_some, courseF]
    rfl
  | 5, _ =>
    refine ⟨(by decide : 5 < 9), move_back pari cF _ rfl (fun _ => rfl) 5 3 (-2) _ (courseF sd 5).2 _ ?_ (by decide) (by decide) (by decide) 5 ?_⟩
    · simp only [act, stageOf, t5, Option.bind_some, id, call, courseF, Option.map_some, familyOrder, hc1, cF_family, orderF]
      rw [if_neg (by decide)]
    · rfl
  | 6, _ =>
    refine ⟨(by decide : 3 < 9), move_ok pari cF _ rfl (fun _ => rfl) 3 _ _ ?_ (acc 3 _ (nomatch ·)) 6⟩
    simp only [act, stageOf, t3, Option.bind_some, id, call]
    rw [withPrime_spec (hq := p19) rfl]
    rfl
  | 7, _ =>
    refine ⟨(by decide : 4 < 9), move_ok pari cF _ rfl (fun _ => rfl) 4 _ _ ?_ (acc 4 _ fun _ => ⟨_, rfl, EF_delta 2 (Or.inr rfl)⟩) 7⟩
    simp only [act, stageOf, t4, Option.bind_some, id, call, Whole.call, Option.map_some, courseF]
    rfl
  | 8, _ =>
    refine ⟨(by decide : 5 < 9), move_ok pari cF _ rfl (fun _ => rfl) 5 _ _ ?_ (acc 5 _ (nomatch ·)) 8⟩
    simp only [act, stageOf, t5, Option.bind_some, id, call, courseF, Option.map_some, familyOrder, hc2, cF_family, orderF]
    rfl

theorem runF (sd : Bits.Bits) (hsd : Bits.fromI (-1) = some sd) :
    ∃ u v, u < 19 ∧ v < 19 ∧ On 19 0 2 u v ∧ ∃ w', one pari cF 12 (world pickF {} 0) = (some (printed (some sd) 19 0 2 13 u v), w') :=
  ends cF cF_covered (by decide +kernel) (by decide +kernel) (by decide +kernel) _ _ _ _ 19 p19 0 2 13
    (cyclic_two 13 1 p13 (Or.inr rfl) (by decide) (by rw [EF_card2])) EF_card2 (by decide) 9 (courseF sd) rfl (courseF sd 9).2 rfl
    (courseF_move sd hsd) rfl rfl rfl rfl rfl rfl

/-- **C83, met**: the run of `ecgen --fp --family=bn --points=none 5` with the parameter -1 -/
theorem family_met : ∃ (n : Int) (os : List Opt) (c : Config) (w : W), commandLine n os = some c ∧ c.method = METHOD_FAMILY ∧
    TapeOk pari c w.tape ∧ toSize c.count = 1 ∧ (produce pari c 12 w).2 = 0 ∧
    ∀ v ∈ Json.generated (one pari c 12) (toSize c.count) w, ∀ j, Parson.outputJjson c.hexDigits v = .ok j →
      (Parson.render true 0 j).length ≤ 2147483646 := by
  have hcount : toSize cF.count = 1 := by decide +kernel
  obtain ⟨sd, hsd⟩ := seedF
  have hsd' : sd = (Bits.fromI (-1)).getD ⟨[], false, 0, 0⟩ := by rw [hsd]; rfl
  subst hsd'
  exact ⟨4, _, cF, world pickF {} 0, cF_some, cF_method, tapeF, hcount, met cF hcount 12 _ _ _ _ _ _ (runF _ hsd) (by decide +kernel)⟩

end Ecgen.Special
