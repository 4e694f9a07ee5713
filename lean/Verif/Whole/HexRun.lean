import Verif.Whole.Zero
import Verif.Whole.Alive
import Verif.Output.HexProps

/-!
# C108: with `--hex-check` every printed curve contains the pattern

The search (C75) leaves the verdict of `hex_check_param` open. Here it is that of the function (C51), called with the curve as it is after the points.
-/

namespace Ecgen.Whole
open Ecgen.Cli Ecgen.Cli.Setup Ecgen.Output Ecgen.Output.Spec
open Engine (St Reaches)

/-! ### Specification -/

/-- the pattern, in lower case, occurs in the digits of the seed, the prime, a coefficient, the order, or a coordinate of a point -/
def Contains (c : Config) (pattern : Text) (v : Output.Curve) : Prop := ∃ s ∈ searched c.hexDigits v, Occurs (pattern.map Output.lower) s

/-! ### The verdicts -/

/-- wherever the search from `w` gets to the points, the verdict about the curve is that of `hex_check_param`, hex.c:43-121; nothing is said where joining the texts of the
points is undefined (no generators, or a text of `2^64` characters) -/
def HexRight (P : Pari) (c : Config) (pattern : Text) (w : W) : Prop :=
  ∀ st, Reaches (setup P c) 0 9 0 (Engine.init 0 { w with cur := {} }) st → st.state = 7 → ∀ x d, act P c st.w.pick 7 st.w.cur = some (x, d) →
    ∀ v, outCurve x = some v → ∀ r, hexCheck c.hexDigits pattern v = some r → (st.w.tape (st.w.pos + 1)).verdict.getD 1 = r

/-- what the search knows of the curve after the check -/
def Passed (c : Config) (pattern : Text) (x : Cur) : Prop :=
  ∀ v, outCurve x = some v → ∀ r, hexCheck c.hexDigits pattern v = some r → r = 1

theorem outCurve_info (x : Cur) (i : List (String × Text)) : outCurve { x with info := i } = (outCurve x).map fun v => { v with info := i } := by
  unfold outCurve
  dsimp only
  split <;> simp [Option.map_map, Function.comp_def]

theorem passed_info {c : Config} {pattern : Text} {x : Cur} (h : Passed c pattern x) (i : List (String × Text)) : Passed c pattern { x with info := i } := by
  intro v hv r hr
  rw [outCurve_info, Option.map_eq_some_iff] at hv
  obtain ⟨u, hu, rfl⟩ := hv
  exact h u hu r hr

/-- the metadata are all that the last stage changes -/
theorem act_metadata (P : Pari) (c : Config) (p : Pick) (x x' : Cur) (d : Int) (h : act P c p 8 x = some (x', d)) : ∃ i, x' = { x with info := i } := by
  have htab : (exhaustiveSetup c).gens.metadata = some (if c.metadata then .metadata else .skip) := rfl
  cases hm : c.metadata with
  | true =>
    simp only [act, stageOf, htab, hm, if_true, Option.bind_some, id, call, Option.some.injEq, Prod.mk.injEq] at h
    exact ⟨_, h.1.symm⟩
  | false =>
    simp only [act, stageOf, htab, hm, Bool.false_eq_true, if_false, Option.bind_some, id, call, Option.some.injEq, Prod.mk.injEq] at h
    exact ⟨x.info, h.1.symm⟩

theorem hex_passed (P : Pari) (hP : P.Ok) (c : Config) (h : Covered c) (pattern : Text) (hx : c.hexCheck = some pattern) (w : W) (hT : TapeOk c w.tape)
    (hr : HexRight P c pattern w) (st : St W) (hst : Reaches (setup P c) 0 9 0 (Engine.init 0 { w with cur := {} }) st) :
    st.w.tape = w.tape ∧ (8 ≤ st.state → Passed c pattern st.w.cur) := by
  induction hst with
  | refl => exact ⟨rfl, fun h => absurd h (Nat.not_succ_le_zero 7)⟩
  | next h1 h2 h3 ih =>
    rename_i b b'
    obtain ⟨ht, hp⟩ := ih
    have hi := reached_inv P hP c h w hT b h1
    have hb : Behaves c w.tape b.w := ⟨ht, hT⟩
    rcases Engine.step_cases (setup P c) 0 b (Nat.zero_le _) with ⟨s1, d, w', e1, e2, e3, e4⟩ | ⟨s1, d, w', e1, e2, e0, e3, e4⟩ | ⟨s1, d, w', e1, -⟩
    · rw [h3] at e1
      cases e1
      obtain ⟨rfl, -, hb'⟩ := keep_ok P hP c h w.tape _ _ d w' h2 hi hb e2
      rw [e4]
      refine ⟨hb'.1, fun h8 => ?_⟩
      rw [e3] at h8
      obtain ⟨w1, hg, -, hpass⟩ := e2
      rcases gen_cases P c b.state b.w w1 _ hg with ⟨x, -, -, k⟩ | ⟨d, k1, -, k2⟩ | ⟨x, d, k1, rfl, -⟩ | ⟨-, k⟩
      · cases k
      · cases k2
        have := (failures_spec _ _ ((hb.2.picks b.w.pos).fail b.state 1 (by rw [← hb.1]; exact k1))).1
        omega
      · rw [table_checks P c h.algo] at hpass
        have hs : b.state = 7 ∨ b.state = 8 := by
          simp only [Int.toNat_one] at h8
          omega
        rcases hs with hs | hs
        · rw [if_neg (by omega), if_pos ⟨hs, by rw [hx]; rfl⟩] at hpass
          cases hpass with
          | cons q1 q2 =>
            cases q2
            intro v hv r hrr
            rw [hs] at k1
            have e := hr b h1 hs x d k1 v hv r hrr
            have q1 : 0 < (b.w.tape (b.w.pos + 1)).verdict.getD 1 := q1
            cases hv : (b.w.tape (b.w.pos + 1)).verdict with
            | none => rw [hv] at e; exact e.symm
            | some z =>
              rw [hv] at q1
              have := (hb.2.picks (b.w.pos + 1)).verdict z (hb.1 ▸ hv)
              simp only [Option.getD_some] at q1
              omega
        · rw [if_neg (by omega), if_neg (by omega)] at hpass
          cases hpass
          rw [hs] at k1
          obtain ⟨i, rfl⟩ := act_metadata P c _ _ _ _ k1
          exact passed_info (hp (by omega)) i
      · cases k
    · rw [h3] at e1
      cases e1
      obtain ⟨hb', e5⟩ := keep_fail P hP c h w.tape _ _ d w' h2 hi hb e2
      rcases e5 e0 with ⟨k, hk, e, -⟩ | ⟨rfl, e⟩
      · refine ⟨?_, fun h8 => ?_⟩
        · rw [e4, (cleaned_keeps P c _ _ _).2.2]
          exact hb'.1
        · omega
      · have e' : max ((b.state : Int) + 0).toNat 0 = b.state := by clear * -; omega
        rw [e', cleaned_self] at e4
        rw [e'] at e3
        rw [e4, e, e3]
        exact ⟨hb'.1, hp⟩
    · rw [h3] at e1
      cases e1

/-- the result of a loop that ends well was reached -/
theorem loop_reaches {σ : Type} (S : Engine.Setup σ) (start stop : Nat) (fuel : Nat) : ∀ (st st' : St σ),
    Engine.loop S start stop 0 fuel st = some (1, st') → Reaches S start stop 0 st st' ∧ stop ≤ st'.state := by
  induction fuel with
  | zero =>
    intro st st' h
    simp only [Engine.loop] at h
    split at h
    · cases h
    · cases h
      exact ⟨.refl, by omega⟩
  | succ fuel ih =>
    intro st st' h
    simp only [Engine.loop] at h
    split at h
    · rename_i hlt
      cases hs : Engine.step S start 0 st with
      | inl st1 =>
        rw [hs] at h
        obtain ⟨h1, h2⟩ := ih st1 st' h
        exact ⟨(Reaches.next .refl hlt hs).trans h1, h2⟩
      | inr st1 =>
        rw [hs] at h
        cases h
    · cases h
      exact ⟨.refl, by omega⟩

theorem allSome_length {α : Type} : ∀ (l : List (Option α)) (r : List α), allSome l = some r → r.length = l.length
  | [], r, h => by cases h; rfl
  | none :: _, r, h => by cases h
  | some a :: l, r, h => by
    obtain ⟨r', h1, rfl⟩ := Option.map_eq_some_iff.1 h
    rw [List.length_cons, List.length_cons, allSome_length l r' h1]

/-- **C108, one curve**: what a search gives contains the pattern -/
theorem hex_one (P : Pari) (hP : P.Ok) (c : Config) (h : Covered c) (pattern : Text) (hx : c.hexCheck = some pattern) (hp : Pattern (pattern.map Output.lower)) (w : W)
    (hT : TapeOk c w.tape) (hr : HexRight P c pattern w) (fuel : Nat) (v : Output.Curve) (w' : W) (h1 : one P c fuel w = (some v, w'))
    (hd : (hexCheck c.hexDigits pattern v).isSome) : Contains c pattern v := by
  unfold one at h1
  cases hg : Engine.gen (setup P c) 0 9 fuel { w with cur := {} } with
  | none => rw [hg] at h1; cases h1
  | some r =>
    obtain ⟨r, st⟩ := r
    rw [hg] at h1
    simp only [Prod.mk.injEq] at h1
    obtain ⟨h1, -⟩ := h1
    have hgg := hg
    obtain ⟨-, ⟨rfl, hi⟩ | rfl⟩ := search P hP c h w.tape fuel w ⟨rfl, hT⟩ r st hg
    · rw [if_neg (by decide)] at h1
      unfold Engine.gen Engine.genRetry at hgg
      rw [if_neg (by decide), if_neg (by decide)] at hgg
      obtain ⟨k1, k2⟩ := loop_reaches _ _ _ _ _ _ hgg
      obtain ⟨r, hr'⟩ := Option.isSome_iff_exists.1 hd
      have e := (hex_passed P hP c h pattern hx w hT hr st k1).2 (by omega) v h1 r hr'
      subst e
      have hl : v.gens.length < 2 ^ 64 := by
        obtain ⟨E, l, -, hl, hk, -⟩ := hi.gens (by omega)
        have hf := hk.few
        rw [List.length_map] at hf
        unfold outCurve at h1
        split at h1
        · rename_i f a b n E' l' q1 q2 q3 q4 q5
          rw [hl] at q5
          cases q5
          obtain ⟨gs, hgs, rfl⟩ := Option.map_eq_some_iff.1 h1
          have := allSome_length _ _ hgs
          rw [List.length_map] at this
          change gs.length < _
          omega
        · cases h1
      exact (hexCheck_partial c.hexDigits pattern v 1 hp hl hr').1.1 rfl
    · rw [if_pos rfl] at h1
      cases h1

/-- the worlds in which the searches of a run begin -/
inductive Begins (P : Pari) (c : Config) (fuel : Nat) (w : W) : W → Prop
  | first : Begins P c fuel w w
  | next {w' v w''} : Begins P c fuel w w' → one P c fuel w' = (some v, w'') → Begins P c fuel w w''

/-- **C108** every curve printed by a run with `--hex-check` contains the pattern in one of its parameters -/
theorem hex_run (P : Pari) (hP : P.Ok) (c : Config) (h : Covered c) (pattern : Text) (hx : c.hexCheck = some pattern) (hp : Pattern (pattern.map Output.lower)) (fuel : Nat)
    (w : W) (hT : TapeOk c w.tape) (hr : ∀ w', Begins P c fuel w w' → HexRight P c pattern w') (v : Output.Curve)
    (hv : v ∈ Json.objects (produce P c fuel w).1) (hd : (hexCheck c.hexDigits pattern v).isSome) : Contains c pattern v := by
  unfold produce at hv
  rw [(Json.generate_objects _ _ _).1] at hv
  generalize toSize c.count = n at hv
  have key : ∀ (n : Nat) (w' : W), Begins P c fuel w w' → w'.tape = w.tape → v ∈ Json.generated (one P c fuel) n w' → Contains c pattern v := by
    intro n
    induction n with
    | zero => intro w' _ _ hv; cases hv
    | succ n ih =>
      intro w' hb ht hv
      unfold Json.generated at hv
      cases ho : one P c fuel w' with
      | mk o w'' =>
        rw [ho] at hv
        cases o with
        | none => cases hv
        | some u =>
          simp only [List.mem_cons] at hv
          rcases hv with rfl | hv
          · exact hex_one P hP c h pattern hx hp w' (ht ▸ hT) (hr w' hb) fuel v w'' ho hd
          · refine ih w'' (.next hb ho) ?_ hv
            unfold one at ho
            cases hg : Engine.gen (setup P c) 0 9 fuel { w' with cur := {} } with
            | none => rw [hg] at ho; cases ho
            | some r =>
              obtain ⟨r, st⟩ := r
              rw [hg] at ho
              simp only [Prod.mk.injEq] at ho
              obtain ⟨-, rfl⟩ := ho
              exact (search P hP c h w.tape fuel w' ⟨ht, hT⟩ r st hg).1.1
  exact key n w .first rfl hv

/-- **C108** at the check, the search goes on to the metadata if the pattern occurs, and back to the field if not -/
theorem hex_step (P : Pari) (hP : P.Ok) (c : Config) (h : Covered c) (pattern : Text) (hx : c.hexCheck = some pattern) (hp : Pattern (pattern.map Output.lower)) (w : W)
    (hT : TapeOk c w.tape) (hr : HexRight P c pattern w) (st : St W) (hst : Reaches (setup P c) 0 9 0 (Engine.init 0 { w with cur := {} }) st)
    (h7 : st.state = 7) (hcut : st.w.pick.cut = none) (hfl : st.w.pick.fail 7 = none) (x : Cur) (ha : act P c st.w.pick 7 st.w.cur = some (x, 1))
    (v : Output.Curve) (hv : outCurve x = some v) (hg : v.gens.length < 2 ^ 64) (r : Int) (hd : hexCheck c.hexDigits pattern v = some r) :
    ∃ st', Engine.step (setup P c) 0 0 st = .inl st' ∧ (Contains c pattern v → st'.state = 8 ∧ st'.w.cur = x) ∧ (¬ Contains c pattern v → st'.state = 1) := by
  have e := hr st hst h7 x 1 ha v hv r hd
  obtain ⟨c1, c2⟩ := hexCheck_partial c.hexDigits pattern v r hp hg hd
  have hgen : (setup P c).gen 7 st.w = ({ st.w.next with cur := x }, .ret 1) := by
    change gen P c.bits (exhaustiveSetup c) 7 st.w = _
    simp only [gen, hcut, hfl]
    change done st.w (act P c st.w.pick 7 st.w.cur) = _
    rw [ha]
    rfl
  have hck : (setup P c).checks 7 = [fun w => check w .hexParam] := by
    rw [table_checks P c h.algo, if_neg (by decide), if_pos ⟨rfl, by rw [hx]; rfl⟩]
  have hv' : ∀ y : W, y = { st.w.next with cur := x } → (check y .hexParam).2 = r := by
    rintro y rfl
    exact e
  have hfail : ∀ d w', Engine.Spec.Fails (setup P c) 0 st.state st.w d w' → r = -6 ∧ d = -6 := by
    intro d w' hf
    rw [h7] at hf
    rcases hf with ⟨g1, -⟩ | ⟨g1, g2⟩ | ⟨w1, g, g1, g2, g3⟩
    · rw [hgen] at g1
      cases g1
    · rw [hgen] at g1
      cases g1
      omega
    · rw [hgen] at g1
      cases g1
      rw [hck] at g3
      cases g3 with
      | here q =>
        rw [hv' _ rfl] at q ⊢
        have := c2 (by omega)
        exact ⟨this, this⟩
      | later _ q => cases q
  rcases Engine.step_cases (setup P c) 0 st (Nat.zero_le _) with ⟨s1, d, w', e1, e2, e3, e4⟩ | ⟨s1, d, w', e1, e2, e0, e3, e4⟩ | ⟨s1, d, w', e1, e2, e3⟩
  · obtain ⟨w1, g1, g2, g3⟩ := e2
    rw [h7, hgen] at g1
    cases g1
    rw [h7, hck] at g3
    cases g3 with
    | cons q1 q2 =>
      cases q2
      have q1 : 0 < r := by rw [← hv' _ rfl]; exact q1
      have hr1 : r = 1 := by
        by_contra hn
        have := c2 hn
        omega
      exact ⟨s1, e1, fun _ => ⟨by rw [e3, h7]; rfl, by rw [e4]; rfl⟩, fun hn => absurd (c1.1 hr1) hn⟩
  · obtain ⟨f1, rfl⟩ := hfail d w' e2
    refine ⟨s1, e1, fun hn => ?_, fun _ => by rw [e3, h7]; rfl⟩
    have := c1.2 hn
    omega
  · obtain ⟨-, rfl⟩ := hfail d w' e2
    rw [h7] at e3
    rcases e3 with e3 | e3
    · cases e3
    · omega

/-! ### The hypotheses can be met -/

/-- `--fp --random --prime --hex-check=7 3` -/
def cx : Config := (commandLine 4 [.fp, .random none, .prime, .hexCheck "7".toList, .arg "3".toList]).get (by decide +kernel)

theorem cx_some : commandLine 4 [.fp, .random none, .prime, .hexCheck "7".toList, .arg "3".toList] = some cx := (Option.some_get _).symm

theorem cx_act (s : Nat) (hs : s < 9) : act pari cx (always E1 1 [G1] 1) s (course E1 5 ⟨G1, 5, 1⟩ [some ⟨G1, 5, 0⟩] s) =
    some (course E1 5 ⟨G1, 5, 1⟩ [some ⟨G1, 5, 0⟩] (s + 1), 1) := by
  have e1 : (exhaustiveSetup cx).gens = (exhaustiveSetup c1).gens := by decide +kernel
  have e2 : (exhaustiveSetup cx).genArgs = (exhaustiveSetup c1).genArgs := by decide +kernel
  have e3 : cx.bits = c1.bits := by decide +kernel
  rw [← course1 s hs]
  unfold act
  rw [e1, e2, e3]

/-- the world at the beginning of a stage; the check takes a call of its own -/
noncomputable def worldx (s : Nat) : W :=
  { world E1 1 [G1] 1 with cur := course E1 5 ⟨G1, 5, 1⟩ [some ⟨G1, 5, 0⟩] s, pos := if s ≤ 7 then s else s + 1 }

theorem gen_act (P : Pari) (c : Config) (s : Nat) (w : W) (x : Cur) (hcut : w.pick.cut = none) (hfl : w.pick.fail s = none)
    (ha : act P c w.pick s w.cur = some (x, 1)) : (setup P c).gen s w = ({ w.next with cur := x }, .ret 1) := by
  change gen P c.bits (exhaustiveSetup c) s w = _
  simp only [gen, hcut, hfl]
  change done w (act P c w.pick s w.cur) = _
  rw [ha]
  rfl

theorem cx_succeeds (s : Nat) (hs : s < 9) : Engine.Spec.Succeeds (setup pari cx) s (worldx s) 1 (worldx (s + 1)) := by
  have hck := table_checks pari cx (by decide +kernel) s
  have hgen : (setup pari cx).gen s (worldx s) =
      (({ world E1 1 [G1] 1 with cur := course E1 5 ⟨G1, 5, 1⟩ [some ⟨G1, 5, 0⟩] (s + 1), pos := (worldx s).pos + 1 } : W), .ret 1) := by
    exact gen_act pari cx s (worldx s) _ rfl rfl (cx_act s hs)
  refine ⟨_, hgen, by decide, ?_⟩
  rw [hck]
  by_cases h4 : s = 4
  · subst h4
    rw [if_pos rfl]
    have hc : ∀ y : W, y.cur.crv = some E1 → check y .curveNonzero = (y, 1) := by
      intro y hy
      simp only [check, hy]
      rw [if_neg (show E1.eqn.Δ ≠ 0 from E7_delta)]
    refine .cons ?_ ?_
    · rw [hc _ rfl]; exact Int.one_pos
    · rw [hc _ rfl]; exact .nil _
  · rw [if_neg h4]
    by_cases h7 : s = 7
    · subst h7
      rw [if_pos ⟨rfl, by decide +kernel⟩]
      exact .cons Int.one_pos (.nil _)
    · rw [if_neg fun h => h7 h.1]
      have : worldx (s + 1) = { world E1 1 [G1] 1 with cur := course E1 5 ⟨G1, 5, 1⟩ [some ⟨G1, 5, 0⟩] (s + 1), pos := (worldx s).pos + 1 } := by
        unfold worldx
        congr 1
        by_cases h : s ≤ 7
        · rw [if_pos (by omega), if_pos (by omega)]
        · rw [if_neg (by omega), if_neg (by omega)]
      rw [this]
      exact .nil _

theorem cx_pattern : Pattern ("7".toList.map Output.lower) := by
  refine ⟨by decide, fun c hc => ?_, by decide⟩
  have : c = '7' := by simpa [Output.lower] using hc
  exact ⟨7, by omega, this⟩

theorem cx_tape : TapeOk cx fun _ => always E1 1 [G1] 1 :=
  always_tape cx E1 ⟨by decide +kernel, fun _ _ => by decide +kernel, by decide +kernel⟩
    ⟨by decide +kernel, fun h => absurd (Nat.zero_and 2) h, by decide +kernel⟩ 1 (by decide) [G1] 1 G7_gens
    (fun e => (always_comes cx (by decide +kernel) E1 1 [G1] 1 rfl rfl e).1) (fun e => (always_comes cx (by decide +kernel) E1 1 [G1] 1 rfl rfl e).2)

theorem cx_covered : Covered cx := covered _ _ _ cx_some (by decide +kernel) (by decide +kernel)

/-- every curve of this run is defined over the field of seven elements, so the pattern occurs in the prime -/
theorem cx_right (w : W) (ht : w.tape = fun _ => always E1 1 [G1] 1) : HexRight pari cx "7".toList w := by
  intro st hst h7 x d ha v hv r hr
  have hT : TapeOk cx w.tape := by rw [ht]; exact cx_tape
  obtain ⟨hi, hb⟩ := reached pari pari_ok cx cx_covered w hT st hst
  rw [h7] at hi
  have hver : (st.w.tape (st.w.pos + 1)).verdict = none := by rw [hb.1, ht]; rfl
  have hpick : st.w.pick = w.tape st.w.pos := by rw [W.pick, hb.1]
  rw [hpick] at ha
  have key : ∀ y : Cur, Inv cx w.tape 7 y ∨ Inv cx w.tape 8 y → outCurve y = some v → 1 = r := by
    intro y hy hv
    have hf : ∃ f, y.field = some f ∧ ComesField w.tape f := by
      rcases hy with hy | hy <;> obtain ⟨f, h1, -, h2⟩ := hy.field (by omega) <;> exact ⟨f, h1, h2⟩
    obtain ⟨f, h1, i, h2⟩ := hf
    have hE : f = F7 := by
      rw [ht] at h2
      rcases h2 with h2 | h2 <;> exact h2
    subst hE
    have hg : ∃ E l, y.gens = some ⟨E, l⟩ ∧ l.length ≤ 3 := by
      rcases hy with hy | hy <;> obtain ⟨E, l, -, h3, h4, -⟩ := hy.gens (by omega) <;> exact ⟨E, l, h3, by simpa using h4.few⟩
    obtain ⟨E, l, h3, h4⟩ := hg
    unfold outCurve at hv
    rw [h1, h3] at hv
    split at hv
    · rename_i q1 q2 q3 q4 q5
      cases q1
      cases q5
      obtain ⟨gs, hgs, rfl⟩ := Option.map_eq_some_iff.1 hv
      have hl := allSome_length _ _ hgs
      rw [List.length_map] at hl
      refine ((hexCheck_partial _ _ _ r cx_pattern (show gs.length < _ by omega) hr).1.2 ?_).symm
      refine ⟨digitsOf cx.hexDigits 7, ?_, ?_⟩
      · unfold searched
        simp [out, F7]
      · refine ⟨List.replicate (cx.hexDigits - (Nat.toDigits 16 7).length) '0', [], ?_⟩
        rw [digitsOf, List.append_nil]
        exact congrArg _ (by decide +kernel)
    · cases hv
  rw [hver]
  rcases act_ok pari pari_ok cx cx_covered w.tape hT st.w.pos 7 (by decide) _ hi x d ha with ⟨-, h1, -⟩ | ⟨-, -, rfl⟩
  · exact key x (Or.inr (h1 (by decide))) hv
  · exact key _ (Or.inl hi) hv

/-- a run that prints one curve, and the pattern is found in it -/
theorem hex_run_met : ∃ (os : List Opt) (c : Config) (w : W) (v : Output.Curve) (pattern : Text), commandLine 4 os = some c ∧ Covered c ∧ c.hexCheck = some pattern ∧
    Pattern (pattern.map Output.lower) ∧ TapeOk c w.tape ∧ (∀ w', Begins pari c 9 w w' → HexRight pari c pattern w') ∧
    v ∈ Json.objects (produce pari c 9 w).1 ∧ (hexCheck c.hexDigits pattern v).isSome := by
  obtain ⟨st, h1, h2⟩ := loop_straight (setup pari cx) worldx cx_succeeds 9 (Engine.init 0 { world E1 1 [G1] 1 with cur := {} }) rfl rfl
  have hg : Engine.gen (setup pari cx) 0 9 9 { world E1 1 [G1] 1 with cur := {} } = some (1, st) := by
    unfold Engine.gen Engine.genRetry
    rw [if_neg (by decide), if_neg (by decide)]
    exact h1
  have ho : one pari cx 9 (world E1 1 [G1] 1) = (some (printed (.intmod 1 7) 5), st.w) := by
    simp only [one, hg]
    rw [if_neg (by decide), h2]
    exact congrArg₂ Prod.mk course1_printed rfl
  have htape : ∀ w', Begins pari cx 9 (world E1 1 [G1] 1) w' → w'.tape = fun _ => always E1 1 [G1] 1 := by
    intro w' hb
    induction hb with
    | first => rfl
    | next h3 h4 ih =>
      unfold one at h4
      rename_i y z y'
      cases hg : Engine.gen (setup pari cx) 0 9 9 { y with cur := {} } with
      | none => rw [hg] at h4; cases h4
      | some q =>
        rw [hg] at h4
        dsimp only at h4
        obtain rfl := (Prod.mk.inj h4).2
        exact (search pari pari_ok cx cx_covered _ 9 y ⟨ih, cx_tape⟩ q.1 q.2 hg).1.1
  refine ⟨_, cx, world E1 1 [G1] 1, printed (.intmod 1 7) 5, "7".toList, cx_some, cx_covered, by decide +kernel, cx_pattern, cx_tape,
    fun w' hb => cx_right w' (htape w' hb), ?_, by decide +kernel⟩
  rw [produce, (Json.generate_objects _ _ _).1, show toSize cx.count = 1 by decide +kernel, generated_one _ _ _ _ _ ho]
  exact List.mem_singleton.2 rfl

end Ecgen.Whole
