import Verif.Twisted.Lemmas

/-!
# What `--twist` prints (C86)
-/

namespace Ecgen.Twisted

open Whole Output Output.Spec Cli

/-- the curves of a run are complete, and twists -/
theorem generated_complete (P : Pari) (hP : P.Ok) (c : Config) (h : Covered c) (T : Nat → Pick) (tw : Nat → Crv → Crv) (hc : c.prime = true ∨ Calm c T)
    (fuel : Nat) : ∀ (n : Nat) (w : W), Behaves c T tw w →
    ∀ v ∈ Json.generated (one P c fuel) n w, ∃ x, Twin c T tw 9 x ∧ outCurve x = some v := by
  intro n
  induction n with
  | zero => intro w _ v hv; cases hv
  | succ n ih =>
    intro w hb v hv
    unfold Json.generated at hv
    have key : ∀ o w', one P c fuel w = (o, w') → Behaves c T tw w' ∧ ∀ u, o = some u → ∃ x, Twin c T tw 9 x ∧ outCurve x = some u := by
      intro o w' ho
      unfold one at ho
      cases hg : Engine.gen (setup P c) 0 9 fuel (fresh w) with
      | none => rw [hg] at ho; cases ho; exact ⟨hb, fun u hu => by cases hu⟩
      | some r =>
        obtain ⟨r, st⟩ := r
        rw [hg] at ho
        obtain ⟨h1, h2⟩ := search P hP c h T tw hc fuel w hb r st hg
        simp only [Prod.mk.injEq] at ho
        obtain ⟨rfl, rfl⟩ := ho
        refine ⟨h1, fun u hu => ?_⟩
        rcases h2 with ⟨rfl, h2⟩ | rfl
        · rw [if_neg (by decide)] at hu
          exact ⟨_, h2, hu⟩
        · rw [if_pos rfl] at hu
          cases hu
    cases ho : one P c fuel w with
    | mk o w' =>
      obtain ⟨k1, k2⟩ := key o w' ho
      rw [ho] at hv
      cases o with
      | none => cases hv
      | some u =>
        simp only [List.mem_cons] at hv
        rcases hv with rfl | hv
        · exact k2 _ rfl
        · exact ih w' k1 v hv

/-- the configuration without `--twist` asks for the same -/
theorem asked_plain (c : Config) (v : CurveV) : Asked (plain c) v ↔ Asked c v := Iff.rfl

/-- the curve as printed is a twist of the one that was drawn -/
theorem printed_twist (c : Config) (T : Nat → Pick) (tw : Nat → Crv → Crv) (hT : TapeOk c T tw) (x : Cur) (hx : Twin c T tw 9 x) (v : Output.Curve)
    (h : outCurve x = some v) : ∃ E, Drawn T E ∧ TwistOf (curveV v) E.field (eltV E.a) (eltV E.b) := by
  obtain ⟨⟨S, -, hi⟩, E, j, h1, h2, h3⟩ := hx
  obtain ⟨a', b', hE, hA, hB, htw⟩ := hT.twist j E h1 h2
  obtain ⟨f, a, b, e1, e2, e3, e4, -⟩ := hi.crv (by omega)
  obtain ⟨E', e5, ho, -⟩ := hi.order (by omega)
  obtain ⟨E'', l, -, hl, -⟩ := hi.gens (by omega)
  rw [e4] at e5; cases e5
  rw [h3, hE, Option.some.injEq, Crv.mk.injEq] at e4
  obtain ⟨rfl, rfl, rfl⟩ := e4
  simp only [outCurve, e1, e2, e3, ho, hl, Option.map_eq_some_iff] at h
  obtain ⟨gs, -, rfl⟩ := h
  refine ⟨E, h1, fieldV_out E.field, ?_, ?_, h2, htw, (twist_sum _ _ _ _ _ htw h2).2⟩
  · obtain ⟨-, ⟨i, hi⟩, -⟩ := h1
    rw [hi]; exact eltV_lt _ _ ((hT.picks i).elt _)
  · obtain ⟨-, -, ⟨i, hi⟩⟩ := h1
    rw [hi]; exact eltV_lt _ _ ((hT.picks i).elt _)

/-- an accepted command line with `--twist` is covered, unless it asks for Koblitz curves -/
theorem covered (n : Int) (os : List Opt) (c : Config) (h : commandLine n os = some c) (hm : c.method = METHOD_TWIST) (hk : c.koblitz = false) : Covered c := by
  have hc := consistent n os c h
  refine ⟨hm, ?_, hc.koblitz, accepted_constraints n os c h, hk⟩
  by_contra hne
  have := hc.algo.1.2 hne
  rw [hm] at this
  cases this

/-- **C86** From the command line to the bytes: when a run of `--twist` ends with the status 0, what it has printed is the JSON text of an array with as
many curves as were asked for, each of which is, in the numbers read back from the text, one that was asked for, and a quadratic twist of a curve whose
coefficients were drawn or typed. Partial: either `--prime` is given, or nothing fails once a candidate has an order (no timer, `--unique`,
`--cofactor` or hex check); see `stale_order_printed` for what is printed otherwise. -/
theorem run_prints_twists_partial (malloc : Nat → List Parson.Byte) (hm : ∀ n, (malloc n).length = n) (P : Pari) (hP : P.Ok)
    (n : Int) (os : List Opt) (c : Config) (h : commandLine n os = some c) (hd : c.method = METHOD_TWIST) (hk : c.koblitz = false)
    (fuel : Nat) (w : W) (hb : TapeOk c w.base.tape w.tw) (hc : c.prime = true ∨ Calm c w.base.tape) (hstatus : (produce P c fuel w).2 = 0)
    (hs : ∀ v ∈ Json.generated (one P c fuel) (toSize c.count) w, ∀ j, Parson.outputJjson c.hexDigits v = .ok j →
      (Parson.render true 0 j).length ≤ 2147483646) :
    ∃ js : List Output.Json, (∀ j, Parson.Spec.Document (bytes malloc P c fuel w) (Parson.encode j) ↔ j = .arr js) ∧ js.length = toSize c.count ∧
      ∀ j ∈ js, ∃ v, readCurve j = some v ∧ Asked c v ∧ ∃ E, Drawn w.base.tape E ∧ TwistOf v E.field (eltV E.a) (eltV E.b) := by
  have hcov := covered n os c h hd hk
  have hgen := generated_complete P hP c hcov w.base.tape w.tw hc fuel (toSize c.count) w ⟨rfl, rfl, hb⟩
  have hlen := (Json.generate_objects (one P c fuel) (toSize c.count) w).2.1 hstatus
  obtain ⟨js, h1, h2⟩ := Parson.output_reads malloc hm c.hexDigits (one P c fuel) (toSize c.count) w
    (fun v hv => by
      obtain ⟨x, hx, hv'⟩ := hgen v hv
      obtain ⟨S, hS, hi⟩ := hx.inv
      exact curve_printable (plain c) S x hi v hv' (hs v hv)) hlen
  refine ⟨js, h1, ?_, fun j hj => ?_⟩
  · rw [← hlen, ← List.length_map (f := readCurve), h2, List.length_map]
  · have : readCurve j ∈ (Json.generated (one P c fuel) (toSize c.count) w).map fun v => some (curveV v) := by
      rw [← h2]; exact List.mem_map_of_mem hj
    obtain ⟨v, hv, e⟩ := List.mem_map.1 this
    obtain ⟨x, hx, hv'⟩ := hgen v hv
    obtain ⟨S, hS, hi⟩ := hx.inv
    exact ⟨curveV v, e.symm, (asked_plain c _).1 (curve_asked (plain c) hcov.plain S (coeffs_fine_none hcov.algo hS) x hi v hv'), printed_twist c w.base.tape w.tw hb x hx v hv'⟩

end Ecgen.Twisted
