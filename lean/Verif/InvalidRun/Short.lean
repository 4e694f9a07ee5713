import Verif.InvalidRun.Props
import Verif.Whole.Short

/-!
# The texts that `--invalid` prints are not too long
-/

namespace Ecgen.InvalidRun

open Output Output.Spec Cli Whole Json

/-- **C91** as `invalid_run_prints_partial`, without conditions on the texts: at most 2500 bits -/
theorem modest_invalid_run_prints_partial (malloc : Nat → List Parson.Byte) (hm : ∀ n, (malloc n).length = n) (P : Pari) (hP : P.Ok)
    (np : Nat → Nat) (hnp : Invalid.NextSpec np) (n : Int) (os : List Opt) (c : Config) (hc : commandLine n os = some c) (hb : c.bits ≤ 2500)
    (hr : Meant c.bits c.invalidPrimes) (fuel : Nat) (w : W)
    (hT : TapeOk (original c) w.tape) (hu : w.ub = false) (ts : List (Tok Output.Curve)) (h : produce P np c fuel w = .done (ts, 0)) :
    ∃ (j0 : Output.Json) (js : List (Nat × Output.Json)) (v0 : CurveV) (qs : List Nat),
      (∀ j, Parson.Spec.Document (bytes malloc c ts) (Parson.encode j) ↔ j = .arr (j0 :: js.map Prod.snd)) ∧
      readCurve j0 = some v0 ∧ Asked (original c) v0 ∧ Selected c.invalidPrimes v0.order qs ∧ qs ≠ [] ∧ (js.map Prod.fst).Perm qs ∧
      ∀ e ∈ js, ∃ v, readCurve e.2 = some v ∧ Serves c v0 qs e.1 v := by
  refine invalid_run_prints_partial malloc hm P hP np hnp c hr fuel w hT hu ts h fun v hv j hj => ?_
  have hd := (consistent n os c hc).hexDigits.2.1
  have room : (3 * (1 + 1) + 4) * (96 * (c.bits + 2 + 1) + 1600) ≤ 2147483646 := by omega
  rcases run_cases P hP np hnp c hr fuel w hT hu with h1 | h1 | ⟨v0, o, f, a, qs, hfirst, -, h1 | ⟨-, h1⟩ | ⟨-, ts', es, h1, harr, -, hst⟩⟩
  · rw [h] at h1; cases h1
  · rw [h] at h1; cases h1
  · rw [h] at h1; cases h1
  · rw [h] at h1; cases h1
  · rw [h] at h1
    cases h1
    have hv := (mem_objects ts v).2 hv
    rw [isArray_objects harr] at hv
    rcases List.mem_cons.1 hv with rfl | hv
    · obtain ⟨x, hx1, hx2, -⟩ := hfirst
      exact out_short x _ 3 1 (inv_small (covered_original c) (fun i => (hT.picks i).elt) x hx1 rfl rfl 1 (Or.inl trivial)) c.hexDigits
        (show _ ≤ c.bits + 2 + 1 by omega) room v hx2 j hj
    · obtain ⟨e, he, rfl⟩ := List.mem_map.1 hv
      obtain ⟨x, o', hx1, hx2, -, -, -, -, -, hx3⟩ := (hst e he).curve
      exact out_short x _ 3 1 (inv_small (covered_invalid c) (fun i => ((tape_invalid hT).picks i).elt) x hx1 rfl rfl 1 (Or.inr hx3)) c.hexDigits
        (show _ ≤ c.bits + 2 + 1 by omega) room _ hx2 j hj

end Ecgen.InvalidRun
