import Verif.Twisted.Props
import Verif.Whole.Short

/-!
# The texts that `--twist` prints are not too long
-/

namespace Ecgen.Twisted

open Whole Output Output.Spec Cli

/-- **C86** as `run_prints_twists_partial`, without conditions on the texts: at most 2500 bits, no metadata, few points -/
theorem modest_run_prints_twists_partial (malloc : Nat → List Parson.Byte) (hm : ∀ n, (malloc n).length = n) (P : Pari) (hP : P.Ok)
    (n : Int) (os : List Opt) (c : Config) (h : commandLine n os = some c) (hd : c.method = METHOD_TWIST) (hk : c.koblitz = false) (hmod : Modest c)
    (fuel : Nat) (w : W) (hb : TapeOk c w.base.tape w.tw) (hc : c.prime = true ∨ Calm c w.base.tape) (hstatus : (produce P c fuel w).2 = 0) :
    ∃ js : List Output.Json, (∀ j, Parson.Spec.Document (bytes malloc P c fuel w) (Parson.encode j) ↔ j = .arr js) ∧ js.length = toSize c.count ∧
      ∀ j ∈ js, ∃ v, readCurve j = some v ∧ Asked c v ∧ ∃ E, Drawn w.base.tape E ∧ TwistOf v E.field (eltV E.a) (eltV E.b) := by
  have hcov := covered n os c h hd hk
  refine run_prints_twists_partial malloc hm P hP n os c h hd hk fuel w hb hc hstatus fun v hv j hj => ?_
  obtain ⟨x, hx, hv'⟩ := generated_complete P hP c hcov w.base.tape w.tw hc fuel (toSize c.count) w ⟨rfl, rfl, hb⟩ v hv
  obtain ⟨S, hS, hi⟩ := hx.inv
  have := (consistent n os c h).hexDigits.2.1
  exact inv_short (c := plain c) hcov.plain hS ⟨hmod.bits, hmod.metadata, hmod.points⟩ hcov.algo (show c.hexDigits ≤ c.bits + 3 by omega) x hi v hv' j hj

end Ecgen.Twisted
