import Verif.Special.Props
import Verif.Whole.Short

/-!
# The texts that `--anomalous` and `--supersingular` print are not too long
-/

namespace Ecgen.Special

open Whole Output Output.Spec Cli
open Seeded (Fp curveOf)

variable {P : Pari} {c : Config} {T : Nat → Pick}

/-- the texts of curves without a seed over fields of at most 2500 bits are short -/
theorem inv_short (hm : c.method ≠ METHOD_FAMILY) (hmod : Modest c) (hd : 4 * c.hexDigits < c.bits + 8)
    (x : St) (hi : Inv P c T 9 x)
    (hsz : ∀ q, FieldKnown P c T x q → q ≤ 2 ^ c.bits) (v : Output.Curve) (hv : outCurve x.cur = some v)
    (j : Parson.Value) (hj : Parson.outputJjson c.hexDigits v = .ok j) : (Parson.render true 0 j).length ≤ 2147483646 := by
  obtain ⟨q, hq, hk⟩ := hi.known (by omega)
  obtain ⟨a, b, ha, hb, ha', hb', hab⟩ := hk.ab (by omega)
  obtain ⟨ho, -, -⟩ := hab.order (by omega)
  obtain ⟨l, hl, hgk, -, hps⟩ := hab.gens (by omega)
  obtain ⟨n, h1, h2⟩ := hmod.room 45 (le_refl _)
  have hfin : Finite (obj q hq a b).Pt := inferInstanceAs (Finite (obj q hq a b).eqn.Point)
  have e : ∀ u, u < q → eltV (.intmod u q) < q := fun u _ => Nat.mod_lt _ hq.pos
  refine out_short x.cur (c.bits + 45) 3 n ?_ c.hexDigits (by omega) h2 v hv j hj
  refine crv_small c x.cur (obj q hq a b) c.bits _ n (by omega) (fun s t hs => ?_) (fun s hs => ?_) (hi.quiet hmod.metadata) hk.field ha hb (e a ha') (e b hb')
    (hsz q hk.prime) ho l hl (by rw [← List.length_map]; exact hgk.few) (fun s hs => hgk.order s.gen (List.mem_map_of_mem hs))
    (fun s hs => known_cofactor_le hgk s.gen (List.mem_map_of_mem hs)) (hps (by omega)) (Or.inl h1)
  · rw [hi.noseed hm] at hs; cases hs
  · rw [hi.noseed hm] at hs; cases hs

/-- **C82** as `supersingular_run_prints`, without conditions on the texts: at most 2500 bits, no metadata, few points -/
theorem modest_supersingular_run_prints (malloc : Nat → List Parson.Byte) (hm : ∀ n, (malloc n).length = n) (P : Pari) (hP : P.toPari.Ok)
    (n : Int) (os : List Opt) (c : Config) (h : commandLine n os = some c) (ha : c.method = METHOD_SUPERSINGULAR) (hmod : Modest c)
    (fuel : Nat) (w : W) (hT : TapeOk P c w.tape) (hD : Deuring P c w.tape) (hstatus : (produce P c fuel w).2 = 0) :
    ∃ js : List Output.Json, (∀ j, Parson.Spec.Document (bytes malloc P c fuel w) (Parson.encode j) ↔ j = .arr js) ∧ js.length = toSize c.count ∧
      ∀ j ∈ js, ∃ v, readCurve j = some v ∧ SupersingularAsked c v := by
  have hne : c.method ≠ METHOD_FAMILY := by rw [ha]; decide
  refine supersingular_run_prints malloc hm P hP n os c h ha fuel w hT hD hstatus fun v hv j hj => ?_
  obtain ⟨x, hx, hv'⟩ := generated_complete P hP c (covered n os c h (Or.inr (Or.inl ha))) w.tape hT ⟨fun h => absurd (ha ▸ h) (by decide), fun _ => hD⟩
    fuel (toSize c.count) w rfl v hv
  exact inv_short hne hmod (consistent n os c h).hexDigits.2.1 x hx
    (fun q hk => size_asked (f := .prime q) (hk.super ha)) v hv' j hj

/-- **C81** as `anomalous_run_prints`, without conditions on the texts: from 7 to 2500 bits, no metadata, few points -/
theorem modest_anomalous_run_prints (malloc : Nat → List Parson.Byte) (hm : ∀ n, (malloc n).length = n) (P : Pari) (hP : P.toPari.Ok)
    (n : Int) (os : List Opt) (c : Config) (h : commandLine n os = some c) (ha : c.method = METHOD_ANOMALOUS) (hmod : Modest c) (h7 : 7 ≤ c.bits)
    (fuel : Nat) (w : W) (hT : TapeOk P c w.tape) (hG : Gross P c w.tape) (hstatus : (produce P c fuel w).2 = 0) :
    ∃ js : List Output.Json, (∀ j, Parson.Spec.Document (bytes malloc P c fuel w) (Parson.encode j) ↔ j = .arr js) ∧ js.length = toSize c.count ∧
      ∀ j ∈ js, ∃ v, readCurve j = some v ∧ AnomalousAsked c v := by
  have hne : c.method ≠ METHOD_FAMILY := by rw [ha]; decide
  refine anomalous_run_prints malloc hm P hP n os c h ha fuel w hT hG hstatus fun v hv j hj => ?_
  obtain ⟨x, hx, hv'⟩ := generated_complete P hP c (covered n os c h (Or.inl ha)) w.tape hT ⟨fun _ => hG, fun h => absurd (ha ▸ h) (by decide)⟩
    fuel (toSize c.count) w rfl v hv
  refine inv_short hne hmod (consistent n os c h).hexDigits.2.1 x hx
    (fun q hk => ?_) v hv' j hj
  obtain ⟨lo, hi', b, b1, b2, b3, b4⟩ := hk.anomalous ha
  obtain ⟨-, g2⟩ := Cm.anomalous_size_partial c.bits lo hi' b b1 b2 b3 h7
  rw [← b4] at g2
  exact_mod_cast g2

end Ecgen.Special
