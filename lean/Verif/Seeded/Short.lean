import Verif.Seeded.Props
import Verif.Whole.Short

/-!
# The texts that `--brainpool`, `--brainpool-rfc` and `--nums` print are not too long
-/

namespace Ecgen.Seeded

open Whole Output Output.Spec Cli

theorem seed_short (sd : Bits.Bits) (z : Nat) (h : Brainpool.Seed160 sd z) (t : Text) (ht : seedText sd = some t) : t.length = 42 := by
  obtain ⟨h1, -, h3, h4, -⟩ := h
  obtain ⟨s, e1, e2, -⟩ := Bits.toHex_value sd h1
  rw [h3] at e1
  unfold seedText at ht
  rw [e1, h3] at ht
  simp only [Option.bind_some, Bool.false_eq_true, if_false, List.nil_append, Option.some.injEq] at ht
  rw [← ht, List.length_append, e2, h4]
  rfl

theorem inv_short {c : Config} (hmod : Modest c) (hd : 4 * c.hexDigits < c.bits + 8) (x : St) (hi : Inv c 9 x) (v : Output.Curve) (hv : outCurve x.cur = some v)
    (j : Parson.Value) (hj : Parson.outputJjson c.hexDigits v = .ok j) : (Parson.render true 0 j).length ≤ 2147483646 := by
  obtain ⟨q, hq, hk⟩ := hi.known (by omega)
  obtain ⟨a, b, ha, hb, ha', hb', hab⟩ := hk.ab (by omega)
  obtain ⟨ho, -⟩ := hab.order (by omega)
  obtain ⟨g, ps, hl, hg, -, hps⟩ := hab.gens (by omega)
  obtain ⟨n, h1, h2⟩ := hmod.room 45 (le_refl _)
  have hfin : Finite (obj q hq a b).Pt := inferInstanceAs (Finite (obj q hq a b).eqn.Point)
  have e : ∀ u, u < q → eltV (.intmod u q) < q := fun u _ => Nat.mod_lt _ hq.pos
  have hsz : q ≤ 2 ^ c.bits := by
    by_cases hn : c.seedAlgo = .nums
    · exact (hk.prime.nums hn).1.le
    · exact (hk.prime.size hn).2.le
  refine out_short x.cur (c.bits + 45) 3 n ?_ c.hexDigits (by omega) h2 v hv j hj
  refine crv_small c x.cur (obj q hq a b) c.bits _ n (by omega) (fun s t hs ht => ?_) (fun s hs => ?_) (hi.quiet hmod.metadata) hk.field ha hb (e a ha') (e b hb')
    hsz ho _ hl (by rw [List.length_singleton]; decide) (fun s hs => ?_) (fun s hs hne => ?_) (fun hne => hps (by omega) (hne _ List.mem_cons_self)) (Or.inl h1)
  · by_cases hn : c.seedAlgo = .nums
    · rw [hi.noseed hn] at hs; cases hs
    · obtain ⟨sd, z, e1, e2⟩ := hi.seed (by omega) hn
      rw [e1] at hs; cases hs
      rw [seed_short _ z e2 t ht]
      omega
  · by_cases hn : c.seedAlgo = .nums
    · rw [hi.noseed hn] at hs; cases hs
    · obtain ⟨sd, z, e1, e2⟩ := hi.seed (by omega) hn
      rw [e1] at hs; cases hs
      exact ⟨e2.1, by rw [e2.2.2.2.1]; decide⟩
  · rw [List.mem_singleton] at hs; subst hs; exact hg.order
  · rw [List.mem_singleton] at hs; subst hs
    change g.cofactor ≤ _
    rw [hg.cofactor]; exact Nat.div_le_self _ _

/-- **C77** as `brainpool_run_prints_partial`, without conditions on the texts: at most 2500 bits, no metadata, few points -/
theorem modest_brainpool_run_prints_partial (malloc : Nat → List Parson.Byte) (hm : ∀ n, (malloc n).length = n) (P : Pari) (hP : P.Ok)
    (n : Int) (os : List Opt) (c : Config) (h : commandLine n os = some c) (r : Bool) (ha : c.seedAlgo = if r then .brainpoolRfc else .brainpool)
    (hbits : 1 ≤ c.bits) (hmod : Modest c) (fuel : Nat) (w : W) (hb : ∀ i, (w.tape i).Ok c) (hstatus : (produce P c fuel w).2 = 0) :
    ∃ js : List Output.Json, (∀ j, Parson.Spec.Document (bytes malloc P c fuel w) (Parson.encode j) ↔ j = .arr js) ∧ js.length = toSize c.count ∧
      ∀ j ∈ js, ∃ v, readCurve j = some v ∧ BrainpoolAsked r c v := by
  refine brainpool_run_prints_partial malloc hm P hP n os c h r ha hbits fuel w hb hstatus fun v hv j hj => ?_
  obtain ⟨x, hx, hv'⟩ := generated_complete P hP c (covered n os c h (by rw [ha]; cases r <;> decide) fun _ => hbits) fuel (toSize c.count) w hb v hv
  exact inv_short hmod (consistent n os c h).hexDigits.2.1 x hx v hv' j hj

/-- **C78** as `nums_run_prints`, without conditions on the texts: at most 2500 bits, no metadata, few points -/
theorem modest_nums_run_prints (malloc : Nat → List Parson.Byte) (hm : ∀ n, (malloc n).length = n) (P : Pari) (hP : P.Ok)
    (n : Int) (os : List Opt) (c : Config) (h : commandLine n os = some c) (ha : c.seedAlgo = .nums) (hmod : Modest c)
    (fuel : Nat) (w : W) (hb : ∀ i, (w.tape i).Ok c) (hstatus : (produce P c fuel w).2 = 0) :
    ∃ js : List Output.Json, (∀ j, Parson.Spec.Document (bytes malloc P c fuel w) (Parson.encode j) ↔ j = .arr js) ∧ js.length = toSize c.count ∧
      ∀ j ∈ js, ∃ v, readCurve j = some v ∧ NumsAsked c v := by
  refine nums_run_prints malloc hm P hP n os c h ha fuel w hb hstatus fun v hv j hj => ?_
  obtain ⟨x, hx, hv'⟩ := generated_complete P hP c (covered n os c h (Or.inr (Or.inr ha)) fun h => absurd ha h) fuel (toSize c.count) w hb v hv
  exact inv_short hmod (consistent n os c h).hexDigits.2.1 x hx v hv' j hj

end Ecgen.Seeded
