import Verif.Whole.Complete
import Verif.Whole.Short

/-!
# Every curve asked for can be found: the theorems (C99)
-/

namespace Ecgen.Whole

open Output Output.Spec Cli

/-- the curve `y² = x³ + ax + b` or `y² + xy = x³ + ax² + b` over the field, its coefficients given by their numbers -/
noncomputable abbrev numbered (f : Fld) (a b : Nat) : WeierstrassCurve.Affine (Carrier f) := equation f (elem f a) (elem f b)

/-- the curve object for the coefficients of these numbers -/
theorem object (c : Config) (f : Fld) (a b : Nat) (ha : a < fieldSize f.1) (hb : b < fieldSize f.1) (hk : c.koblitz = true → (a : Int) = c.koblitzValue ∧ b = 1) :
    ∃ E : Crv, E.field = f ∧ eltV E.a = a ∧ eltV E.b = b ∧ (c.koblitz = true → E.a = .int c.koblitzValue.toNat ∧ E.b = .int 1) ∧
      (c.koblitz = false → Elem (out E.field.1) E.a ∧ Elem (out E.field.1) E.b) := by
  cases hc : c.koblitz with
  | true =>
    obtain ⟨h1, h2⟩ := hk hc
    exact ⟨⟨f, .int a, .int b⟩, rfl, rfl, rfl, fun _ => ⟨by rw [← h1]; rfl, by rw [h2]⟩, fun h => nomatch h⟩
  | false =>
    obtain ⟨ea, h1, h2, h3⟩ := ielement_out f a ha
    obtain ⟨eb, h4, h5, h6⟩ := ielement_out f b hb
    exact ⟨⟨f, ea, eb⟩, rfl, h3, h6, (fun h => nomatch h), fun _ => ⟨h2, h5⟩⟩

/-- **C99** Every curve that meets what the command line asks for can be found: let the field be one of the fields asked for, the coefficients `a` and `b`
those of a nonsingular curve, with the Koblitz coefficients if these were asked for, let the number of points meet the condition on the order, and the
group be cyclic where a unique generator was asked for, and cyclic or of `k²` elements for a cofactor `k` alone. Then there are random numbers and answers, within their ranges, with which the
run ends with the status 0 and every curve it prints is this one. -/
theorem every_curve_found_partial (P : Pari) (hP : P.Ok) (n : Int) (os : List Opt) (c : Config) (h : commandLine n os = some c) (hm : c.method = 0)
    (hk : c.koblitz = true → c.field = FIELD_PRIME → c.prime = false → c.cofactor = false → c.smooth = false →
      Koblitz.getOrder c.bits c.koblitzValue.toNat = none)
    (hh : c.hexCheck = none) (f : Fld) (a b : Nat) (hf : FieldAsked c f.1) (ha : a < fieldSize f.1) (hb : b < fieldSize f.1)
    (hko : KoblitzAsked c a b) (hd : (numbered f a b).Δ ≠ 0) (ho : OrderAsked c (Nat.card (numbered f a b).Point))
    (hcyc : Plain c (numbered f a b).Point) (hcl : Clear c (Nat.card (numbered f a b).Point))
    (hp : c.pointsType = .none ∨ c.pointsType = .prime ∨ (c.pointsType = .random ∧ c.pointsAmount ≠ 0 ∧ Nat.card (numbered f a b).Point ≠ 1) ∨
      (c.pointsType ≠ .random ∧ (Nat.card (numbered f a b).Point).primeFactorsList.length < 63))
    (hg : ∀ a' b', a' = a ∨ a' = b → b' = a ∨ b' = b → (numbered f a' b').Δ ≠ 0 → ∃ l, Group.GensSpec (numbered f a' b').Point l) :
    ∃ w : W, TapeOk c w.tape ∧ w.ub = false ∧ (produce P c 9 w).2 = 0 ∧ (Json.generated (one P c 9) (toSize c.count) w).length = toSize c.count ∧
      ∀ v ∈ Json.generated (one P c 9) (toSize c.count) w, (curveV v).field = f.1 ∧ (curveV v).a = a ∧ (curveV v).b = b := by
  have hcov := covered n os c h (Or.inl hm) fun h1 _ => hk h1
  have h0 : c.seedAlgo = .none := by
    rcases hcov.algo with h | h
    · exact h.1
    · rw [hm] at h
      exact absurd h.2 (by decide)
  obtain ⟨E, rfl, rfl, rfl, e4, e5⟩ := object c f a b ha hb fun hc => hko hc h0
  have hs : Suits c E := ⟨hf, e4, e5, hd, ho, hcyc⟩
  have hG : Generated E := by
    intro a' b' h1 h2 h3
    refine hg (eltV a') (eltV b') ?_ ?_ h3
    · exact h1.imp (congrArg eltV) (congrArg eltV)
    · exact h2.imp (congrArg eltV) (congrArg eltV)
  obtain ⟨h1, h2⟩ := all_found P hP c hcov h0 hh E hs hG ⟨hcl, hp⟩ (toSize c.count) ⟨{}, aimed E, 0, false⟩ rfl rfl
  refine ⟨⟨{}, aimed E, 0, false⟩, aimed_tape c h0 E hs hG, rfl, (Json.generate_objects _ _ _).2.2 h1, h1, fun v hv => ?_⟩
  obtain ⟨k1, k2, k3⟩ := h2 v hv
  exact ⟨(congrArg fieldV k1).trans (fieldV_out E.field), congrArg eltV k2, congrArg eltV k3⟩

/-- **C99**, in the bytes printed: under the same conditions, for runs of modest size, the run prints a JSON document, an array of as many curves as
were asked for, and each of them is the curve with these coefficients over this field -/
theorem every_curve_printed_partial (malloc : Nat → List Parson.Byte) (hma : ∀ n, (malloc n).length = n)
    (P : Pari) (hP : P.Ok) (n : Int) (os : List Opt) (c : Config) (h : commandLine n os = some c) (hm : c.method = 0) (hmod : Modest c)
    (hk : c.koblitz = true → c.field = FIELD_PRIME → c.prime = false → c.cofactor = false → c.smooth = false →
      Koblitz.getOrder c.bits c.koblitzValue.toNat = none)
    (hh : c.hexCheck = none) (f : Fld) (a b : Nat) (hf : FieldAsked c f.1) (ha : a < fieldSize f.1) (hb : b < fieldSize f.1)
    (hko : KoblitzAsked c a b) (hd : (numbered f a b).Δ ≠ 0) (ho : OrderAsked c (Nat.card (numbered f a b).Point))
    (hcyc : Plain c (numbered f a b).Point) (hcl : Clear c (Nat.card (numbered f a b).Point))
    (h1 : c.pointsType = .random → Nat.card (numbered f a b).Point ≠ 1)
    (hg : ∀ a' b', a' = a ∨ a' = b → b' = a ∨ b' = b → (numbered f a' b').Δ ≠ 0 → ∃ l, Group.GensSpec (numbered f a' b').Point l) :
    ∃ w : W, TapeOk c w.tape ∧ w.ub = false ∧ (produce P c 9 w).2 = 0 ∧
      ∃ js : List Output.Json, (∀ j, Parson.Spec.Document (bytes malloc P c 9 w) (Parson.encode j) ↔ j = .arr js) ∧ js.length = toSize c.count ∧
        ∀ j ∈ js, ∃ v, readCurve j = some v ∧ v.field = f.1 ∧ v.a = a ∧ v.b = b ∧ Asked c v := by
  have hcov := covered n os c h (Or.inl hm) fun h1 _ => hk h1
  have h0 : c.seedAlgo = .none := by
    rcases hcov.algo with h | h
    · exact h.1
    · rw [hm] at h
      exact absurd h.2 (by decide)
  obtain ⟨w, w1, w2, w3, w4, w5⟩ := every_curve_found_partial P hP n os c h hm hk hh f a b hf ha hb hko hd ho hcyc hcl (by
    rcases hmod.points with e | e | ⟨e1, e2, -⟩ | ⟨e1, e2⟩
    · exact Or.inl e
    · exact Or.inr (Or.inl e)
    · exact Or.inr (Or.inr (Or.inl ⟨e1, e2, h1 e1⟩))
    · refine Or.inr (Or.inr (Or.inr ⟨by rcases e1 with e | e <;> rw [e] <;> decide, few_factors_63 Nat.card_pos ?_⟩))
      have k1 : fieldSize f.1 ≤ 2 ^ c.bits := size_asked hf
      have k2 := order_le f (numbered f a b)
      have k3 : 2 ^ c.bits ≤ 2 ^ 14 := Nat.pow_le_pow_right (by decide) e2
      omega) hg
  refine ⟨w, w1, w2, w3, ?_⟩
  have hgen := generated_complete P hP c hcov w.tape 9 (toSize c.count) w ⟨rfl, w1⟩
  have hdig := (consistent n os c h).hexDigits.2.1
  obtain ⟨js, h1, h2⟩ := Parson.output_reads malloc hma c.hexDigits (one P c 9) (toSize c.count) w
    (fun v hv => by
      obtain ⟨x, hx, hv'⟩ := hgen v hv
      exact curve_printable c w.tape x hx v hv' (inv_short hcov (fun i => (w1.picks i).elt) hmod h0 (by omega) x hx v hv')) w4
  refine ⟨js, h1, ?_, fun j hj => ?_⟩
  · rw [← w4, ← List.length_map (f := readCurve), h2, List.length_map]
  · have : readCurve j ∈ (Json.generated (one P c 9) (toSize c.count) w).map fun v => some (curveV v) := by
      rw [← h2]; exact List.mem_map_of_mem hj
    obtain ⟨v, hv, e⟩ := List.mem_map.1 this
    obtain ⟨x, hx, hv'⟩ := hgen v hv
    obtain ⟨k1, k2, k3⟩ := w5 v hv
    exact ⟨curveV v, e.symm, k1, k2, k3, curve_asked c hcov w.tape (coeffs_fine w1) x hx v hv'⟩

/-- **C99, met**: `ecgen --fp --random --prime 3`, the field of seven elements, and the curve `y² = x³ + x + 1` of five points meet the hypotheses -/
theorem every_curve_met : ∃ (n : Int) (os : List Opt) (c : Config) (f : Fld) (a b : Nat), commandLine n os = some c ∧ c.method = 0 ∧ Modest c ∧
    c.koblitz = false ∧ c.hexCheck = none ∧ FieldAsked c f.1 ∧ a < fieldSize f.1 ∧ b < fieldSize f.1 ∧ KoblitzAsked c a b ∧
    (numbered f a b).Δ ≠ 0 ∧ OrderAsked c (Nat.card (numbered f a b).Point) ∧ Nat.card (numbered f a b).Point = 5 ∧
    Plain c (numbered f a b).Point ∧ Clear c (Nat.card (numbered f a b).Point) ∧
    (c.pointsType = .random → Nat.card (numbered f a b).Point ≠ 1) ∧ toSize c.count = 1 ∧
    ∀ a' b', a' = a ∨ a' = b → b' = a ∨ b' = b → (numbered f a' b').Δ ≠ 0 → ∃ l, Group.GensSpec (numbered f a' b').Point l := by
  have hcard : Nat.card (numbered F7 1 1).Point = 5 := E7_card
  refine ⟨4, _, c1, F7, 1, 1, c1_some, by decide +kernel, ⟨by decide +kernel, by decide +kernel, by decide +kernel⟩, by decide +kernel, by decide +kernel,
    ⟨by decide +kernel, fun _ _ => by decide +kernel, by decide +kernel⟩, by decide, by decide, fun h => absurd h (by decide +kernel), E7_delta,
    ⟨fun _ => by rw [hcard]; decide, fun h => absurd h (by decide +kernel), fun h => absurd h (by decide +kernel)⟩, hcard,
    ⟨fun h => absurd h (by decide +kernel), fun _ h => absurd h (by decide +kernel)⟩, Or.inr (Or.inl (by decide +kernel)), fun h => absurd h (by decide +kernel), by decide +kernel, ?_⟩
  intro a' b' h1 h2 _
  obtain rfl : a' = 1 := by omega
  obtain rfl : b' = 1 := by omega
  exact ⟨[G7], G7_gens⟩

end Ecgen.Whole
