import Verif.Whole.CompleteProps
import Verif.Whole.Vanishing

/-!
# Exactly which curves a command line can print (C99)
-/

namespace Ecgen.Whole

open Output Output.Spec Cli

/-- the group of a printed curve is one the search accepts -/
theorem curve_plain (c : Config) (T : Nat → Pick) (x : Cur) (hi : Inv c T 9 x) (v : Output.Curve) (h : outCurve x = some v) :
    ∃ f : Fld, (curveV v).field = f.1 ∧ Plain c (numbered f (curveV v).a (curveV v).b).Point := by
  obtain ⟨f, a, b, h1, h2, h3, h4, -⟩ := hi.crv (by omega)
  obtain ⟨E, e1, ho, -⟩ := hi.order (by omega)
  rw [h4] at e1; cases e1
  obtain ⟨E, l, e1, hl, hgk, -⟩ := hi.gens (by omega)
  rw [h4] at e1; cases e1
  simp only [outCurve, h1, h2, h3, ho, hl, Option.map_eq_some_iff] at h
  obtain ⟨gs, hgs, rfl⟩ := h
  have hgs := allSome_eq _ _ hgs
  have hne : ∀ g ∈ l.map Group.Sub.gen, g.point ≠ 0 := by
    intro g hg
    obtain ⟨s, hs, rfl⟩ := List.mem_map.1 hg
    have : outSub ⟨f, a, b⟩ s ∈ gs.map some := hgs ▸ List.mem_map_of_mem hs
    obtain ⟨t, -, ht⟩ := List.mem_map.1 this
    have ht := ht.symm
    simp only [outSub, Option.bind_eq_some_iff] at ht
    obtain ⟨q, hq, -⟩ := ht
    exact (point_printed _ _ _ _ hq).1
  refine ⟨f, fieldV_out f, fun hu => ?_, fun hu hc => hgk.plain hu hc hne⟩
  rcases hgk.unique hu with ⟨u1, -⟩ | ⟨g, -, u2⟩
  · have : Subsingleton (Crv.mk f a b).Pt := (Nat.card_eq_one_iff_unique.1 u1).1
    exact isAddCyclic_of_subsingleton (α := (Crv.mk f a b).Pt)
  · exact isAddCyclic_of_addOrderOf_eq_card g.point u2

/-- the curve with these coefficients over this field is among those in the JSON document of the bytes -/
def Printed (bs : List Parson.Byte) (f : FieldV) (a b : Nat) : Prop :=
  ∃ js, Parson.Spec.Document bs (Parson.encode (.arr js)) ∧ ∃ j ∈ js, ∃ v, readCurve j = some v ∧ v.field = f ∧ v.a = a ∧ v.b = b

/-- the curve meets what the command line and the search ask for -/
structure Meets (c : Config) (f : Fld) (a b : Nat) : Prop where
  field : FieldAsked c f.1
  fits : a < fieldSize f.1
  fits' : b < fieldSize f.1
  koblitz : KoblitzAsked c a b
  nonsingular : (numbered f a b).Δ ≠ 0
  order : OrderAsked c (Nat.card (numbered f a b).Point)
  plain : Plain c (numbered f a b).Point

/-- what a run that ends well prints meets it -/
theorem printed_meets (malloc : Nat → List Parson.Byte) (hma : ∀ n, (malloc n).length = n)
    (P : Pari) (hP : P.Ok) (n : Int) (os : List Opt) (c : Config) (h : commandLine n os = some c) (hm : c.method = 0) (hmod : Modest c)
    (hk : c.koblitz = true → c.field = FIELD_PRIME → c.prime = false → c.cofactor = false → c.smooth = false →
      Koblitz.getOrder c.bits c.koblitzValue.toNat = none)
    (fuel : Nat) (w : W) (hb : TapeOk c w.tape) (hstatus : (produce P c fuel w).2 = 0) (f : Fld) (a b : Nat)
    (hp : Printed (bytes malloc P c fuel w) f.1 a b) : Meets c f a b := by
  have hcov := covered n os c h (Or.inl hm) fun h1 _ => hk h1
  have h0 : c.seedAlgo = .none := by
    rcases hcov.algo with h | h
    · exact h.1
    · rw [hm] at h
      exact absurd h.2 (by decide)
  have hgen := generated_complete P hP c hcov w.tape fuel (toSize c.count) w ⟨rfl, hb⟩
  have hdig := (consistent n os c h).hexDigits.2.1
  have hlen : (Json.generated (one P c fuel) (toSize c.count) w).length = toSize c.count := (Json.generate_objects _ _ _).2.1 hstatus
  obtain ⟨js, h1, h2⟩ := Parson.output_reads malloc hma c.hexDigits (one P c fuel) (toSize c.count) w
    (fun v hv => by
      obtain ⟨x, hx, hv'⟩ := hgen v hv
      exact curve_printable c w.tape x hx v hv' (inv_short hcov (fun i => (hb.picks i).elt) hmod h0 (by omega) x hx v hv')) hlen
  obtain ⟨js', hd, j, hj, v, hv, e1, e2, e3⟩ := hp
  have e := (h1 _).1 hd
  cases e
  have : readCurve j ∈ (Json.generated (one P c fuel) (toSize c.count) w).map fun v => some (curveV v) := by
    rw [← h2]; exact List.mem_map_of_mem hj
  obtain ⟨u, hu, e⟩ := List.mem_map.1 this
  rw [hv] at e
  cases e
  obtain ⟨x, hx, hv'⟩ := hgen u hu
  obtain ⟨-, f1, k1, k2, k3, k4, k5, k6, k7, k8, -⟩ := curve_asked c hcov w.tape (coeffs_fine hb) x hx u hv'
  obtain ⟨f2, l1, l2⟩ := curve_plain c w.tape x hx u hv'
  have m1 : f = f1 := Subtype.ext (e1.symm.trans k1)
  have m2 : f = f2 := Subtype.ext (e1.symm.trans l1)
  subst m1
  subst m2
  rw [e1] at k2 k3 k4
  rw [k7] at k8
  rw [e2] at k3 k5 k6 k8 l2
  rw [e3] at k4 k5 k6 k8 l2
  exact ⟨k2, k3 h0, k4, k5, k6, k8, l2⟩

/-- **C99** Exactly which curves can be printed: with random numbers within their ranges, a run of the default method that ends well prints the curve with the
coefficients `a` and `b` over the field if and only if it meets the command line and its group is cyclic, where `--unique` is given, and cyclic or
of `k²` elements with `--cofactor=k`. -/
theorem which_curves (malloc : Nat → List Parson.Byte) (hma : ∀ n, (malloc n).length = n)
    (P : Pari) (hP : P.Ok) (n : Int) (os : List Opt) (c : Config) (h : commandLine n os = some c) (hm : c.method = 0) (hmod : Modest c)
    (hk : c.koblitz = true → c.field = FIELD_PRIME → c.prime = false → c.cofactor = false → c.smooth = false →
      Koblitz.getOrder c.bits c.koblitzValue.toNat = none)
    (hh : c.hexCheck = none) (hcount : toSize c.count ≠ 0) (f : Fld) (a b : Nat) (hcl : Clear c (Nat.card (numbered f a b).Point))
    (h1 : c.pointsType = .random → Nat.card (numbered f a b).Point ≠ 1)
    (hg : ∀ a' b', a' = a ∨ a' = b → b' = a ∨ b' = b → (numbered f a' b').Δ ≠ 0 → ∃ l, Group.GensSpec (numbered f a' b').Point l) :
    (∃ fuel w, TapeOk c w.tape ∧ (produce P c fuel w).2 = 0 ∧ Printed (bytes malloc P c fuel w) f.1 a b) ↔ Meets c f a b := by
  constructor
  · rintro ⟨fuel, w, h2, h3, h4⟩
    exact printed_meets malloc hma P hP n os c h hm hmod hk fuel w h2 h3 f a b h4
  · rintro ⟨m1, m2, m3, m4, m5, m6, m7⟩
    obtain ⟨w, w1, -, w3, js, w4, w5, w6⟩ := every_curve_printed_partial malloc hma P hP n os c h hm hmod hk hh f a b m1 m2 m3 m4 m5 m6 m7 hcl h1 hg
    refine ⟨9, w, w1, w3, js, (w4 _).2 rfl, ?_⟩
    match js, w5, w6 with
    | [], w5, _ => exact absurd w5.symm hcount
    | j :: js, _, w6 =>
      obtain ⟨v, v1, v2, v3, v4, -⟩ := w6 j (by simp)
      exact ⟨j, by simp, v, v1, v2, v3, v4⟩

/-! ## A curve that is never found -/

/-- `ecgen --fp --random --cofactor=4 3` -/
def cof4 : Config := (commandLine 4 [.fp, .random none, .cofactor "4".toList, .arg "3".toList]).get (by decide +kernel)

theorem cof4_some : commandLine 4 [.fp, .random none, .cofactor "4".toList, .arg "3".toList] = some cof4 := (Option.some_get _).symm

/-- **C99, for `--cofactor` and groups that are not cyclic, is false**: `ecgen --fp --random --cofactor=4 3` asks for curves over fields of three bits whose
number of points is four times a prime. The curve `y² = x³ + 1` over the field of seven elements has twelve points, and among them one of order
three; but no run ever prints it, since no single generator of its group has an order divisible by four. -/
theorem cofactor_never_found_false : ∃ (os : List Opt) (c : Config) (f : Fld) (a b : Nat), commandLine 4 os = some c ∧ c.cofactor = true ∧
    toSize c.cofactorValue = 4 ∧ FieldAsked c f.1 ∧ a < fieldSize f.1 ∧ b < fieldSize f.1 ∧ KoblitzAsked c a b ∧ (numbered f a b).Δ ≠ 0 ∧
    OrderAsked c (Nat.card (numbered f a b).Point) ∧ (∃ G : (numbered f a b).Point, Nat.card (numbered f a b).Point = 4 * addOrderOf G ∧ (addOrderOf G).Prime) ∧
    ∀ (malloc : Nat → List Parson.Byte), (∀ n, (malloc n).length = n) → ∀ (P : Pari), P.Ok → ∀ (fuel : Nat) (w : W), TapeOk c w.tape →
      (produce P c fuel w).2 = 0 → ¬ Printed (bytes malloc P c fuel w) f.1 a b := by
  have hcard : Nat.card (numbered F7 0 1).Point = 12 := E12_card
  have hcof : cof4.cofactor = true ∧ toSize cof4.cofactorValue = 4 ∧ cof4.unique = false := by decide +kernel
  obtain ⟨g, t, hg, ht, hs⟩ : ∃ g t : (numbered F7 0 1).Point, addOrderOf g = 6 ∧ addOrderOf t = 2 ∧ Group.GensSpec (numbered F7 0 1).Point [g, t] := gens_E12
  refine ⟨_, cof4, F7, 0, 1, cof4_some, hcof.1, hcof.2.1, ⟨by decide +kernel, fun _ _ => by decide +kernel, by decide +kernel⟩, by decide, by decide,
    fun h => absurd h (by decide +kernel), E12_delta, ⟨fun h => absurd h (by decide +kernel), fun _ => ⟨3, by decide, by rw [hcard, hcof.2.1]⟩,
      fun h => absurd h (by decide +kernel)⟩, ⟨2 • g, ?_, ?_⟩, ?_⟩
  · rw [addOrderOf_nsmul' g (by decide), hg, hcard]
    decide
  · rw [addOrderOf_nsmul' g (by decide), hg]
    decide
  · intro malloc hma P hP fuel w hT hst hp
    have := (printed_meets malloc hma P hP _ _ cof4 cof4_some (by decide +kernel) ⟨by decide +kernel, by decide +kernel, by decide +kernel⟩
      (by decide +kernel) fuel w hT hst F7 0 1 hp).plain.2 hcof.2.2 hcof.1
    rcases this with h | h
    · exact Group.not_cyclic g t hs.1 hs.2.1 hs.2.2.1 hs.2.2.2 h
    · rw [hcard, hcof.2.1] at h
      exact absurd h (by decide)

end Ecgen.Whole
