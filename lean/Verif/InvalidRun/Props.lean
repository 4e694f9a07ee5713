import Verif.InvalidRun.Loop
import Verif.Whole.Bound

/-!
# What a run of the invalid curve method prints (C91), that nothing undefined happens (C92), and runs that cannot end well (C93)
-/

namespace Ecgen.InvalidRun

open Output Output.Spec Cli Whole Json

/-! ## All runs -/

/-- the curve to invalidate, as printed -/
def FirstCurve (c : Config) (T : Nat → Pick) (v0 : Output.Curve) (o : Nat) (f : Fld) (a : Elt) : Prop :=
  ∃ x, Inv (original c) T 9 x ∧ outCurve x = some v0 ∧ x.order = some o ∧ x.field = some f ∧ x.a = some a

theorem run_cases (P : Pari) (hP : P.Ok) (np : Nat → Nat) (hnp : Invalid.NextSpec np) (c : Config) (hr : Meant c.bits c.invalidPrimes) (fuel : Nat) (w : W)
    (hT : TapeOk (original c) w.tape) (hu : w.ub = false) :
    produce P np c fuel w = .running ∨ produce P np c fuel w = .done ([], 1) ∨
    ∃ v0 o f a qs, FirstCurve c w.tape v0 o f a ∧ Selected c.invalidPrimes o qs ∧
      (produce P np c fuel w = .running ∨
       (qs = [] ∧ produce P np c fuel w = .done ([.open, .obj v0, .comma], 1)) ∨
       qs ≠ [] ∧ ∃ (ts : List (Tok Output.Curve)) (es : List (Nat × Output.Curve)), produce P np c fuel w = .done (ts, 0) ∧ IsArray ts (v0 :: es.map Prod.snd) ∧
        (es.map Prod.fst).Perm (List.range qs.length) ∧ ∀ e ∈ es, Stored c w.tape f a qs (qs.getD e.1 0) e.2) := by
  unfold produce
  rcases phase_original hP hT fuel w rfl hu with h1 | ⟨r, w', h1, h2⟩
  · simp only [h1]
    exact Or.inl trivial
  · simp only [h1]
    by_cases hr0 : r = 0
    · rw [if_pos hr0]
      exact Or.inr (Or.inl rfl)
    · rw [if_neg hr0]
      obtain ⟨-, -, hi, ht, hub⟩ := h2.resolve_right hr0
      obtain ⟨v0, hv0⟩ := original_printed hi
      obtain ⟨f, a, b, e1, e2, e3, e4, -⟩ := hi.crv (by omega)
      obtain ⟨E, e5, ho, -⟩ := hi.order (by omega)
      rw [e4] at e5
      cases e5
      obtain ⟨f', e6, hfa, hcf⟩ := hi.field (by omega)
      rw [e1] at e6
      cases e6
      obtain ⟨f', a', e6, e7, hca⟩ := hi.a (by omega) rfl
      rw [e1] at e6
      cases e6
      rw [e2] at e7
      cases e7
      simp only [hv0, ho, e1, e2]
      have hfirst : FirstCurve c w.tape v0 (Nat.card (Crv.mk f a b).Pt) f a := ⟨w'.cur, original_complete hi, hv0, ho, e1, e2⟩
      cases hq : Invalid.invalidPrimes np (Nat.card (Crv.mk f a b).Pt) c.invalidPrimes fuel with
      | none => exact Or.inl rfl
      | some qs =>
        obtain ⟨hb1, -, hb2⟩ := order_bound hfa (Crv.mk f a b).eqn
        have hsel := selected hnp hr hb1 hb2 hq
        obtain ⟨hs, hp⟩ := selected_primes hr hsel
        refine Or.inr (Or.inr ⟨v0, _, f, a, qs, hfirst, hsel, ?_⟩)
        simp only
        by_cases h0 : qs.length = 0
        · rw [if_pos h0]
          exact Or.inr (Or.inl ⟨List.length_eq_zero_iff.1 h0, rfl⟩)
        · rw [if_neg h0]
          have hready : Ready w.tape f a { w' with cur := { field := some f, a := some a } } := ⟨rfl, rfl, rfl, rfl, ht, hub⟩
          rcases search_cases hP hT ⟨hfa, hcf, hca⟩ hs hp v0 fuel fuel
            ⟨{ w' with cur := { field := some f, a := some a } }, fun _ => false, 0, [.open, .obj v0, .comma]⟩ [] hready
            { count := rfl
              mem := fun i => by simp
              nodup := by simp
              good := fun e he => (nomatch he)
              out := by rw [if_pos (by simp; omega)]; simp [Invalid.sepd] } with h3 | ⟨st, es, h3, h4, h5⟩
          · simp only [h3]
            exact Or.inl trivial
          · simp only [h3]
            refine Or.inr (Or.inr ⟨fun e => h0 (by rw [e]; rfl), _, es, rfl, ?_, ?_, fun e he => (h4.good e he).2⟩)
            · rw [h4.out, if_neg (by omega)]
              have := Invalid.array_sepd ((v0 :: es.map Prod.snd).dropLast) ((v0 :: es.map Prod.snd).getLast (by simp))
              rw [List.dropLast_append_getLast] at this
              exact this
            · have hsub : (es.map Prod.fst) ⊆ List.range qs.length := by
                intro x hx
                obtain ⟨e, he, rfl⟩ := List.mem_map.1 hx
                exact List.mem_range.2 (h4.good e he).1
              exact (List.subperm_of_subset h4.nodup hsub).perm_of_length_le (by simpa using h5)

/-- **C92** A run of the invalid curve method with one thread does nothing undefined: it goes on, or it ends. -/
theorem invalid_run_defined (P : Pari) (hP : P.Ok) (np : Nat → Nat) (hnp : Invalid.NextSpec np) (c : Config) (hr : Meant c.bits c.invalidPrimes)
    (fuel : Nat) (w : W) (hT : TapeOk (original c) w.tape) (hu : w.ub = false) : produce P np c fuel w ≠ .undefined := by
  intro h
  rcases run_cases P hP np hnp c hr fuel w hT hu with h1 | h1 | ⟨_, _, _, _, _, -, -, h1 | ⟨-, h1⟩ | ⟨-, _, _, h1, -⟩⟩ <;> rw [h] at h1 <;> cases h1

/-! ## What is printed -/

theorem stored_serves {c : Config} {T : Nat → Pick} (hT : TapeOk (original c) T) {v0 : Output.Curve} {o : Nat} {f : Fld} {a : Elt} {qs : List Nat}
    (h0 : FirstCurve c T v0 o f a) {q : Nat} {v : Output.Curve} (h : Stored c T f a qs q v) : Serves c (curveV v0) qs q (curveV v) := by
  obtain ⟨x0, -, hv0, -, hf0, ha0⟩ := h0
  obtain ⟨x, o', hi, hv, hf, ha, ho, hd, hl, -⟩ := h.curve
  obtain ⟨f1, a1, b1, n1, E1, l1, g1, e1, e2, -, e4, -, -, rfl⟩ := printed_values hv
  obtain ⟨f2, a2, b2, n2, E2, l2, g2, k1, k2, -, -, -, -, rfl⟩ := printed_values hv0
  rw [hf] at e1; cases e1
  rw [ha] at e2; cases e2
  rw [ho] at e4; cases e4
  rw [hf0] at k1; cases k1
  rw [ha0] at k2; cases k2
  refine ⟨curve_asked (invalid c) (covered_invalid c) T (coeffs_fine (tape_invalid hT)) x hi _ hv, rfl, rfl, fun hq => ?_⟩
  have hdv := divides_small hq hd
  exact ⟨hdv, hl hdv⟩

/-- the JSON value of a curve -/
def toJson (width : Nat) (v : Output.Curve) : Output.Json := (outputJson width v).getD (.str [])

/-- the text of an array of curves is read as that array -/
theorem array_reads (malloc : Nat → List Parson.Byte) (hm : ∀ n, (malloc n).length = n) (width : Nat) (ts : List (Tok Output.Curve)) (vs : List Output.Curve)
    (h : IsArray ts vs) (hp : ∀ v ∈ vs, Parson.PrintableText width v) :
    (∀ j, Parson.Spec.Document (Parson.outputText (Parson.curveText malloc width) ts) (Parson.encode j) ↔ j = .arr (vs.map (toJson width))) ∧
    ∀ v ∈ vs, readCurve (toJson width v) = some (curveV v) := by
  have ht : ∀ v ∈ vs, Parson.Spec.Text (Parson.curveText malloc width v) (Parson.encode (toJson width v)) := by
    intro v hv
    obtain ⟨m, j, h1, h2, h3⟩ := Parson.curve_text malloc hm width v (hp v hv)
    simpa [toJson, Parson.curveText, h1, h2] using h3
  have hdoc := Parson.array_text (Parson.curveText malloc width) (fun v => Parson.encode (toJson width v)) ts _ h ht
  refine ⟨fun j => ⟨fun hj => ?_, fun hj => ?_⟩, fun v hv => ?_⟩
  · apply Parson.encode_injective
    rw [Parson.document_unique hj hdoc, Parson.encode, Parson.encodeItems_eq, List.map_map]
    rfl
  · subst hj
    rw [Parson.encode, Parson.encodeItems_eq, List.map_map]
    exact hdoc
  · obtain ⟨m, j, -, h2, -⟩ := Parson.curve_text malloc hm width v (hp v hv)
    simpa [toJson, h2] using Output.printed_curve_reads width v j (hp v hv).printable h2

theorem mem_objects : ∀ (ts : List (Tok Output.Curve)) v, v ∈ objects ts ↔ .obj v ∈ ts := by
  intro ts
  induction ts with
  | nil => intro v; exact ⟨(fun hv => nomatch hv), (fun hv => nomatch hv)⟩
  | cons t ts ih =>
    intro v
    cases t <;> simp [objects, ih]

/-- **C91** From the configuration to the bytes, `--invalid` with one thread (partial): when a run ends with the status 0, what it has printed is the JSON
text of an array. The first curve is the one to invalidate, a right curve as the default method would print it. The others are one for each prime that
the option selects: over the same field with the same first coefficient, with right orders, generators and points, and of an order divisible by the prime.
Missing: that a point of the order of the prime itself is listed, which is false (`invalid_run_point_false`): the point may have the order of a smaller
selected prime. -/
theorem invalid_run_prints_partial (malloc : Nat → List Parson.Byte) (hm : ∀ n, (malloc n).length = n) (P : Pari) (hP : P.Ok)
    (np : Nat → Nat) (hnp : Invalid.NextSpec np) (c : Config) (hr : Meant c.bits c.invalidPrimes) (fuel : Nat) (w : W)
    (hT : TapeOk (original c) w.tape) (hu : w.ub = false) (ts : List (Tok Output.Curve)) (h : produce P np c fuel w = .done (ts, 0))
    (hs : ∀ v, .obj v ∈ ts → ∀ j, Parson.outputJjson c.hexDigits v = .ok j → (Parson.render true 0 j).length ≤ 2147483646) :
    ∃ (j0 : Output.Json) (js : List (Nat × Output.Json)) (v0 : CurveV) (qs : List Nat),
      (∀ j, Parson.Spec.Document (bytes malloc c ts) (Parson.encode j) ↔ j = .arr (j0 :: js.map Prod.snd)) ∧
      readCurve j0 = some v0 ∧ Asked (original c) v0 ∧ Selected c.invalidPrimes v0.order qs ∧ qs ≠ [] ∧ (js.map Prod.fst).Perm qs ∧
      ∀ e ∈ js, ∃ v, readCurve e.2 = some v ∧ Serves c v0 qs e.1 v := by
  rcases run_cases P hP np hnp c hr fuel w hT hu with h1 | h1 | ⟨v0, o, f, a, qs, hfirst, hsel, h1 | ⟨-, h1⟩ | ⟨hne, ts', es, h1, harr, hperm, hst⟩⟩
  · rw [h] at h1; cases h1
  · rw [h] at h1; cases h1
  · rw [h] at h1; cases h1
  · rw [h] at h1; cases h1
  · rw [h] at h1
    cases h1
    have hobj := isArray_objects harr
    have hprint : ∀ v ∈ v0 :: es.map Prod.snd, Parson.PrintableText c.hexDigits v := by
      intro v hv
      have hsv := hs v ((mem_objects ts v).1 (hobj ▸ hv))
      rcases List.mem_cons.1 hv with rfl | hv
      · obtain ⟨x, hx1, hx2, -⟩ := hfirst
        exact curve_printable (original c) w.tape x hx1 v hx2 hsv
      · obtain ⟨e, he, rfl⟩ := List.mem_map.1 hv
        obtain ⟨x, o', hx1, hx2, -⟩ := (hst e he).curve
        exact curve_printable (invalid c) w.tape x hx1 _ hx2 hsv
    obtain ⟨h1, h2⟩ := array_reads malloc hm c.hexDigits ts _ harr hprint
    have hv0 := h2 v0 List.mem_cons_self
    obtain ⟨x, hx1, hx2, hx3, -⟩ := id hfirst
    have ho : (curveV v0).order = o := by
      obtain ⟨f2, a2, b2, n2, E2, l2, g2, -, -, -, k4, -, -, rfl⟩ := printed_values hx2
      rw [hx3] at k4
      cases k4
      rfl
    refine ⟨toJson c.hexDigits v0, es.map fun e => (qs.getD e.1 0, toJson c.hexDigits e.2), curveV v0, qs, fun j => ?_, hv0, ?_, by rw [ho]; exact hsel, hne, ?_, ?_⟩
    · rw [List.map_map]
      have := h1 j
      rw [List.map_cons, List.map_map] at this
      exact this
    · exact curve_asked (original c) (covered_original c) w.tape (coeffs_fine hT) x hx1 v0 hx2
    · rw [List.map_map]
      have := hperm.map fun i => qs.getD i 0
      rw [map_getD, List.map_map] at this
      exact this
    · intro e he
      obtain ⟨e', he', rfl⟩ := List.mem_map.1 he
      exact ⟨curveV e'.2, h2 e'.2 (List.mem_cons_of_mem _ (List.mem_map_of_mem he')), stored_serves hT hfirst (hst e' he')⟩

end Ecgen.InvalidRun
