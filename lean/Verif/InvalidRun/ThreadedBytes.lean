import Verif.InvalidRun.ThreadedProps

/-!
# The bytes that a run of `--invalid` with several threads prints (C95)
-/

namespace Ecgen.InvalidRun

open Output Output.Spec Cli Whole Json

section Texts

open Parson Parson.Spec

variable {κ : Type}

theorem text_head_item {t : List Byte} {v : Value} (h : Text t v) : ∃ c r, t = c :: r ∧ isWhite c = false ∧ c ≠ 93 ∧ c ≠ 44 := by
  cases h <;> exact ⟨_, _, rfl, by decide, by decide, by decide⟩

theorem pair_items (text : κ → List Byte) (val : κ → Value) (a b : κ) (ha : Text (text a) (val a)) (hb : Text (text b) (val b)) (rest : List Byte) :
    ∀ (os : List κ), (∀ o ∈ os, Text (text o) (val o)) → ∀ (w : List Byte), White w →
    ∃ N, ∀ n, N ≤ n → readItems n (w ++ (os.flatMap (fun o => text o ++ [44, 10]) ++ (text a ++ (text b ++ rest)))) = none
  | [], _, w, hw => by
      obtain ⟨M, hM⟩ := text_read ha
      obtain ⟨c, r, hc, hcw, h93, h44⟩ := text_head_item hb
      refine ⟨M + 1, fun n hn => ?_⟩
      obtain ⟨m, rfl⟩ := Nat.exists_eq_add_of_le' (show 1 ≤ n by omega)
      rw [readItems, skip_white hw, List.flatMap_nil, List.nil_append, text_skip ha, hM m (by omega) _]
      simp only
      rw [text_skip hb, hc, List.cons_append]
      simp only
      rw [if_neg h44, if_neg h93]
  | o :: os, h, w, hw => by
      obtain ⟨N, hN⟩ := pair_items text val a b ha hb rest os (fun x hx => h x (by simp [hx])) [10] white_newline
      obtain ⟨M, hM⟩ := text_read (h o (by simp))
      refine ⟨N + M + 1, fun n hn => ?_⟩
      obtain ⟨m, rfl⟩ := Nat.exists_eq_add_of_le' (show 1 ≤ n by omega)
      rw [readItems, skip_white hw]
      have e : (o :: os).flatMap (fun o => text o ++ [44, 10]) ++ (text a ++ (text b ++ rest)) =
          text o ++ (44 :: ([10] ++ (os.flatMap (fun o => text o ++ [44, 10]) ++ (text a ++ (text b ++ rest))))) := by simp
      rw [e, text_skip (h o (by simp)), hM m (by omega) _]
      simp only
      rw [skip, if_neg (by decide)]
      simp only [if_true]
      rw [hN m (by omega)]
      rfl

/-- two values without a comma between them: no JSON document -/
theorem pair_no_document (text : κ → List Byte) (val : κ → Value) (os : List κ) (a b : κ) (rest : List Byte)
    (h : ∀ x ∈ os, Text (text x) (val x)) (ha : Text (text a) (val a)) (hb : Text (text b) (val b)) (v : Value) :
    ¬ Document (91 :: ([10] ++ (os.flatMap (fun o => text o ++ [44, 10]) ++ (text a ++ (text b ++ rest))))) v := by
  rintro ⟨w, t, w', hw, ht, _, e⟩
  have e1 := congrArg skip e
  rw [skip_white hw, text_skip ht, skip, if_neg (by decide)] at e1
  obtain ⟨N, hN⟩ := text_read ht
  obtain ⟨M, hM⟩ := pair_items text val a b ha hb rest os h [10] white_newline
  have h1 := hN (N + M + 1) (by omega) w'
  rw [← e1, readV, if_neg (by decide), if_pos rfl, if_neg, hM (N + M) (by omega)] at h1
  · cases h1
  · rw [skip_white white_newline]
    rcases os with _ | ⟨o, os⟩
    · obtain ⟨c, r, hc, hcw, h93, -⟩ := text_head_item ha
      rw [List.flatMap_nil, List.nil_append, text_skip ha, hc]
      simpa using h93
    · obtain ⟨c, r, hc, hcw, h93, -⟩ := text_head_item (h o (by simp))
      rw [List.flatMap_cons, List.append_assoc, List.append_assoc, text_skip (h o (by simp)), hc]
      simpa using h93

end Texts

theorem shown_sepd (es : List (Invalid.Entry Member W)) : (Invalid.sepd es).map shownTok = Invalid.sepd (es.map shown) := by
  induction es with
  | nil => rfl
  | cons e es ih =>
    simp only [Invalid.sepd, List.flatMap_cons, List.map_append, List.map_cons, List.map_nil] at ih ⊢
    rw [ih]
    rfl

theorem sepd_text (text : Output.Curve → List Parson.Byte) (vs : List Output.Curve) :
    Parson.outputText text (Invalid.sepd vs) = vs.flatMap fun v => text v ++ [44, 10] := by
  induction vs with
  | nil => rfl
  | cons v vs ih =>
    simp only [Invalid.sepd, Parson.outputText, List.flatMap_cons, List.flatMap_append, List.flatMap_nil, Parson.tokText, List.append_nil, List.append_assoc] at ih ⊢
    rw [ih]

theorem sepd_objects {κ : Type} (os : List κ) : objects (Invalid.sepd os) = os := by
  induction os with
  | nil => rfl
  | cons o os ih =>
    simp only [Invalid.sepd, List.flatMap_cons] at ih ⊢
    simp [objects, ih]

theorem obj_objects {κ ι : Type} (f : ι → κ) (es : List ι) : objects (es.map fun e => Tok.obj (f e)) = es.map f := by
  induction es with
  | nil => rfl
  | cons e es ih => simp [objects, ih]

/-- **C95**, the bytes: look at the step of the main thread that ends a run of `--invalid` with several threads. What the whole run has printed then is a
JSON document exactly if all but one of the curves had been printed before this step. In this case it is the array of the curves printed. -/
theorem threaded_run_document (malloc : Nat → List Parson.Byte) (hm : ∀ n, (malloc n).length = n) (P : Pari) (hP : P.Ok) (np : Nat → Nat)
    (hnp : Invalid.NextSpec np) (n : Int) (os : List Opt) (c : Config) (hc : commandLine n os = some c) (hb : c.bits ≤ 2500)
    (hr : Meant c.bits c.invalidPrimes) (w : W) (hT : TapeOk (original c) w.tape) (hu : w.ub = false) (w0 : W) (qs : List Nat) (s s' : TSt)
    (h : ThreadedRun P np c w w0 qs s) (hsm : ∀ t, c.invalidPrimes = some t → Number t → Invalid.value t ≤ 2 ^ 63 - 25) (d : TCurve) (hd : taken w0 = some d) (hs : TStep P c qs d s s')
    (hm1 : s.g.main ≠ .finished) (hm2 : s'.g.main = .finished) :
    ((∃ v, Parson.Spec.Document (bytes malloc c ((Invalid.finalOutput s'.g).map shownTok)) v) ↔ (printedValues s).length = qs.length) ∧
    ∀ j, Parson.Spec.Document (bytes malloc c ((Invalid.finalOutput s'.g).map shownTok)) (Parson.encode j) →
      ∃ js, j = .arr js ∧ js.map readCurve = (printedValues s').map some := by
  have h' : ThreadedRun P np c w w0 qs s' := by
    obtain ⟨fuel, r, _, v0, d', f, a, _, _, h1, hr0, hv0, htk, hf, ha, hq, hne, hre⟩ := h
    rw [hd] at htk
    cases htk
    exact ⟨fuel, r, _, v0, d, f, a, _, _, h1, hr0, hv0, hd, hf, ha, hq, hne, hre.step hs⟩
  obtain ⟨v0, f, a, d', hv0, hfirst, hsel, hS, hdw, hre, hi, htk⟩ := run_sound hP hnp hr hT hu h' hsm
  rw [hd] at htk
  cases htk
  obtain ⟨-, -, -, d', -, -, -, -, -, hre0, -, htk⟩ := run_sound hP hnp hr hT hu h hsm
  rw [hd] at htk
  cases htk
  have hstep : Invalid.Step (fun i => qs.getD i 0) qs.length c.threads d s.g s'.g := by
    cases hs with
    | shared g' h1 _ => exact h1
    | _ => exact absurd hm2 hm1
  obtain ⟨es, es2, ho1, ho2, hne2⟩ := Invalid.last_scan (distinct hS.sorted) hS.some hre0 hm1 hstep hm2
  obtain ⟨-, es', k1, k2, k3⟩ := Invalid.threaded_complete (distinct hS.sorted) hS.some hre hm2
  have hobj : objects s'.g.out = ((none, some d) :: es.map Invalid.entry) ++ es2.map Invalid.entry := by
    rw [ho2, ho1, objects_append, obj_objects]
    show objects (Invalid.sepd _) ++ _ = _
    rw [sepd_objects]
  have hobj0 : objects s.g.out = (none, some d) :: es.map Invalid.entry := by
    rw [ho1]
    exact sepd_objects _
  have hlen : es.length + es2.length = qs.length := by
    have e := congrArg List.length (hobj.symm.trans k1)
    have := k2.length_eq
    simp only [List.length_append, List.length_cons, List.length_map, List.length_range] at e this
    omega
  have hcount : (printedValues s).length = qs.length ↔ es2.length = 1 := by
    unfold printedValues
    rw [hobj0, List.length_map, List.length_cons, List.length_map]
    omega
  have hfine : ∀ e ∈ objects s'.g.out, Parson.PrintableText c.hexDigits (shown e) := by
    intro e he
    have hdig := (consistent n os c hc).hexDigits.2.1
    have room : (3 * (1 + 1) + 4) * (96 * (c.bits + 2 + 1) + 1600) ≤ 2147483646 := by omega
    rw [k1] at he
    rcases List.mem_cons.1 he with rfl | he
    · obtain ⟨x, hx1, hx2, -⟩ := hfirst
      have hsh : shown (none, some d) = v0 := by
        show (outCurve d.rest.cur).getD _ = _
        rw [hdw, hv0]
        rfl
      rw [hsh]
      exact curve_printable (original c) w.tape x hx1 v0 hx2 fun j hj =>
        out_short x _ 3 1 (inv_small (covered_original c) (fun i => (hT.picks i).elt) x hx1 rfl rfl 1 (Or.inl trivial)) c.hexDigits
          (show _ ≤ c.bits + 2 + 1 by omega) room v0 hx2 j hj
    · obtain ⟨e, he', rfl⟩ := List.mem_map.1 he
      obtain ⟨v, hv, hx1, hx3, -⟩ := stored_value hS hi (k3 e he').1 hfirst
      have hsh : shown (Invalid.entry e) = v := by
        show (outCurve e.2.rest.cur).getD _ = _
        rw [hv]
        rfl
      rw [hsh]
      exact curve_printable (invalid c) w.tape _ hx1 v hv fun j hj =>
        out_short _ _ 3 1 (inv_small (covered_invalid c) (fun i => ((tape_invalid hT).picks i).elt) _ hx1 rfl rfl 1 (Or.inr hx3)) c.hexDigits
          (show _ ≤ c.bits + 2 + 1 by omega) room v hv j hj
  have hout : (Invalid.finalOutput s'.g).map shownTok =
      .open :: (Invalid.sepd (((none, some d) :: es.map Invalid.entry).map shown) ++ es2.map fun e => Tok.obj (shown (Invalid.entry e))) ++ [.close] := by
    unfold Invalid.finalOutput
    rw [ho2, ho1, List.map_append, List.map_append, List.map_cons, shown_sepd, List.map_map]
    rfl
  have good : es2.length = 1 → ∃ vs, vs = (objects s'.g.out).map shown ∧ IsArray ((Invalid.finalOutput s'.g).map shownTok) vs := by
    intro h1
    obtain ⟨e, rfl⟩ := List.length_eq_one_iff.1 h1
    refine ⟨_, rfl, ?_⟩
    rw [hout, hobj, List.map_append]
    exact Invalid.array_sepd _ _
  have hpr : ∀ v ∈ (objects s'.g.out).map shown, Parson.PrintableText c.hexDigits v := by
    intro v hv
    obtain ⟨e, he, rfl⟩ := List.mem_map.1 hv
    exact hfine e he
  have hiff : (∃ v, Parson.Spec.Document (bytes malloc c ((Invalid.finalOutput s'.g).map shownTok)) v) ↔ es2.length = 1 := by
    constructor
    · rintro ⟨v, hv⟩
      by_contra h1
      match es2, hne2, h1 with
      | [_], _, h1 => exact h1 rfl
      | e1 :: e2 :: es2, _, _ =>
        have ht : ∀ e ∈ objects s'.g.out, Parson.Spec.Text (Parson.curveText malloc c.hexDigits (shown e)) (Parson.encode (toJson c.hexDigits (shown e))) := by
          intro e he
          obtain ⟨m, j, h1, h2, h3⟩ := Parson.curve_text malloc hm c.hexDigits _ (hfine e he)
          simpa [toJson, Parson.curveText, h1, h2] using h3
        rw [hobj] at ht
        refine pair_no_document (fun e => Parson.curveText malloc c.hexDigits (shown e)) (fun e => Parson.encode (toJson c.hexDigits (shown e)))
          ((none, some d) :: es.map Invalid.entry) (Invalid.entry e1) (Invalid.entry e2)
          (Parson.outputText (Parson.curveText malloc c.hexDigits) (es2.map (fun e => Tok.obj (shown (Invalid.entry e))) ++ [.close]))
          (fun x hx => ht x (List.mem_append_left _ hx)) (ht _ (by simp)) (ht _ (by simp)) v ?_
        convert hv using 1
        unfold bytes
        rw [hout]
        have e3 : ∀ a b : List (Tok Output.Curve), Parson.outputText (Parson.curveText malloc c.hexDigits) (a ++ b) =
            Parson.outputText (Parson.curveText malloc c.hexDigits) a ++ Parson.outputText (Parson.curveText malloc c.hexDigits) b := fun a b => by
          simp [Parson.outputText]
        have e4 : ∀ a : List (Tok Output.Curve), Parson.outputText (Parson.curveText malloc c.hexDigits) (.open :: a) =
            91 :: 10 :: Parson.outputText (Parson.curveText malloc c.hexDigits) a := fun _ => rfl
        have e5 : ∀ v (a : List (Tok Output.Curve)), Parson.outputText (Parson.curveText malloc c.hexDigits) (.obj v :: a) =
            Parson.curveText malloc c.hexDigits v ++ Parson.outputText (Parson.curveText malloc c.hexDigits) a := fun _ _ => rfl
        simp only [List.cons_append, e4]
        simp only [e3, sepd_text, List.map_cons, List.flatMap_cons, List.flatMap_map, e5, List.append_assoc, List.cons_append, List.nil_append]
    · intro h1
      obtain ⟨vs, rfl, harr⟩ := good h1
      exact ⟨_, ((array_reads malloc hm c.hexDigits _ _ harr hpr).1 _).2 rfl⟩
  refine ⟨hiff.trans hcount.symm, fun j hj => ?_⟩
  obtain ⟨vs, rfl, harr⟩ := good (hiff.1 ⟨_, hj⟩)
  obtain ⟨h1, h2⟩ := array_reads malloc hm c.hexDigits _ _ harr hpr
  refine ⟨_, (h1 j).1 hj, ?_⟩
  unfold printedValues
  rw [List.map_map, List.map_map, List.map_map]
  refine List.map_congr_left fun e he => ?_
  exact h2 (shown e) (List.mem_map_of_mem he)

end Ecgen.InvalidRun
