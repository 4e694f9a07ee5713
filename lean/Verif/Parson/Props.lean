import Verif.Parson.Refine
import Verif.Parson.Texts
import Verif.Parson.Unique
import Verif.Output.Props
import Verif.Json.Props

/-!
# The printed text is the JSON text of the curves (C70)
-/

namespace Ecgen.Parson

open Spec
open Output (Curve Point Subgroup Field px elementi seedText fieldParams jsonPoint jsonSubgroup jsonField outputJson Printable)
open Output.Spec (readCurve curveV)

/-! ### UTF-8 -/

/-- **C70** A string is accepted exactly if it is a sequence of characters in UTF-8, and no byte behind its end is read. -/
theorem utf8_accepted (s : List Byte) :
    (∃ r, isValidUtf8 s = .ok r) ∧ (isValidUtf8 s = .ok true ↔ ∃ cs : List Char, s = cs.flatMap String.utf8EncodeChar) := by
  obtain ⟨r, h1, h2⟩ := isValidUtf8_eq s
  refine ⟨⟨r, h1⟩, ?_⟩
  rw [h1, Except.ok.injEq]
  exact h2

/-! ### Objects -/

theorem indexOf_get (k : List Byte) (ns : List (List Byte)) (i : Nat) (h : indexOf k ns = some i) : ns[i]? = some k ∧ ∀ j, j < i → ns[j]? ≠ some k := by
  induction ns generalizing i with
  | nil => simp [indexOf] at h
  | cons n ns ih =>
    unfold indexOf at h
    split at h
    · rename_i hn
      cases h
      exact ⟨by simp [hn], by omega⟩
    · rename_i hn
      simp only [Option.map_eq_some_iff] at h
      obtain ⟨i', hi', rfl⟩ := h
      obtain ⟨h1, h2⟩ := ih i' hi'
      refine ⟨by simpa using h1, fun j hj => ?_⟩
      match j with
      | 0 => simpa using hn
      | j + 1 => simpa using h2 j (by omega)

theorem indexOf_iff (k : List Byte) (ns : List (List Byte)) : (indexOf k ns).isSome ↔ k ∈ ns := by
  induction ns with
  | nil => simp [indexOf]
  | cons n ns ih =>
    unfold indexOf
    by_cases hn : n = k
    · simp [hn]
    · simp [hn, Ne.symm hn, ih]

theorem indexOf_snoc (k k' : List Byte) (ns : List (List Byte)) :
    indexOf k (ns ++ [k']) = if k ∈ ns then indexOf k ns else if k' = k then some ns.length else none := by
  induction ns with
  | nil => simp [indexOf]
  | cons n ns ih =>
    simp only [List.cons_append, indexOf, ih]
    by_cases hn : n = k
    · simp [hn]
    · simp only [hn, if_false, List.mem_cons, Ne.symm hn, false_or]
      by_cases hk : k ∈ ns
      · simp [hk]
      · by_cases hk' : k' = k <;> simp [hk, hk']

/-- **C70** Setting a member: afterwards the name has the new value, every other name the old one, names stay different and keep their order. -/
theorem set_then_get (o : Obj) (k : List Byte) (v : Value) (hd : o.1.Nodup) (hl : o.1.length = o.2.length) :
    ∃ o' : Obj, setValue o k v = .ok o' ∧ getn o'.1 o'.2 k = some v ∧ (∀ k', k' ≠ k → getn o'.1 o'.2 k' = getn o.1 o.2 k') ∧
      o'.1.Nodup ∧ o'.1.length = o'.2.length ∧ o.1 <+: o'.1 := by
  by_cases hk : k ∈ o.1
  · obtain ⟨i, hi⟩ := Option.isSome_iff_exists.1 ((indexOf_iff k o.1).2 hk)
    obtain ⟨h1, -⟩ := indexOf_get k o.1 i hi
    have hlt : i < o.1.length := by
      rw [List.getElem?_eq_some_iff] at h1
      exact h1.1
    refine ⟨(o.1, o.2.set i v), ?_, ?_, ?_, hd, by simpa using hl, List.prefix_refl _⟩
    · have : getn o.1 o.2 k = some (o.2[i]'(by omega)) := by simp [getn, hi, show i < o.2.length by omega]
      simp [setValue, this, hi]
    · simp [getn, hi, show i < o.2.length by omega]
    · intro k' hk'
      simp only [getn]
      cases hi' : indexOf k' o.1 with
      | none => rfl
      | some i' =>
        have hne : i ≠ i' := by
          rintro rfl
          rw [(indexOf_get k' o.1 i hi').1] at h1
          exact hk' (by simpa using h1)
        simp [List.getElem?_set, hne]
  · refine ⟨(o.1 ++ [k], o.2 ++ [v]), setValue_new o k v hk, ?_, ?_, ?_, by simp [hl], List.prefix_append _ _⟩
    · simp [getn, indexOf_snoc, hk, hl]
    · intro k' hk'
      simp only [getn, indexOf_snoc]
      by_cases hm : k' ∈ o.1
      · obtain ⟨i, hi⟩ := Option.isSome_iff_exists.1 ((indexOf_iff k' o.1).2 hm)
        obtain ⟨h1, -⟩ := indexOf_get k' o.1 i hi
        rw [List.getElem?_eq_some_iff] at h1
        obtain ⟨hlt, -⟩ := h1
        simp [hm, hi, List.getElem?_append_left (show i < o.2.length by omega)]
      · simp [hm, Ne.symm hk', indexOf_none k' o.1 hm]
    · rw [List.nodup_append]
      exact ⟨hd, by simp, by rintro a ha b hb rfl; simp only [List.mem_singleton] at hb; exact hk (hb ▸ ha)⟩

/-- **C70** The arrays of an object have room for the entry that is added. -/
theorem grow_fits (count capacity : Nat) (h : count ≤ capacity) : count < grow count capacity := by
  unfold grow
  split <;> omega

/-! ### Serialisation -/

theorem cstring_of (m t : List Byte) (h1 : m.take t.length = t) (h2 : m[t.length]? = some 0) (h3 : (0 : Byte) ∉ t) : cstring m = t := by
  have hlt : t.length < m.length := by
    rw [List.getElem?_eq_some_iff] at h2
    exact h2.1
  have e : m = t ++ 0 :: m.drop (t.length + 1) := by
    have hd : m.drop t.length = 0 :: m.drop (t.length + 1) := by
      rw [List.drop_eq_getElem_cons hlt]
      congr 1
      rw [List.getElem?_eq_getElem hlt] at h2
      simpa using h2
    rw [← hd]
    conv_lhs => rw [← List.take_append_drop t.length m, h1]
  rw [e, cstring, List.takeWhile_append_of_pos]
  · simp
  · intro c hc
    have : c ≠ 0 := by rintro rfl; exact h3 hc
    simpa using this

/-- the string that the serialisation returns, for trees without repeated names and texts shorter than `INT_MAX` -/
theorem serialise_render (malloc : Nat → List Byte) (hm : ∀ n, (malloc n).length = n) (v : Value) (h : WF v)
    (hl : (render true 0 v).length ≤ 2147483646) :
    ∃ m, toStringPretty malloc v = .ok m ∧ cstring m = render true 0 v ∧ m.length = (render true 0 v).length + 1 := by
  obtain ⟨h1, h2⟩ := writes_ser true 0 v h (by omega) 0
  have hs : serSize v = .ok ((render true 0 v).length + 1) := by
    simp only [serSize, h1, addInt]
    rw [if_pos (by omega)]
    simp only [Except.map, Except.ok.injEq]
    omega
  obtain ⟨m', h3, h4, h5, h6⟩ := h2 (malloc ((render true 0 v).length + 1)) (by rw [hm]; omega)
  refine ⟨m', ?_, ?_, by rw [h4, hm]⟩
  · simp only [toStringPretty, hs, bind, Except.bind, serBuffer, hm, h3, Option.getD_some, pure, Except.pure]
    simp
  · exact cstring_of _ _ (by simpa using h5) (by simpa using h6 rfl) (nonzero_render true 0 v)

/-- **C70** The serialisation of a tree without repeated names is a JSON text of that tree and of no other; the block it asks for is filled to the last byte
and never overrun. -/
theorem serialise_document (malloc : Nat → List Byte) (hm : ∀ n, (malloc n).length = n) (v : Value) (h : WF v)
    (hl : (render true 0 v).length ≤ 2147483646) :
    ∃ m, toStringPretty malloc v = .ok m ∧ (∀ v', Document (cstring m) v' ↔ v' = v) ∧ m.length = (cstring m).length + 1 := by
  obtain ⟨m, h1, h2, h3⟩ := serialise_render malloc hm v h hl
  have hd : Document (cstring m) v := ⟨[], _, [], white_nil, h2 ▸ text_render true 0 v h, white_nil, by simp⟩
  exact ⟨m, h1, fun v' => ⟨fun h' => document_unique h' hd, fun e => e ▸ hd⟩, by rw [h3, h2]⟩

theorem overflow_loop (n : Nat) (p : Nat) (t : Int) (ht : t ≤ 2147483647) (h : 2147483647 < t + n) :
    stringLoop (List.replicate n 97) ⟨none, p, t⟩ = .error .ub := by
  induction n generalizing t with
  | zero => omega
  | succ n ih =>
    simp only [List.replicate_succ, stringLoop]
    have e : putEscaped 97 ⟨none, p, t⟩ = advance ⟨none, p, t⟩ none 1 := rfl
    rw [e]
    unfold advance
    simp only [bind, Except.bind, addInt]
    by_cases ht' : t + 1 ≤ 2147483647
    · simp only [ht', if_true]
      exact ih (t + 1) ht' (by push_cast at h; omega)
    · simp [ht']

/-- **C70, refuted for enormous texts** The bound on the length is needed: a string of 2^31 - 1 bytes or more overflows the counter. -/
theorem serialise_overflow (malloc : Nat → List Byte) (n : Nat) (hn : 2147483647 ≤ n) :
    toStringPretty malloc (.str (List.replicate n 97)) = .error .ub := by
  have h : ser true (.str (List.replicate n 97)) 0 none 0 = .error .ub := by
    simp only [ser, body, call, serString, bind, Except.bind]
    have e : app [quote] ⟨none, 0, 0⟩ = .ok ⟨none, 0, 1⟩ := rfl
    rw [e]
    simp only
    rw [overflow_loop n 0 1 (by omega) (by omega)]
  simp [toStringPretty, serSize, h, bind, Except.bind]

/-! ### Curves -/

theorem wf_obj (l : List (String × Output.Json)) (h : (l.map (·.1)).Nodup) (hw : ∀ x ∈ l, WF (encode x.2)) : WF (encode (.obj l)) := by
  simp only [encode, WF]
  refine ⟨?_, by simp [encodeNames_eq, encodeFields_eq], ?_⟩
  · have := nodup_names h
    rw [encodeNames_eq]
    simpa [List.map_map, Function.comp_def] using this
  · clear h
    induction l with
    | nil => trivial
    | cons x l ih => exact ⟨hw x (by simp), ih fun y hy => hw y (by simp [hy])⟩

theorem wf_arr (l : List Output.Json) (hw : ∀ x ∈ l, WF (encode x)) : WF (encode (.arr l)) := by
  simp only [encode, WF]
  induction l with
  | nil => trivial
  | cons x l ih => exact ⟨hw x (by simp), ih fun y hy => hw y (by simp [hy])⟩

theorem wf_str (t : List Char) : WF (encode (.str t)) := by simp [encode, WF]

theorem wf_point (w : Nat) (p : Point) (more : List (String × Output.Json)) (hm : more = [] ∨ ∃ j, WF (encode j) ∧ more = [("points", j)]) :
    WF (encode (.obj (jsonPoint w p ++ more))) := by
  unfold jsonPoint
  apply wf_obj
  · rcases hm with rfl | ⟨j, _, rfl⟩ <;> cases p.cofactor <;> simp
  · intro x hx
    rw [List.mem_append, List.mem_append] at hx
    rcases hx with (hx | hx) | hx
    · simp only [List.mem_cons, List.not_mem_nil, or_false] at hx
      rcases hx with rfl | rfl | rfl <;> exact wf_str _
    · cases hc : p.cofactor with
      | none => rw [hc] at hx; cases hx
      | some n =>
        rw [hc] at hx
        simp only [List.mem_singleton] at hx
        subst hx
        exact wf_str _
    · rcases hm with rfl | ⟨j, hj, rfl⟩
      · cases hx
      · simp only [List.mem_singleton] at hx
        subst hx
        exact hj

theorem wf_subgroup (w : Nat) (g : Subgroup) : WF (encode (jsonSubgroup w g)) := by
  unfold jsonSubgroup
  apply wf_point
  by_cases h : g.points = []
  · exact Or.inl (by simp [h])
  · refine Or.inr ⟨.arr (g.points.map fun p => .obj (jsonPoint w p)), ?_, by simp only [ne_eq, h, not_false_eq_true, if_true]⟩
    apply wf_arr
    intro x hx
    obtain ⟨p, _, rfl⟩ := List.mem_map.1 hx
    simpa using wf_point w p [] (Or.inl rfl)

theorem wf_field (w : Nat) (f : Field) (j : Output.Json) (h : jsonField w f = some j) : WF (encode j) := by
  match f, h with
  | .prime p, h =>
    simp only [jsonField, Option.some.injEq] at h
    subst h
    exact wf_obj _ (by simp) (by intro x hx; simp only [List.mem_singleton] at hx; subst hx; exact wf_str _)
  | .binary m, h =>
    simp only [jsonField, Option.map_eq_some_iff] at h
    obtain ⟨e, he, rfl⟩ := h
    refine wf_obj _ (by simp) ?_
    intro x hx
    simp only [List.mem_cons, List.not_mem_nil, or_false] at hx
    rcases hx with rfl | rfl | rfl | rfl <;> exact wf_str _

theorem wf_curve (w : Nat) (c : Curve) (j : Output.Json) (h : outputJson w c = some j) (hnd : (c.info.map (·.1)).Nodup) : WF (encode j) := by
  unfold outputJson at h
  rw [Option.bind_eq_some_iff] at h
  obtain ⟨f, hf, h⟩ := h
  have hwf := wf_field w c.field f hf
  have hmeta : WF (encode (.obj (c.info.map fun x => (x.1, .str x.2)))) := by
    apply wf_obj
    · simpa [List.map_map, Function.comp_def] using hnd
    · intro x hx
      obtain ⟨y, _, rfl⟩ := List.mem_map.1 hx
      exact wf_str _
  have hgens : WF (encode (.arr (c.gens.map (jsonSubgroup w)))) := by
    apply wf_arr
    intro x hx
    obtain ⟨g, _, rfl⟩ := List.mem_map.1 hx
    exact wf_subgroup w g
  have key : ∀ seed : List (String × Output.Json), (seed = [] ∨ ∃ t, seed = [("seed", .str t)]) →
      WF (encode (.obj (("field", f) :: (seed ++ ([("a", .str (px w (elementi c.a))), ("b", .str (px w (elementi c.b))), ("order", .str (px w c.order))] ++
      (if c.gens ≠ [] then [("subgroups", .arr (c.gens.map (jsonSubgroup w)))] else []) ++
      (if c.info ≠ [] then [("meta", .obj (c.info.map fun x => (x.1, .str x.2)))] else [])))))) := by
    intro seed hseed
    apply wf_obj
    · rcases hseed with rfl | ⟨t, rfl⟩ <;> by_cases hg : c.gens = [] <;> by_cases hi : c.info = [] <;> simp [hg, hi]
    · intro x hx
      simp only [List.mem_cons, List.mem_append] at hx
      rcases hx with rfl | hx | ((rfl | rfl | rfl | hx) | hx) | hx
      · exact hwf
      · rcases hseed with rfl | ⟨t, rfl⟩
        · cases hx
        · simp only [List.mem_singleton] at hx
          subst hx
          exact wf_str _
      · exact wf_str _
      · exact wf_str _
      · exact wf_str _
      · cases hx
      · split at hx
        · simp only [List.mem_singleton] at hx
          subst hx
          exact hgens
        · cases hx
      · split at hx
        · simp only [List.mem_singleton] at hx
          subst hx
          exact hmeta
        · cases hx
  cases hs : c.seed with
  | none =>
    rw [hs] at h
    simp only [Option.some.injEq] at h
    subst h
    exact key [] (Or.inl rfl)
  | some s =>
    rw [hs] at h
    simp only [Option.map_eq_some_iff] at h
    obtain ⟨t, ht, rfl⟩ := h
    exact key [("seed", .str t)] (Or.inr ⟨t, rfl⟩)

/-- what the text of a curve relies on: the modulus and the seed are proper, the metadata have their names, and the text is shorter than `INT_MAX` -/
structure PrintableText (w : Nat) (c : Curve) : Prop where
  printable : Printable c
  terms : ∀ m, c.field = .binary m → m.dropLast.count true ≤ 4
  names : ∀ x ∈ c.info, x.1 ∈ metaNames
  once : (c.info.map (·.1)).Nodup
  short : ∀ v, outputJjson w c = .ok v → (render true 0 v).length ≤ 2147483646

/-- the text of a curve is a JSON value -/
theorem curve_text (malloc : Nat → List Byte) (hm : ∀ n, (malloc n).length = n) (w : Nat) (c : Curve) (hp : PrintableText w c) :
    ∃ m j, outputSjson malloc w c = .ok m ∧ outputJson w c = some j ∧ Text (cstring m) (encode j) := by
  obtain ⟨j, hj⟩ := Option.isSome_iff_exists.1 (Output.printed_defined w c hp.printable hp.terms)
  have hv := outputJjson_eq w c j hj hp.names hp.once
  have hwf := wf_curve w c j hj hp.once
  obtain ⟨m, h1, h2, _⟩ := serialise_render malloc hm (encode j) hwf (hp.short _ hv)
  refine ⟨m, j, ?_, hj, h2 ▸ text_render true 0 _ hwf⟩
  simp only [outputSjson, hv, bind, Except.bind]
  exact h1

/-- **C70** The text printed for a curve is a JSON document, and whatever JSON value a reader takes it for, the values of the curve are read from it: field, seed,
coefficients, order, generators and points. -/
theorem printed_text_reads (malloc : Nat → List Byte) (hm : ∀ n, (malloc n).length = n) (w : Nat) (c : Curve) (hp : PrintableText w c) :
    ∃ m, outputSjson malloc w c = .ok m ∧ (∃ j, Document (cstring m) (encode j)) ∧
      ∀ j, Document (cstring m) (encode j) → readCurve j = some (curveV c) := by
  obtain ⟨m, j, h1, h2, h3⟩ := curve_text malloc hm w c hp
  have hd : Document (cstring m) (encode j) := ⟨[], _, [], white_nil, h3, white_nil, by simp⟩
  refine ⟨m, h1, ⟨j, hd⟩, fun j' hj' => ?_⟩
  obtain rfl := encode_injective j' j (document_unique hj' hd)
  exact Output.printed_curve_reads w c j' hp.printable h2

/-- **C70** Curves with different values have different texts. -/
theorem printed_text_injective (malloc malloc' : Nat → List Byte) (hm : ∀ n, (malloc n).length = n) (hm' : ∀ n, (malloc' n).length = n) (w : Nat) (c d : Curve)
    (hc : PrintableText w c) (hd : PrintableText w d) (m m' : List Byte) (h : outputSjson malloc w c = .ok m) (h' : outputSjson malloc' w d = .ok m')
    (he : cstring m = cstring m') : curveV c = curveV d := by
  obtain ⟨n, h1, ⟨j, hj⟩, h2⟩ := printed_text_reads malloc hm w c hc
  obtain ⟨n', h1', _, h2'⟩ := printed_text_reads malloc' hm' w d hd
  rw [h] at h1
  rw [h'] at h1'
  cases h1
  cases h1'
  have e := (h2 j hj).symm.trans (h2' j (he ▸ hj))
  simpa using e

/-! ### The whole output -/

variable {κ σ : Type}

theorem items_text (text : κ → List Byte) (val : κ → Value) {ts : List (Json.Tok κ)} {os : List κ} (h : Json.Items ts os)
    (ht : ∀ o ∈ os, Text (text o) (val o)) (w : List Byte) (hw : White w) : Items (w ++ outputText text ts) (os.map val) := by
  induction h generalizing w with
  | one c =>
    have := Items.one (w := w) (w' := []) hw (ht c (by simp)) white_nil
    simpa [outputText, tokText] using this
  | more c _ ih =>
    have := Items.more (w := w) (w' := []) hw (ht c (by simp)) white_nil (ih (fun o ho => ht o (by simp [ho])) [10] white_newline)
    simpa [outputText, tokText] using this

/-- a token sequence that is an array prints as the JSON text of the array -/
theorem array_text (text : κ → List Byte) (val : κ → Value) (ts : List (Json.Tok κ)) (os : List κ) (h : Json.IsArray ts os)
    (ht : ∀ o ∈ os, Text (text o) (val o)) : Document (outputText text ts) (.arr (os.map val)) := by
  cases h with
  | empty => exact ⟨[], [91, 10, 93], [10], white_nil, Text.arrEmpty (w := [10]) white_newline, white_newline, by simp [outputText, tokText]⟩
  | items h =>
    have := Text.arr (items_text text val h ht [10] white_newline)
    exact ⟨[], _, [10], white_nil, this, white_newline, by simp [outputText, tokText]⟩

theorem trailing_items (text : κ → List Byte) (val : κ → Value) (rest : List Byte) : ∀ (os : List κ), (∀ o ∈ os, Text (text o) (val o)) →
    ∃ N, ∀ n, N ≤ n → readItems n (10 :: (os.flatMap (fun o => text o ++ [44, 10]) ++ 93 :: rest)) = none
  | [], _ => ⟨2, fun n hn => by
      obtain ⟨m, rfl⟩ := Nat.exists_eq_add_of_le' hn
      rw [readItems]
      have e : skip (10 :: (List.flatMap (fun o => text o ++ [44, 10]) [] ++ 93 :: rest)) = 93 :: rest := by
        rw [List.flatMap_nil, List.nil_append, skip, if_pos (by decide), skip, if_neg (by decide)]
      rw [e, readV]
      simp [quote]⟩
  | o :: os, h => by
      obtain ⟨N, hN⟩ := trailing_items text val rest os fun x hx => h x (by simp [hx])
      obtain ⟨M, hM⟩ := text_read (h o (by simp))
      refine ⟨N + M + 1, fun n hn => ?_⟩
      obtain ⟨m, rfl⟩ := Nat.exists_eq_add_of_le' (show 1 ≤ n by omega)
      rw [readItems]
      have e : skip (10 :: (List.flatMap (fun o => text o ++ [44, 10]) (o :: os) ++ 93 :: rest)) =
          text o ++ (44 :: 10 :: (List.flatMap (fun o => text o ++ [44, 10]) os ++ 93 :: rest)) := by
        rw [skip, if_pos (by decide)]
        simp only [List.flatMap_cons, List.append_assoc, List.cons_append, List.nil_append]
        exact text_skip (h o (by simp)) _
      rw [e, hM m (by omega) _]
      simp only
      rw [skip, if_neg (by decide)]
      simp [hN m (by omega)]

/-- a comma before the closing bracket: no JSON document -/
theorem trailing_comma (text : κ → List Byte) (val : κ → Value) (o : κ) (os : List κ) (h : ∀ x ∈ o :: os, Text (text x) (val x)) (v : Value) :
    ¬ Document (91 :: 10 :: ((o :: os).flatMap (fun o => text o ++ [44, 10]) ++ [93, 10])) v := by
  rintro ⟨w, t, w', hw, ht, _, e⟩
  have e1 := congrArg skip e
  rw [skip_white hw, text_skip ht, skip, if_neg (by decide)] at e1
  obtain ⟨N, hN⟩ := text_read ht
  obtain ⟨M, hM⟩ := trailing_items text val [10] (o :: os) h
  have h1 := hN (N + M + 1) (by omega) w'
  rw [← e1, readV, if_neg (by decide), if_pos rfl, if_neg, hM (N + M) (by omega)] at h1
  · cases h1
  · obtain ⟨c, r, hc, hw, h93, _⟩ := text_head (h o (by simp))
    rw [skip, if_pos (by decide), List.flatMap_cons, hc]
    simp only [List.cons_append]
    rw [skip, hw]
    simpa using h93

theorem short_text (text : κ → List Byte) (gen : σ → Option κ × σ) (count left : Nat) (w : σ) (hl : left ≤ count)
    (h : (Json.generated gen left w).length < left) :
    outputText text (Json.generateLoop gen count left w).1 = (Json.generated gen left w).flatMap fun o => text o ++ [44, 10] := by
  induction left generalizing w with
  | zero => omega
  | succ n ih =>
    unfold Json.generateLoop
    unfold Json.generated at h ⊢
    rcases hg : gen w with ⟨_ | c, w'⟩
    · simp [outputText]
    · rw [hg] at h
      simp only [List.length_cons] at h
      have := ih w' (by omega) (by omega)
      simp only
      rw [if_pos (by omega)]
      simp only [outputText] at this
      simp [outputText, tokText, this]

/-- **C70** All that a run prints is a JSON document exactly if no generation fails after a curve was printed; then it is the array of the printed curves, in the
order of generation. `text` is the text of a curve (`curve_text`) and `val` the value it denotes. -/
theorem output_document (text : κ → List Byte) (val : κ → Value) (gen : σ → Option κ × σ) (count : Nat) (w : σ)
    (ht : ∀ o ∈ Json.generated gen count w, Text (text o) (val o)) :
    ((∃ v, Document (outputText text (Json.generate gen count w).1) v) ↔
      ((Json.generated gen count w).length = count ∨ Json.generated gen count w = [])) ∧
    ∀ v, Document (outputText text (Json.generate gen count w).1) v → v = .arr ((Json.generated gen count w).map val) := by
  have good : ((Json.generated gen count w).length = count ∨ Json.generated gen count w = []) →
      Document (outputText text (Json.generate gen count w).1) (.arr ((Json.generated gen count w).map val)) := fun h =>
    array_text text val _ _ (Json.generate_array_partial gen count w h) ht
  have bad : (∃ v, Document (outputText text (Json.generate gen count w).1) v) →
      ((Json.generated gen count w).length = count ∨ Json.generated gen count w = []) := by
    rintro ⟨v, hv⟩
    by_contra hc
    rw [not_or] at hc
    have hlen : (Json.generated gen count w).length < count := by
      have : ∀ n w, (Json.generated gen n w).length ≤ n := by
        intro n
        induction n with
        | zero => intro w; simp [Json.generated]
        | succ n ih =>
          intro w
          unfold Json.generated
          rcases gen w with ⟨_ | c, w'⟩
          · simp
          · simp [ih w']
      have := this count w
      omega
    obtain ⟨o, os, ho⟩ := List.exists_cons_of_ne_nil hc.2
    have e : outputText text (Json.generate gen count w).1 = 91 :: 10 :: ((o :: os).flatMap (fun o => text o ++ [44, 10]) ++ [93, 10]) := by
      have := short_text text gen count count w (Nat.le_refl _) hlen
      rw [ho] at this
      simp only [outputText] at this
      simp only [outputText, Json.generate, List.flatMap_append, List.flatMap_cons, List.flatMap_nil, List.append_nil, this, tokText,
        List.cons_append, List.nil_append, List.append_assoc]
    rw [e] at hv
    exact trailing_comma text val o os (ho ▸ ht) v hv
  exact ⟨⟨bad, fun h => ⟨_, good h⟩⟩, fun v hv => document_unique hv (good (bad ⟨v, hv⟩))⟩

/-- the text of a curve -/
def curveText (malloc : Nat → List Byte) (w : Nat) (c : Curve) : List Byte :=
  match outputSjson malloc w c with
  | .ok m => cstring m
  | .error _ => []

/-- **C70** The output of a run in which no generation fails, from the bytes back to the curves: it is the JSON text of one array, and its items read as the values
of the generated curves, in their order. -/
theorem output_reads (malloc : Nat → List Byte) (hm : ∀ n, (malloc n).length = n) (width : Nat) (gen : σ → Option Curve × σ) (count : Nat) (w : σ)
    (hp : ∀ c ∈ Json.generated gen count w, PrintableText width c) (hg : (Json.generated gen count w).length = count) :
    ∃ js, (∀ j, Document (outputText (curveText malloc width) (Json.generate gen count w).1) (encode j) ↔ j = .arr js) ∧
      js.map readCurve = (Json.generated gen count w).map fun c => some (curveV c) := by
  have ht : ∀ c ∈ Json.generated gen count w, Text (curveText malloc width c) (encode ((outputJson width c).getD (.str []))) := by
    intro c hc
    obtain ⟨m, j, h1, h2, h3⟩ := curve_text malloc hm width c (hp c hc)
    simpa [curveText, h1, h2] using h3
  obtain ⟨h1, h2⟩ := output_document (curveText malloc width) _ gen count w ht
  obtain ⟨v, hv⟩ := h1.2 (Or.inl hg)
  obtain rfl := h2 v hv
  refine ⟨(Json.generated gen count w).map fun c => (outputJson width c).getD (.str []), fun j => ⟨fun hj => ?_, fun hj => ?_⟩, ?_⟩
  · apply encode_injective
    rw [h2 _ hj, encode, encodeItems_eq, List.map_map]
    rfl
  · subst hj
    rw [encode, encodeItems_eq, List.map_map]
    exact hv
  · rw [List.map_map]
    apply List.map_congr_left
    intro c hc
    obtain ⟨m, j, -, h2, -⟩ := curve_text malloc hm width c (hp c hc)
    simpa [h2] using Output.printed_curve_reads width c j (hp c hc).printable h2

/-! ### Cases that meet the hypotheses -/

/-- a small tree and its text; a curve over a binary field with seed, generator and point; and a run that fails after one curve -/
theorem text_met :
    (toStringPretty (List.replicate · 255) (.obj [name "p", name "e"] [.str (name "0x7/"), .arr []])).toOption =
      some (name "{\n    \"p\": \"0x7\\/\",\n    \"e\": []\n}" ++ [0]) ∧
    WF (.obj [name "p", name "e"] [.str (name "0x7/"), .arr []]) ∧
    PrintableText 2 Output.sample ∧
    outputText (fun _ : Nat => [123, 125]) (Json.generate (fun w : Nat => (if w = 0 then some 0 else none, w + 1)) 2 0).1 = name "[\n{},\n]\n" := by
  refine ⟨by decide +kernel, ?_, ?_, by decide +kernel⟩
  · simp only [WF, WFs, and_true]
    decide +kernel
  · obtain ⟨h1, h2, h3, -⟩ := Output.sample_printable
    obtain ⟨j, hj⟩ := Option.isSome_iff_exists.1 h3
    refine ⟨h1, ?_, ?_, ?_, ?_⟩
    · intro m hm
      cases hm
      decide
    · intro x hx
      cases hx
    · exact List.nodup_nil
    · intro v hv
      have hlen : (render true 0 (encode ((outputJson 2 Output.sample).getD (.str [])))).length ≤ 2147483646 := by decide +kernel
      rw [outputJjson_eq 2 Output.sample j hj (fun x hx => by cases hx) List.nodup_nil] at hv
      rw [hj] at hlen
      cases hv
      exact hlen

end Ecgen.Parson
