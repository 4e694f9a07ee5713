import Verif.Parson.Output
import Verif.Parson.Utf8
import Verif.Parson.Lemmas
import Verif.Output.Lemmas

/-!
# The tree that `output_jjson` makes through parson
-/

namespace Ecgen.Parson

open Output (Curve Point Subgroup Field px elementi seedText fieldParams jsonPoint jsonSubgroup jsonField outputJson)

/-! ### The tree of the printed form -/

mutual
/-- a printed value as a value of parson -/
def encode : Output.Json → Value
  | .str s => .str (utf8 s)
  | .obj l => .obj (encodeNames l) (encodeFields l)
  | .arr l => .arr (encodeItems l)
def encodeNames : List (String × Output.Json) → List (List Byte)
  | [] => []
  | (k, _) :: l => name k :: encodeNames l
def encodeFields : List (String × Output.Json) → List Value
  | [] => []
  | (_, j) :: l => encode j :: encodeFields l
def encodeItems : List Output.Json → List Value
  | [] => []
  | j :: l => encode j :: encodeItems l
end

theorem encodeNames_eq (l : List (String × Output.Json)) : encodeNames l = l.map fun x => name x.1 := by
  induction l with
  | nil => rfl
  | cons x l ih => simp [encodeNames, ih]

theorem encodeFields_eq (l : List (String × Output.Json)) : encodeFields l = l.map fun x => encode x.2 := by
  induction l with
  | nil => rfl
  | cons x l ih => simp [encodeFields, ih]

theorem encodeItems_eq (l : List Output.Json) : encodeItems l = l.map encode := by
  induction l with
  | nil => rfl
  | cons x l ih => simp [encodeItems, ih]

theorem utf8_injective {s t : List Char} (h : utf8 s = utf8 t) : s = t := by
  have h1 : String.ofList s = String.ofList t := by
    apply String.toByteArray_inj.1
    simp only [String.toByteArray_ofList, List.utf8Encode]
    exact congrArg List.toByteArray h
  have := congrArg String.toList h1
  simpa using this

theorem name_injective {s t : String} (h : name s = name t) : s = t := String.toList_inj.1 (utf8_injective h)

mutual
theorem encode_injective (j j' : Output.Json) (h : encode j = encode j') : j = j' :=
  match j, j' with
  | .str s, .str t => by simp only [encode, Value.str.injEq] at h; rw [utf8_injective h]
  | .obj l, .obj l' => by
    simp only [encode, Value.obj.injEq] at h
    rw [encodeFields_injective l l' h.1 h.2]
  | .arr l, .arr l' => by
    simp only [encode, Value.arr.injEq] at h
    rw [encodeItems_injective l l' h]
  | .str _, .obj _ => by simp [encode] at h
  | .str _, .arr _ => by simp [encode] at h
  | .obj _, .str _ => by simp [encode] at h
  | .obj _, .arr _ => by simp [encode] at h
  | .arr _, .str _ => by simp [encode] at h
  | .arr _, .obj _ => by simp [encode] at h
theorem encodeFields_injective (l l' : List (String × Output.Json)) (hn : encodeNames l = encodeNames l') (h : encodeFields l = encodeFields l') :
    l = l' :=
  match l, l' with
  | [], [] => rfl
  | [], _ :: _ => by simp [encodeNames] at hn
  | _ :: _, [] => by simp [encodeNames] at hn
  | (k, j) :: l, (k', j') :: l' => by
    simp only [encodeNames, List.cons.injEq] at hn
    simp only [encodeFields, List.cons.injEq] at h
    rw [name_injective hn.1, encode_injective j j' h.1, encodeFields_injective l l' hn.2 h.2]
theorem encodeItems_injective (l l' : List Output.Json) (h : encodeItems l = encodeItems l') : l = l' :=
  match l, l' with
  | [], [] => rfl
  | [], _ :: _ => by simp [encodeItems] at h
  | _ :: _, [] => by simp [encodeItems] at h
  | j :: l, j' :: l' => by
    simp only [encodeItems, List.cons.injEq] at h
    rw [encode_injective j j' h.1, encodeItems_injective l l' h.2]
end

/-! ### Objects -/

theorem indexOf_none (k : List Byte) (ns : List (List Byte)) (h : k ∉ ns) : indexOf k ns = none := by
  induction ns with
  | nil => rfl
  | cons n ns ih =>
    simp only [List.mem_cons, not_or] at h
    simp [indexOf, Ne.symm h.1, ih h.2]

theorem getn_none (ns : List (List Byte)) (vs : List Value) (k : List Byte) (h : k ∉ ns) : getn ns vs k = none := by
  simp [getn, indexOf_none k ns h]

theorem addn_new (o : Obj) (k : List Byte) (v : Value) (h : k ∉ o.1) : addn o k v = .ok (o.1 ++ [k], o.2 ++ [v]) := by
  simp [addn, getn_none _ _ _ h]

theorem setValue_new (o : Obj) (k : List Byte) (v : Value) (h : k ∉ o.1) : setValue o k v = .ok (o.1 ++ [k], o.2 ++ [v]) := by
  simp [setValue, getn_none _ _ _ h, addn_new o k v h]

theorem initString_utf8 (t : List Char) : initString (utf8 t) = .ok (.str (utf8 t)) := by
  simp [initString, valid_encodes (utf8 t) ⟨t, rfl⟩, bind, Except.bind, pure, Except.pure]

theorem setString_new (o : Obj) (k : List Byte) (t : List Char) (h : k ∉ o.1) :
    ignore o (setString o k (utf8 t)) = .ok (o.1 ++ [k], o.2 ++ [.str (utf8 t)]) := by
  simp [setString, initString_utf8, setValue_new o k _ h, ignore]

theorem setArr_new (o : Obj) (k : List Byte) (v : Value) (h : k ∉ o.1) : ignore o (setValue o k v) = .ok (o.1 ++ [k], o.2 ++ [v]) := by
  simp [setValue_new o k _ h, ignore]

theorem dotset_plain (o : Obj) (k : List Byte) (v : Value) (hk : (splitDot k).2 = none) : dotset o k v = setValue o k v := by
  rw [dotset]
  split
  · rfl
  · rename_i h
    rw [hk] at h
    cases h

theorem dotset_first (o : Obj) (n pre k : List Byte) (v : Value) (hn : splitDot n = (pre, some k)) (hk : (splitDot k).2 = none) (h : pre ∉ o.1) :
    dotset o n v = .ok (o.1 ++ [pre], o.2 ++ [.obj [k] [v]]) := by
  rw [dotset]
  split
  · rename_i h'
    rw [hn] at h'
    cases h'
  · rename_i rest h'
    rw [hn] at h'
    obtain rfl : k = rest := by simpa using h'
    rw [hn]
    simp only [getn_none _ _ _ h, dotset_plain _ _ _ hk, setValue_new ([], []) k v (by simp), bind, Except.bind]
    exact addn_new o pre _ h

theorem indexOf_last (ks : List (List Byte)) (k : List Byte) (h : k ∉ ks) : indexOf k (ks ++ [k]) = some ks.length := by
  induction ks with
  | nil => simp [indexOf]
  | cons n ns ih =>
    simp only [List.mem_cons, not_or] at h
    simp [indexOf, Ne.symm h.1, ih h.2]

theorem dotset_more (ks : List (List Byte)) (us : List Value) (n pre k : List Byte) (ns : List (List Byte)) (vs : List Value) (v : Value)
    (hn : splitDot n = (pre, some k)) (hk : (splitDot k).2 = none) (hp : pre ∉ ks) (hl : ks.length = us.length) (h : k ∉ ns) :
    dotset (ks ++ [pre], us ++ [.obj ns vs]) n v = .ok (ks ++ [pre], us ++ [.obj (ns ++ [k]) (vs ++ [v])]) := by
  rw [dotset]
  split
  · rename_i h'
    rw [hn] at h'
    cases h'
  · rename_i rest h'
    rw [hn] at h'
    obtain rfl : k = rest := by simpa using h'
    rw [hn]
    simp only [getn, indexOf_last ks pre hp, hl, Option.bind_some, List.getElem?_concat_length, dotset_plain _ _ _ hk, setValue_new (ns, vs) k v h, bind,
      Except.bind, pure, Except.pure, Except.ok.injEq, Prod.mk.injEq, true_and]
    simp

theorem dotsetString_first (o : Obj) (n pre k : List Byte) (t : List Char) (hn : splitDot n = (pre, some k)) (hk : (splitDot k).2 = none)
    (h : pre ∉ o.1) : dotsetString o n (utf8 t) = .ok (o.1 ++ [pre], o.2 ++ [.obj [k] [.str (utf8 t)]]) := by
  simp [dotsetString, initString_utf8, dotset_first o n pre k _ hn hk h]

theorem dotsetString_more (ks : List (List Byte)) (us : List Value) (n pre k : List Byte) (ns : List (List Byte)) (vs : List Value) (t : List Char)
    (hn : splitDot n = (pre, some k)) (hk : (splitDot k).2 = none) (hp : pre ∉ ks) (hl : ks.length = us.length) (h : k ∉ ns) :
    dotsetString (ks ++ [pre], us ++ [.obj ns vs]) n (utf8 t) = .ok (ks ++ [pre], us ++ [.obj (ns ++ [k]) (vs ++ [.str (utf8 t)])]) := by
  simp [dotsetString, initString_utf8, dotset_more ks us n pre k ns vs _ hn hk hp hl h]

/-! ### Points, subgroups and fields -/

/-- the object of a list of names and values -/
def encObj (l : List (String × Output.Json)) : Obj := (encodeNames l, encodeFields l)

theorem objValue_encObj (l : List (String × Output.Json)) : objValue (encObj l) = encode (.obj l) := rfl

theorem encObj_snoc (l : List (String × Output.Json)) (k : String) (j : Output.Json) :
    encObj (l ++ [(k, j)]) = ((encObj l).1 ++ [name k], (encObj l).2 ++ [encode j]) := by
  simp [encObj, encodeNames_eq, encodeFields_eq]

theorem not_name {l : List (String × Output.Json)} {k : String} (h : k ∉ l.map (·.1)) : name k ∉ (encObj l).1 := by
  intro hm
  simp only [encObj, encodeNames_eq, List.mem_map] at hm
  obtain ⟨x, hx, he⟩ := hm
  exact h (List.mem_map.2 ⟨x, hx, name_injective he⟩)

theorem set_str (l : List (String × Output.Json)) (k : String) (t : List Char) (h : k ∉ l.map (·.1)) :
    ignore (encObj l) (setString (encObj l) (name k) (utf8 t)) = .ok (encObj (l ++ [(k, .str t)])) := by
  rw [setString_new _ _ _ (not_name h), encObj_snoc, encode]

theorem set_val (l : List (String × Output.Json)) (k : String) (j : Output.Json) (h : k ∉ l.map (·.1)) :
    ignore (encObj l) (setValue (encObj l) (name k) (encode j)) = .ok (encObj (l ++ [(k, j)])) := by
  rw [setArr_new _ _ _ (not_name h), encObj_snoc]

theorem pointObj_eq (w : Nat) (p : Point) : pointObj w p = .ok (encObj (jsonPoint w p)) := by
  have h1 := set_str [] "x" (px w (elementi p.x)) (by simp)
  have h2 := set_str ([("x", .str (px w (elementi p.x)))]) "y" (px w (elementi p.y)) (by simp)
  have h3 := set_str ([("x", .str (px w (elementi p.x))), ("y", .str (px w (elementi p.y)))]) "order" (px 0 p.order) (by simp)
  simp only [List.nil_append, List.cons_append] at h1 h2 h3
  unfold pointObj jsonPoint
  show (ignore (encObj []) (setString (encObj []) (name "x") (utf8 (px w (elementi p.x)))) >>= _) = _
  rw [h1]
  show (ignore _ (setString _ (name "y") (utf8 (px w (elementi p.y)))) >>= _) = _
  rw [h2]
  show (ignore _ (setString _ (name "order") (utf8 (px 0 p.order))) >>= _) = _
  rw [h3]
  cases hc : p.cofactor with
  | none => rfl
  | some c => exact set_str ([("x", .str (px w (elementi p.x))), ("y", .str (px w (elementi p.y))), ("order", .str (px 0 p.order))]) "cofactor" (px 0 c) (by simp)

theorem pointsLoop_eq (w : Nat) : ∀ (ps : List Point) (items : List Value),
    pointsLoop w ps items = .ok (items ++ ps.map fun p => encode (.obj (jsonPoint w p)))
  | [], items => by simp [pointsLoop]
  | p :: ps, items => by
    simp only [pointsLoop, pointObj_eq, bind, Except.bind]
    rw [pointsLoop_eq w ps]
    simp [objValue_encObj]

theorem points_fresh (w : Nat) (p : Point) : "points" ∉ (jsonPoint w p).map (·.1) := by
  unfold jsonPoint
  cases p.cofactor <;> simp

theorem subgroupValue_eq (w : Nat) (g : Subgroup) : subgroupValue w g = .ok (encode (jsonSubgroup w g)) := by
  unfold subgroupValue jsonSubgroup
  rw [pointObj_eq]
  show (if g.points ≠ [] then _ else _) = _
  by_cases h : g.points = []
  · simp only [h, ne_eq, not_true_eq_false, if_false, List.append_nil]
    rfl
  · simp only [ne_eq, h, not_false_eq_true, if_true]
    rw [pointsLoop_eq]
    show (ignore (encObj _) (setValue (encObj _) (name "points") (.arr ([] ++ _))) >>= _) = _
    have := set_val (jsonPoint w g.generator) "points" (.arr (g.points.map fun p => .obj (jsonPoint w p))) (points_fresh w g.generator)
    simp only [encode, encodeItems_eq, List.map_map] at this
    rw [List.nil_append]
    simp only [encode]
    erw [this]
    rfl

theorem gensLoop_eq (w : Nat) : ∀ (gs : List Subgroup) (items : List Value),
    gensLoop w gs items = .ok (items ++ gs.map fun g => encode (jsonSubgroup w g))
  | [], items => by simp [gensLoop]
  | g :: gs, items => by
    simp only [gensLoop, subgroupValue_eq, bind, Except.bind]
    rw [gensLoop_eq w gs]
    simp

theorem fieldObj_eq (w : Nat) (f : Field) (j : Output.Json) (h : jsonField w f = some j) : fieldObj w f = .ok (encObj [("field", j)]) := by
  match f, h with
  | .prime p, h =>
    simp only [jsonField, Option.some.injEq] at h
    subst h
    exact dotsetString_first ([], []) (name "field.p") (name "field") (name "p") _ (by decide +kernel) (by decide +kernel) (by simp)
  | .binary m, h =>
    simp only [jsonField, Option.map_eq_some_iff] at h
    obtain ⟨e, he, rfl⟩ := h
    simp only [fieldObj, he]
    rw [dotsetString_first ([], []) (name "field.m") (name "field") (name "m") _ (by decide +kernel) (by decide +kernel) (by simp)]
    have hm := dotsetString_more [] [] (name "field.e1") (name "field") (name "e1") [name "m"] [.str (utf8 (px 0 (e.getD 0 0)))] (px 0 (e.getD 1 0))
      (by decide +kernel) (by decide +kernel) (by simp) rfl (by decide +kernel)
    simp only [List.nil_append] at hm
    simp only [bind, Except.bind, List.nil_append]
    rw [hm]
    have hm := dotsetString_more [] [] (name "field.e2") (name "field") (name "e2") [name "m", name "e1"] [.str (utf8 (px 0 (e.getD 0 0))), .str (utf8 (px 0 (e.getD 1 0)))] (px 0 (e.getD 2 0))
      (by decide +kernel) (by decide +kernel) (by simp) rfl (by decide +kernel)
    simp only [List.nil_append, List.cons_append] at hm ⊢
    rw [hm]
    have hm := dotsetString_more [] [] (name "field.e3") (name "field") (name "e3") [name "m", name "e1", name "e2"]
      [.str (utf8 (px 0 (e.getD 0 0))), .str (utf8 (px 0 (e.getD 1 0))), .str (utf8 (px 0 (e.getD 2 0)))] (px 0 (e.getD 3 0))
      (by decide +kernel) (by decide +kernel) (by simp) rfl (by decide +kernel)
    simp only [List.nil_append, List.cons_append] at hm ⊢
    rw [hm]
    rfl

/-! ### Metadata -/

/-- the names of the metadata, output.c:136-171 -/
def metaNames : List String := ["j", "discriminant", "embedding_degree", "frobenius", "cm_discriminant", "conductor"]

theorem meta_split : ∀ k ∈ metaNames, splitDot (name ("meta." ++ k)) = (name "meta", some (name k)) ∧ (splitDot (name k)).2 = none := by
  decide +kernel

theorem meta_more (ks : List (List Byte)) (us : List Value) (hp : name "meta" ∉ ks) (hl : ks.length = us.length) : ∀ (xs : List (String × Output.Text))
    (ns : List (List Byte)) (vs : List Value), (∀ x ∈ xs, x.1 ∈ metaNames) → (ns ++ xs.map fun x => name x.1).Nodup →
    metaLoop xs (ks ++ [name "meta"], us ++ [.obj ns vs]) =
      .ok (ks ++ [name "meta"], us ++ [.obj (ns ++ xs.map fun x => name x.1) (vs ++ xs.map fun x => .str (utf8 x.2))])
  | [], ns, vs, _, _ => by simp [metaLoop]
  | x :: xs, ns, vs, hm, hnd => by
    obtain ⟨h1, h2⟩ := meta_split x.1 (hm x (by simp))
    have hk : name x.1 ∉ ns := by
      intro hmem
      rw [List.map_cons, List.nodup_append] at hnd
      exact hnd.2.2 _ hmem _ (by simp) rfl
    simp only [metaLoop, dotsetString_more ks us _ _ _ ns vs x.2 h1 h2 hp hl hk, bind, Except.bind]
    rw [meta_more ks us hp hl xs _ _ (fun y hy => hm y (by simp [hy])) (by simpa using hnd)]
    simp

theorem nodup_names {l : List String} (h : l.Nodup) : (l.map name).Nodup := by
  induction l with
  | nil => simp
  | cons k l ih =>
    simp only [List.nodup_cons, List.map_cons] at h ⊢
    refine ⟨fun hm => ?_, ih h.2⟩
    obtain ⟨k', hk', he⟩ := List.mem_map.1 hm
    exact h.1 (name_injective he ▸ hk')

theorem metaLoop_eq (l : List (String × Output.Json)) (xs : List (String × Output.Text)) (hf : "meta" ∉ l.map (·.1))
    (hm : ∀ x ∈ xs, x.1 ∈ metaNames) (hnd : (xs.map (·.1)).Nodup) :
    metaLoop xs (encObj l) = .ok (encObj (l ++ if xs ≠ [] then [("meta", .obj (xs.map fun x => (x.1, .str x.2)))] else [])) := by
  match xs, hm, hnd with
  | [], _, _ => simp [metaLoop]
  | x :: xs, hm, hnd =>
    obtain ⟨h1, h2⟩ := meta_split x.1 (hm x (by simp))
    have hnn := nodup_names hnd
    simp only [metaLoop, dotsetString_first (encObj l) _ _ _ x.2 h1 h2 (not_name hf), bind, Except.bind]
    rw [meta_more _ _ (not_name hf) (by simp [encObj, encodeNames_eq, encodeFields_eq]) xs _ _ (fun y hy => hm y (by simp [hy]))
      (by simpa [List.map_map, Function.comp_def] using hnn)]
    simp [encObj_snoc, encode, encodeNames_eq, encodeFields_eq, List.map_map, Function.comp_def]

/-! ### The curve -/

theorem outputJjson_eq (w : Nat) (c : Curve) (j : Output.Json) (h : outputJson w c = some j) (hm : ∀ x ∈ c.info, x.1 ∈ metaNames)
    (hnd : (c.info.map (·.1)).Nodup) : outputJjson w c = .ok (encode j) := by
  unfold outputJson at h
  rw [Option.bind_eq_some_iff] at h
  obtain ⟨f, hf, h⟩ := h
  -- the field and the seed
  have hseed : ∃ l : List (String × Output.Json), (l = [("field", f)] ∨ ∃ t, l = [("field", f), ("seed", .str t)]) ∧
      seedObj c.seed (encObj [("field", f)]) = .ok (encObj l) ∧
      j = .obj (l ++ ([("a", .str (px w (elementi c.a))), ("b", .str (px w (elementi c.b))), ("order", .str (px w c.order))] ++
      (if c.gens ≠ [] then [("subgroups", .arr (c.gens.map (jsonSubgroup w)))] else []) ++
      (if c.info ≠ [] then [("meta", .obj (c.info.map fun x => (x.1, .str x.2)))] else []))) := by
    cases hs : c.seed with
    | none =>
      rw [hs] at h
      simp only [Option.some.injEq] at h
      exact ⟨[("field", f)], Or.inl rfl, rfl, by rw [← h]; rfl⟩
    | some s =>
      rw [hs] at h
      simp only [Option.map_eq_some_iff] at h
      obtain ⟨t, ht, h⟩ := h
      refine ⟨[("field", f), ("seed", .str t)], Or.inr ⟨t, rfl⟩, ?_, by rw [← h]; rfl⟩
      simp only [seedObj, ht]
      exact set_str [("field", f)] "seed" t (by simp)
  obtain ⟨l, hl, hs, rfl⟩ := hseed
  have hfresh : ∀ k, k ≠ "field" → k ≠ "seed" → k ∉ l.map (·.1) := by
    rintro k h1 h2 hk
    rcases hl with rfl | ⟨t, rfl⟩ <;> simp [h1, h2] at hk
  unfold outputJjson
  rw [fieldObj_eq w c.field f hf]
  show (seedObj c.seed (encObj [("field", f)]) >>= _) = _
  rw [hs]
  show (ignore (encObj l) (setString (encObj l) (name "a") (utf8 (px w (elementi c.a)))) >>= _) = _
  rw [set_str l "a" _ (hfresh "a" (by decide) (by decide))]
  show (ignore (encObj _) (setString (encObj _) (name "b") (utf8 (px w (elementi c.b)))) >>= _) = _
  rw [set_str _ "b" _ (by have := hfresh "b" (by decide) (by decide); simpa using this)]
  show (ignore (encObj _) (setString (encObj _) (name "order") (utf8 (px w c.order))) >>= _) = _
  rw [set_str _ "order" _ (by have := hfresh "order" (by decide) (by decide); simpa using this)]
  show (gensObj w c.gens (encObj _) >>= _) = _
  have hg : gensObj w c.gens (encObj (l ++ [("a", .str (px w (elementi c.a)))] ++ [("b", .str (px w (elementi c.b)))] ++ [("order", .str (px w c.order))])) =
      .ok (encObj (l ++ [("a", .str (px w (elementi c.a)))] ++ [("b", .str (px w (elementi c.b)))] ++ [("order", .str (px w c.order))] ++
        if c.gens ≠ [] then [("subgroups", .arr (c.gens.map (jsonSubgroup w)))] else [])) := by
    unfold gensObj
    by_cases hge : c.gens = []
    · simp [hge]
    · simp only [ne_eq, hge, not_false_eq_true, if_true]
      rw [gensLoop_eq]
      have := set_val (l ++ [("a", .str (px w (elementi c.a)))] ++ [("b", .str (px w (elementi c.b)))] ++ [("order", .str (px w c.order))]) "subgroups"
        (.arr (c.gens.map (jsonSubgroup w))) (by have := hfresh "subgroups" (by decide) (by decide); simpa using this)
      simp only [encode, encodeItems_eq, List.map_map] at this
      exact this
  rw [hg]
  show (metaLoop c.info (encObj _) >>= _) = _
  rw [metaLoop_eq _ c.info (by
    have := hfresh "meta" (by decide) (by decide)
    by_cases hge : c.gens = [] <;> simpa [hge] using this) hm hnd]
  show Except.ok (objValue (encObj _)) = _
  rw [objValue_encObj]
  simp only [List.append_assoc, List.cons_append, List.nil_append]

end Ecgen.Parson
