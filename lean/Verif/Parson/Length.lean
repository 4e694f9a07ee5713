import Mathlib.Tactic.Ring
import Verif.Parson.Props

/-!
# How long the text of a curve is
-/

namespace Ecgen.Parson

open Output (Curve Point Subgroup Field px elementi seedText fieldParams hexText jsonPoint jsonSubgroup jsonField outputJson)

theorem sum_le {α : Type} (l : List α) (f g : α → Nat) (h : ∀ x ∈ l, f x ≤ g x) : (l.map f).sum ≤ (l.map g).sum := by
  induction l with
  | nil => exact Nat.le_refl _
  | cons x l ih =>
    simp only [List.map_cons, List.sum_cons]
    exact Nat.add_le_add (h x List.mem_cons_self) (ih fun y hy => h y (List.mem_cons_of_mem _ hy))

theorem sum_le_mul {α : Type} (l : List α) (f : α → Nat) (k : Nat) (h : ∀ x ∈ l, f x ≤ k) : (l.map f).sum ≤ l.length * k := by
  induction l with
  | nil => simp
  | cons x l ih =>
    simp only [List.map_cons, List.sum_cons, List.length_cons, Nat.add_one_mul]
    have := h x List.mem_cons_self
    have := ih fun y hy => h y (List.mem_cons_of_mem _ hy)
    omega

theorem renders_eq (pretty : Bool) (level : Nat) (vs : List Value) : renders pretty level vs = vs.map (render pretty level) := by
  induction vs with
  | nil => rfl
  | cons v vs ih => simp [renders, ih]

theorem indent_length (level : Nat) : (indent level).length = 4 * level := by
  unfold indent
  induction level with
  | zero => rfl
  | succ n ih => rw [List.range_succ, List.flatMap_append, List.length_append, ih]; simp; omega

theorem joined_length (level : Nat) (ts : List (List Byte)) : (joined true level ts).length ≤ (ts.map fun t => t.length + (4 * level + 6)).sum := by
  induction ts with
  | nil => simp [joined]
  | cons t ts ih =>
    cases ts with
    | nil => simp [joined, pw, indent_length]; omega
    | cons t' ts =>
      simp only [joined, pw, if_true, List.length_append, List.length_cons, indent_length, List.length_nil] at ih ⊢
      rw [List.map_cons, List.sum_cons]
      omega

theorem wrapped_length (level count : Nat) (o c : Byte) (body : List Byte) : (wrapped true level count o c body).length ≤ body.length + (4 * level + 3) := by
  unfold wrapped pw
  split <;> simp [indent_length] <;> omega

theorem render_arr (level : Nat) (l : List Output.Json) : (render true level (encode (.arr l))).length ≤
    4 * level + 3 + (l.map fun j => (render true (level + 1) (encode j)).length + (4 * level + 6)).sum := by
  simp only [encode, render]
  refine (wrapped_length _ _ _ _ _).trans ?_
  have := joined_length level (renders true (level + 1) (encodeItems l))
  rw [renders_eq, encodeItems_eq, List.map_map, List.map_map] at this
  rw [renders_eq, encodeItems_eq, List.map_map]
  simp only [Function.comp_def] at this ⊢
  omega

theorem render_obj (level : Nat) (l : List (String × Output.Json)) : (render true level (encode (.obj l))).length ≤
    4 * level + 3 + (l.map fun x => (renderStr (name x.1)).length + (render true (level + 1) (encode x.2)).length + (4 * level + 8)).sum := by
  simp only [encode, render]
  refine (wrapped_length _ _ _ _ _).trans ?_
  have e : List.zipWith (memberText true) (encodeNames l) (renders true (level + 1) (encodeFields l)) =
      l.map fun x => memberText true (name x.1) (render true (level + 1) (encode x.2)) := by
    rw [renders_eq, encodeNames_eq, encodeFields_eq, List.map_map, List.zipWith_map_left, List.zipWith_map_right]
    induction l with
    | nil => rfl
    | cons x l ih => simp
  have := joined_length level (l.map fun x => memberText true (name x.1) (render true (level + 1) (encode x.2)))
  rw [e]
  rw [List.map_map] at this
  refine (Nat.add_le_add_right this _).trans ?_
  rw [Nat.add_comm]
  refine Nat.add_le_add_left (sum_le _ _ _ fun x _ => ?_) _
  simp only [Function.comp_def, memberText, pw, if_true, List.length_append, List.length_cons, List.length_nil]
  omega

/-! ## Strings -/

theorem esc_length (c : Byte) : (esc c).length ≤ 6 := by
  unfold esc escape
  split <;> simp [u4]

theorem renderStr_length (t : List Char) : (renderStr (utf8 t)).length ≤ 2 + 24 * t.length := by
  unfold renderStr utf8
  simp only [List.length_cons, List.length_append, List.length_nil, List.length_flatMap]
  have h1 : ((t.flatMap String.utf8EncodeChar).map fun c => (esc c).length).sum ≤ (t.flatMap String.utf8EncodeChar).length * 6 :=
    sum_le_mul _ _ _ fun c _ => esc_length c
  have h2 : (t.flatMap String.utf8EncodeChar).length ≤ t.length * 4 := by
    rw [List.length_flatMap]
    refine sum_le_mul _ _ _ fun c _ => ?_
    rw [String.length_utf8EncodeChar]
    exact Char.utf8Size_le_four c
  omega

theorem px_length (w n L : Nat) (hw : w ≤ L) (hn : (hexText n).length ≤ L) : (px w n).length ≤ L + 2 := by
  unfold px
  simp only [List.length_append, List.length_cons, List.length_nil, List.length_replicate]
  omega

/-- what a printed number takes -/
def cost (L : Nat) : Nat := 24 * L + 50

theorem number_length (level w n L : Nat) (hw : w ≤ L) (hn : (hexText n).length ≤ L) : (render true level (encode (.str (px w n)))).length ≤ cost L := by
  have := renderStr_length (px w n)
  have := px_length w n L hw hn
  simp only [encode, render, cost]
  omega

/-! ## Points, subgroups, curves -/

/-- the numbers of a point have at most `L` digits -/
structure PointFits (L : Nat) (p : Point) : Prop where
  x : (hexText (elementi p.x)).length ≤ L
  y : (hexText (elementi p.y)).length ≤ L
  order : (hexText p.order).length ≤ L
  cofactor : ∀ k, p.cofactor = some k → (hexText k).length ≤ L

theorem name_length (k : String) (h : k.length ≤ 9) : (renderStr (name k)).length ≤ 218 := by
  have := renderStr_length k.toList
  rw [String.length_toList] at this
  unfold name
  omega

theorem point_members (level w L : Nat) (hl : level ≤ 4) (hw : w ≤ L) (p : Point) (hp : PointFits L p) :
    ((jsonPoint w p).map fun x => (renderStr (name x.1)).length + (render true (level + 1) (encode x.2)).length + (4 * level + 8)).sum ≤ 4 * cost L + 968 := by
  have k1 := name_length "x" (by decide)
  have k2 := name_length "y" (by decide)
  have k3 := name_length "order" (by decide)
  have k4 := name_length "cofactor" (by decide)
  have h1 := number_length (level + 1) w _ L hw hp.x
  have h2 := number_length (level + 1) w _ L hw hp.y
  have h3 := number_length (level + 1) 0 _ L (Nat.zero_le _) hp.order
  unfold jsonPoint
  cases hc : p.cofactor with
  | none =>
    simp only [List.map_append, List.map_cons, List.map_nil, List.sum_append, List.sum_cons, List.sum_nil]
    omega
  | some k =>
    have h4 := number_length (level + 1) 0 _ L (Nat.zero_le _) (hp.cofactor k hc)
    simp only [List.map_append, List.map_cons, List.map_nil, List.sum_append, List.sum_cons, List.sum_nil]
    omega

theorem point_length (w L : Nat) (hw : w ≤ L) (p : Point) (hp : PointFits L p) :
    (render true 4 (encode (.obj (jsonPoint w p)))).length ≤ 4 * cost L + 987 := by
  have h1 := render_obj 4 (jsonPoint w p)
  have h2 := point_members 4 w L (by omega) hw p hp
  omega

theorem subgroup_length (w L : Nat) (hw : w ≤ L) (g : Subgroup) (hg : PointFits L g.generator) (hp : ∀ p ∈ g.points, PointFits L p) :
    (render true 2 (encode (jsonSubgroup w g))).length ≤ (g.points.length + 1) * (4 * cost L + 1300) := by
  have h1 := render_obj 2 (jsonPoint w g.generator ++
    if g.points ≠ [] then [("points", Output.Json.arr (g.points.map fun p => .obj (jsonPoint w p)))] else [])
  rw [List.map_append, List.sum_append] at h1
  have h2 := point_members 2 w L (by omega) hw _ hg
  unfold jsonSubgroup
  rw [Nat.add_one_mul]
  by_cases h0 : g.points = []
  · rw [if_neg (by simpa using h0)] at h1 ⊢
    simp only [List.map_nil, List.sum_nil] at h1
    omega
  · rw [if_pos h0] at h1 ⊢
    simp only [List.map_cons, List.map_nil, List.sum_cons, List.sum_nil] at h1
    have h3 := render_arr (2 + 1) (g.points.map fun p => Output.Json.obj (jsonPoint w p))
    rw [List.map_map] at h3
    have h4 : (g.points.map ((fun j => (render true (2 + 1 + 1) (encode j)).length + (4 * (2 + 1) + 6)) ∘ fun p => Output.Json.obj (jsonPoint w p))).sum ≤
        g.points.length * (4 * cost L + 1005) :=
      sum_le_mul _ _ _ fun p hp' => by
        have := point_length w L hw p (hp p hp')
        simp only [Function.comp_def, Nat.reduceAdd, Nat.reduceMul]
        omega
    have k1 := name_length "points" (by decide)
    have h5 : g.points.length * (4 * cost L + 1300) = g.points.length * (4 * cost L + 1005) + g.points.length * 295 := by ring
    have h6 : 1 ≤ g.points.length := List.length_pos_iff.2 h0
    omega

/-- the numbers of a curve have at most `L` digits, as has the seed, and there are no metadata -/
structure Fits (w L : Nat) (c : Curve) : Prop where
  width : w ≤ L
  prime : ∀ p, c.field = .prime p → (hexText p).length ≤ L
  binary : ∀ m, c.field = .binary m → ∀ e, fieldParams m = some e → ∀ i, (hexText (e.getD i 0)).length ≤ L
  seed : ∀ s t, c.seed = some s → seedText s = some t → t.length ≤ L
  a : (hexText (elementi c.a)).length ≤ L
  b : (hexText (elementi c.b)).length ≤ L
  order : (hexText c.order).length ≤ L
  generators : ∀ g ∈ c.gens, PointFits L g.generator
  points : ∀ g ∈ c.gens, ∀ p ∈ g.points, PointFits L p
  info : c.info = []

/-- the number of points that are printed with a curve, generators included -/
def count (c : Curve) : Nat := (c.gens.map fun g => g.points.length + 1).sum

theorem curve_length (w L : Nat) (c : Curve) (h : Fits w L c) (j : Output.Json) (hj : outputJson w c = some j) :
    (render true 0 (encode j)).length ≤ (count c + 4) * (4 * cost L + 1400) := by
  unfold outputJson at hj
  rw [Option.bind_eq_some_iff] at hj
  obtain ⟨f, hf, hj⟩ := hj
  have k1 := name_length "field" (by decide)
  have k2 := name_length "seed" (by decide)
  have k3 := name_length "a" (by decide)
  have k4 := name_length "b" (by decide)
  have k5 := name_length "order" (by decide)
  have k6 := name_length "subgroups" (by decide)
  have n1 := number_length (0 + 1) w _ L h.width h.a
  have n2 := number_length (0 + 1) w _ L h.width h.b
  have n3 := number_length (0 + 1) w _ L h.width h.order
  have hfl : (render true (0 + 1) (encode f)).length ≤ 4 * cost L + 1000 := by
    unfold jsonField at hf
    cases hfc : c.field with
    | prime p =>
      rw [hfc] at hf
      cases hf
      have h1 := render_obj (0 + 1) [("p", Output.Json.str (px w p))]
      simp only [List.map_cons, List.map_nil, List.sum_cons, List.sum_nil] at h1
      have := name_length "p" (by decide)
      have := number_length (0 + 1 + 1) w _ L h.width (h.prime p hfc)
      omega
    | binary m =>
      rw [hfc] at hf
      simp only [Option.map_eq_some_iff] at hf
      obtain ⟨e, he, rfl⟩ := hf
      have h1 := render_obj (0 + 1) [("m", Output.Json.str (px 0 (e.getD 0 0))), ("e1", .str (px 0 (e.getD 1 0))), ("e2", .str (px 0 (e.getD 2 0))), ("e3", .str (px 0 (e.getD 3 0)))]
      simp only [List.map_cons, List.map_nil, List.sum_cons, List.sum_nil] at h1
      have m1 := name_length "m" (by decide)
      have m2 := name_length "e1" (by decide)
      have m3 := name_length "e2" (by decide)
      have m4 := name_length "e3" (by decide)
      have f1 := number_length (0 + 1 + 1) 0 _ L (Nat.zero_le _) (h.binary m hfc e he 0)
      have f2 := number_length (0 + 1 + 1) 0 _ L (Nat.zero_le _) (h.binary m hfc e he 1)
      have f3 := number_length (0 + 1 + 1) 0 _ L (Nat.zero_le _) (h.binary m hfc e he 2)
      have f4 := number_length (0 + 1 + 1) 0 _ L (Nat.zero_le _) (h.binary m hfc e he 3)
      omega
  have hsub : (((if c.gens ≠ [] then [("subgroups", Output.Json.arr (c.gens.map (jsonSubgroup w)))] else []) : List (String × Output.Json)).map fun x =>
      (renderStr (name x.1)).length + (render true (0 + 1) (encode x.2)).length + (4 * 0 + 8)).sum ≤ count c * (4 * cost L + 1400) + 240 := by
    split
    · have h1 := render_arr (0 + 1) (c.gens.map (jsonSubgroup w))
      rw [List.map_map] at h1
      have h2 : (c.gens.map ((fun j => (render true (0 + 1 + 1) (encode j)).length + (4 * (0 + 1) + 6)) ∘ jsonSubgroup w)).sum ≤
          (c.gens.map fun g => (g.points.length + 1) * (4 * cost L + 1400)).sum :=
        sum_le _ _ _ fun g hg => by
          have := subgroup_length w L h.width g (h.generators g hg) (h.points g hg)
          have e : (g.points.length + 1) * (4 * cost L + 1400) = (g.points.length + 1) * (4 * cost L + 1300) + (g.points.length + 1) * 100 := by ring
          simp only [Function.comp_def, Nat.reduceAdd, Nat.reduceMul]
          omega
      have h3 : (c.gens.map fun g => (g.points.length + 1) * (4 * cost L + 1400)).sum = count c * (4 * cost L + 1400) := by
        unfold count
        rw [List.sum_map_mul_right]
      simp only [List.map_cons, List.map_nil, List.sum_cons, List.sum_nil]
      omega
    · simp
  have htail : ∀ pre : List (String × Output.Json),
      (pre.map fun x => (renderStr (name x.1)).length + (render true (0 + 1) (encode x.2)).length + (4 * 0 + 8)).sum ≤ 5 * cost L + 1600 →
      j = .obj (pre ++ ([("a", .str (px w (elementi c.a))), ("b", .str (px w (elementi c.b))), ("order", .str (px w c.order))] ++
        (if c.gens ≠ [] then [("subgroups", .arr (c.gens.map (jsonSubgroup w)))] else []))) →
      (render true 0 (encode j)).length ≤ (count c + 4) * (4 * cost L + 1400) := by
    rintro pre hpre rfl
    have h1 := render_obj 0 (pre ++ ([("a", Output.Json.str (px w (elementi c.a))), ("b", .str (px w (elementi c.b))), ("order", .str (px w c.order))] ++
        (if c.gens ≠ [] then [("subgroups", Output.Json.arr (c.gens.map (jsonSubgroup w)))] else [])))
    rw [List.map_append, List.sum_append, List.map_append, List.sum_append] at h1
    have h2 : (([("a", Output.Json.str (px w (elementi c.a))), ("b", .str (px w (elementi c.b))), ("order", .str (px w c.order))] : List (String × Output.Json)).map fun x =>
      (renderStr (name x.1)).length + (render true (0 + 1) (encode x.2)).length + (4 * 0 + 8)).sum ≤ 3 * cost L + 700 := by
      simp only [List.map_cons, List.map_nil, List.sum_cons, List.sum_nil]
      omega
    have e : (count c + 4) * (4 * cost L + 1400) = count c * (4 * cost L + 1400) + (16 * cost L + 5600) := by ring
    omega
  have hinfo : (if c.info ≠ [] then [("meta", Output.Json.obj (c.info.map fun x => (x.1, Output.Json.str x.2)))] else []) = [] := by
    rw [h.info]; rfl
  simp only [hinfo, List.append_nil] at hj
  cases hs : c.seed with
  | none =>
    rw [hs] at hj
    cases hj
    refine htail [("field", f)] ?_ rfl
    simp only [List.map_cons, List.map_nil, List.sum_cons, List.sum_nil]
    omega
  | some s =>
    rw [hs] at hj
    obtain ⟨t, ht, rfl⟩ := Option.map_eq_some_iff.1 hj
    refine htail [("field", f), ("seed", .str t)] ?_ rfl
    have h1 := h.seed s t hs ht
    have h2 := renderStr_length t
    simp only [List.map_cons, List.map_nil, List.sum_cons, List.sum_nil]
    have h3 : (render true (0 + 1) (encode (.str t))).length ≤ 2 + 24 * L := by
      simp only [encode, render]
      omega
    simp only [cost] at *
    omega

/-- **the text of a curve is not too long**, if it has `L` digits in its numbers and `n` points and `(n + 4) (96 L + 1600) ≤ 2 ^ 31 - 2` -/
theorem text_short (w L : Nat) (c : Curve) (h : Fits w L c) (hn : (count c + 4) * (96 * L + 1600) ≤ 2147483646) (j : Value) (hj : outputJjson w c = .ok j)
    (hp : Output.Printable c) (ht : ∀ m, c.field = .binary m → m.dropLast.count true ≤ 4) : (render true 0 j).length ≤ 2147483646 := by
  obtain ⟨j', hj'⟩ := Option.isSome_iff_exists.1 (Output.printed_defined w c hp ht)
  have hv := outputJjson_eq w c j' hj' (by rw [h.info]; exact fun x hx => nomatch hx) (by rw [h.info]; exact List.nodup_nil)
  rw [hv] at hj
  cases hj
  refine (curve_length w L c h j' hj').trans (le_trans (Nat.le_of_eq ?_) hn)
  unfold cost
  ring

end Ecgen.Parson
