import Verif.Output.Lemmas
import Mathlib.Data.List.GetD

/-!
# Printed curves read back (C49), field elements survive conversion (C50)
-/

namespace Ecgen.Output

open Spec Bits

/-! ## C50 -/

/-- **C50** An integer below the field size becomes an element of the field, whose coefficients are the binary digits, and comes back. -/
theorem ielement_elementi (f : Field) (n : Nat) (h : n < size f) (hf : ∀ m, f = .binary m → m ≠ []) :
    ∃ e, ielement f n = some e ∧ Elem f e ∧ eltV e = n ∧ elementi e = n := by
  cases f with
  | prime p =>
    have hn : n % p = n := Nat.mod_eq_of_lt h
    exact ⟨.intmod (n % p) p, rfl, ⟨rfl, Nat.mod_lt _ (Nat.lt_of_le_of_lt (Nat.zero_le _) h)⟩, by simp [eltV, hn],
      by simp [elementi, hn]⟩
  | binary m =>
    have hm : 0 < m.length := List.length_pos_iff.2 (hf m rfl)
    have hl : (digits2 n).length ≤ m.length - 1 := digits2_length n _ h
    refine ⟨.ff (digits2 n), ?_, ⟨by omega, digits2_head n⟩, ?_, fromDigits_digits2 n⟩
    · simp only [ielement]
      rw [if_pos (by omega)]
    · rw [← elementi_eq]
      exact fromDigits_digits2 n

/-- **C50** An element of the field becomes an integer below the field size, and comes back. -/
theorem elementi_ielement (f : Field) (e : Elt) (h : Elem f e) : elementi e < size f ∧ ielement f (elementi e) = some e := by
  cases f with
  | prime p =>
    cases e with
    | intmod n q =>
      obtain ⟨rfl, hn⟩ := h
      simp [elementi, ielement, size, Nat.mod_eq_of_lt hn, hn]
    | int n => exact absurd h id
    | ff v => exact absurd h id
  | binary m =>
    cases e with
    | ff v =>
      obtain ⟨h1, h2⟩ := h
      refine ⟨Nat.lt_of_lt_of_le (fromDigits_lt v) (Nat.pow_le_pow_right (by decide) (by omega)), ?_⟩
      simp only [elementi, ielement, digits2_fromDigits v h2, h1, if_true]
    | int n => exact absurd h id
    | intmod n q => exact absurd h id

/-- the numbers of distinct elements of a field are distinct -/
theorem eltV_injective (f : Field) (e e' : Elt) (h : Elem f e) (h' : Elem f e') (heq : eltV e = eltV e') : e = e' := by
  have h1 := (elementi_ielement f e h).2
  have h2 := (elementi_ielement f e' h').2
  rw [elementi_eq, heq, ← elementi_eq, h2] at h1
  exact (Option.some.inj h1).symm

/-- the hypotheses are met in GF(2^3), with 6 = x^2 + x, and modulo 11 -/
example : ielement (.binary [true, false, true, true]) 6 = some (.ff [true, true, false]) ∧
    Elem (.binary [true, false, true, true]) (.ff [true, true, false]) ∧ 6 < size (.binary [true, false, true, true]) ∧
    ielement (.prime 11) 7 = some (.intmod 7 11) ∧ 7 < size (.prime 11) :=
  ⟨by decide +kernel, ⟨by decide, by decide⟩, by decide, by decide, by decide⟩

/-! ## C49 -/

/-- **C49** The form of a printed number: `0x`, at least the width many digits, all of them lower-case hex digits, no more than the width
unless the number needs them, and the digits denote the number. -/
theorem printed_form (w n : Nat) :
    ∃ d, px w n = '0' :: 'x' :: d ∧ ofHex d = some n ∧ w ≤ d.length ∧ (∀ c ∈ d, ∃ k, k < 16 ∧ c = hexDigit k) ∧
      (0 < w → n < 16 ^ w → d.length = w) ∧ (16 ^ w ≤ n → 16 ^ (d.length - 1) ≤ n) := by
  refine ⟨digitsOf w n, px_eq w n, ofHex_digitsOf w n, ?_, hexVal_digitsOf w n, ?_, ?_⟩
  · simp [digitsOf]; omega
  · intro hw hn
    have := (Nat.length_toDigits_le_iff (b := 16) (by decide) hw).2 hn
    simp [digitsOf]; omega
  · intro hn
    have hp := Nat.length_toDigits_pos (b := 16) (n := n)
    have hlen : w ≤ (Nat.toDigits 16 n).length := by
      rcases Nat.eq_zero_or_pos w with h0 | h0
      · omega
      · by_contra hlt
        have := (Nat.length_toDigits_le_iff (b := 16) (n := n) (by decide) h0).1 (by omega)
        omega
    have : (digitsOf w n).length = (Nat.toDigits 16 n).length := by simp [digitsOf]; omega
    rw [this]
    by_contra hlt
    by_cases h1 : (Nat.toDigits 16 n).length = 1
    · rw [h1] at hlt
      have h16 := Nat.one_le_pow w 16 (by decide)
      simp at hlt
      omega
    · have := (Nat.length_toDigits_le_iff (b := 16) (n := n) (by decide) (k := (Nat.toDigits 16 n).length - 1) (by omega)).2 (by omega)
      omega

/-- **C49** Distinct numbers print differently. -/
theorem printed_injective (w n m : Nat) (h : px w n = px w m) : n = m := by
  have := readHex_px w n
  rw [h, readHex_px] at this
  exact (Option.some.inj this).symm

/-- all values below the field width print with the same length -/
theorem printed_width (w n m : Nat) (hw : 0 < w) (hn : n < 16 ^ w) (hm : m < 16 ^ w) : (px w n).length = (px w m).length := by
  obtain ⟨d, h1, _, _, _, h2, _⟩ := printed_form w n
  obtain ⟨e, h3, _, _, _, h4, _⟩ := printed_form w m
  rw [h1, h3]
  simp [h2 hw hn, h4 hw hm]

/-! ### Parts of a curve -/

theorem allSome_map {α β : Type} (f : α → Option β) (g : α → β) : ∀ (l : List α), (∀ x ∈ l, f x = some (g x)) →
    allSome (l.map f) = some (l.map g) := by
  intro l
  induction l with
  | nil => intro _; rfl
  | cons a l ih =>
    intro h
    rw [List.map_cons, h a List.mem_cons_self, allSome, ih fun x hx => h x (List.mem_cons_of_mem _ hx)]
    rfl

theorem number_find (k : String) (l : List (String × Json)) (w n : Nat) (h : find k l = some (.str (px w n))) :
    number k (.obj l) = some n := by
  simp only [number, member, h, Option.bind_some, text, readHex_px]

theorem point_reads (w : Nat) (p : Point) (more : List (String × Json)) (hm : find "cofactor" more = none) :
    readPoint (.obj (jsonPoint w p ++ more)) = some (pointV p) := by
  unfold readPoint
  rw [number_find "x" _ w (elementi p.x) (by rfl), number_find "y" _ w (elementi p.y) (by rfl),
    number_find "order" _ 0 p.order (by rfl)]
  simp only [Option.bind_some]
  cases hc : p.cofactor with
  | none =>
    have : member "cofactor" (.obj (jsonPoint w p ++ more)) = none := by
      simp [jsonPoint, hc, member, find, hm]
    rw [this]
    simp [pointV, elementi_eq, hc]
  | some c =>
    have : member "cofactor" (.obj (jsonPoint w p ++ more)) = some (.str (px 0 c)) := by
      simp [jsonPoint, hc, member, find]
    rw [this]
    simp [pointV, elementi_eq, hc, text, readHex_px]

theorem find_points (w : Nat) (p : Point) (more : List (String × Json)) :
    member "points" (.obj (jsonPoint w p ++ more)) = find "points" more := by
  cases hc : p.cofactor <;> simp [jsonPoint, hc, member, find]

theorem subgroup_reads (w : Nat) (g : Subgroup) : readSubgroup (jsonSubgroup w g) = some (pointV g.generator, g.points.map pointV) := by
  unfold readSubgroup jsonSubgroup
  have hp (p : Point) : readPoint (.obj (jsonPoint w p)) = some (pointV p) := by
    have := point_reads w p [] rfl
    rwa [List.append_nil] at this
  by_cases h : g.points = []
  · simp only [h, ne_eq, not_true_eq_false, if_false]
    rw [point_reads w _ [] rfl, find_points]
    rfl
  · rw [if_pos h, point_reads w _ _ (by simp [find]), find_points]
    simp only [find, Option.bind_some, items, if_true, List.map_map]
    rw [allSome_map (readPoint ∘ fun p => Json.obj (jsonPoint w p)) pointV g.points fun p _ => hp p]
    rfl

theorem seed_reads (s : Bits) (h : s.WF) (hlen : s.bitlen ≠ 0) : ∃ t, seedText s = some t ∧ readSigned t = some (seedV s) := by
  obtain ⟨d, h1, h2, h3⟩ := toHex_value s h
  have hd : ∃ c r, d = c :: r := by
    cases d with
    | nil => simp at h2; omega
    | cons c r => exact ⟨c, r, rfl⟩
  obtain ⟨c, r, rfl⟩ := hd
  unfold seedText
  rw [h1]
  cases hs : s.sign with
  | true =>
    refine ⟨['-', '0', 'x'] ++ (c :: r), ?_, ?_⟩
    · simp
    · simp [readSigned, readHex, h3, seedV, hs]
  | false =>
    refine ⟨['0', 'x'] ++ (c :: r), ?_, ?_⟩
    · simp
    · simp [readSigned, readHex, h3, seedV, hs]

/-! ### The modulus -/

theorem paramsLoop_eq : ∀ (v : List Bool) (out e : List Nat), paramsLoop v out = some e →
    e = out ++ ((List.range v.length).reverse.filter fun i => v.reverse.getD i false).map (· + 1) ++
      List.replicate (4 - (out.length + ((List.range v.length).reverse.filter fun i => v.reverse.getD i false).length)) 0 := by
  intro v
  induction v with
  | nil =>
    intro out e h
    simp only [paramsLoop] at h
    split at h
    · simpa using (Option.some.inj h).symm
    · cases h
  | cons c v ih =>
    intro out e h
    rw [paramsLoop] at h
    split at h
    swap
    · cases h
    have hr : ((List.range (c :: v).length).reverse.filter fun i => (c :: v).reverse.getD i false) =
        (if c then [v.length] else []) ++ ((List.range v.length).reverse.filter fun i => v.reverse.getD i false) := by
      rw [List.length_cons, List.range_succ, List.reverse_append, List.reverse_singleton, List.singleton_append, List.filter_cons]
      have h1 : (c :: v).reverse.getD v.length false = c := by
        rw [List.reverse_cons, List.getD_append_right _ _ _ _ (by simp)]
        simp
      have h2 : ((List.range v.length).reverse.filter fun i => (c :: v).reverse.getD i false) =
          (List.range v.length).reverse.filter fun i => v.reverse.getD i false := by
        apply List.filter_congr
        intro i hi
        rw [List.mem_reverse, List.mem_range] at hi
        rw [List.reverse_cons, List.getD_append _ _ _ _ (by simpa using hi)]
      rw [h1, h2]
      cases c <;> simp
    rw [ih _ _ h, hr]
    cases c
    · simp
    · simp [Nat.add_assoc, Nat.add_comm 1]

theorem exponents_eq (modulus : List Bool) (h : modulus ≠ []) :
    exponents modulus = ((List.range modulus.dropLast.length).reverse.filter fun i => modulus.dropLast.reverse.getD i false).map (· + 1) := by
  obtain ⟨v, b, rfl⟩ : ∃ v b, modulus = v ++ [b] := ⟨modulus.dropLast, modulus.getLast h, (List.dropLast_append_getLast h).symm⟩
  rw [List.dropLast_concat]
  unfold exponents
  rw [List.length_append, List.length_singleton, List.range_succ_eq_map, List.reverse_cons, List.filter_append, ← List.map_reverse,
    List.filter_map]
  simp only [List.reverse_append, List.reverse_singleton, List.singleton_append]
  have : (fun i => decide (i ≠ 0 ∧ (b :: v.reverse).getD i false = true)) ∘ Nat.succ = fun i => v.reverse.getD i false := by
    funext i
    simp
  rw [this]
  simp

theorem params_reads (modulus : List Bool) (e : List Nat) (h : modulus ≠ []) (he : fieldParams modulus = some e) (i : Nat) :
    e.getD i 0 = (exponents modulus).getD i 0 := by
  rw [paramsLoop_eq _ _ _ he, exponents_eq modulus h, List.nil_append]
  set l := ((List.range modulus.dropLast.length).reverse.filter fun i => modulus.dropLast.reverse.getD i false).map (· + 1)
  by_cases hi : i < l.length
  · rw [List.getD_append _ _ _ _ hi]
  · rw [List.getD_append_right _ _ _ _ (by omega), List.getD_eq_default l _ (by omega)]
    rw [List.getD_eq_getElem?_getD, List.getElem?_replicate]
    split <;> rfl

theorem field_reads (w : Nat) (f : Field) (j : Json) (hf : ∀ m, f = .binary m → m ≠ []) (h : jsonField w f = some j) :
    readField j = some (fieldV f) := by
  cases f with
  | prime p =>
    simp only [jsonField, Option.some.injEq] at h
    subst h
    simp [readField, member, find, text, readHex_px, fieldV]
  | binary m =>
    simp only [jsonField, Option.map_eq_some_iff] at h
    obtain ⟨e, he, rfl⟩ := h
    have hv := params_reads m e (hf m rfl) he
    unfold readField
    have : member "p" (.obj [("m", .str (px 0 (e.getD 0 0))), ("e1", .str (px 0 (e.getD 1 0))), ("e2", .str (px 0 (e.getD 2 0))),
        ("e3", .str (px 0 (e.getD 3 0)))]) = none := by simp [member, find]
    rw [this]
    simp only
    rw [number_find "m" _ 0 (e.getD 0 0) (by rfl), number_find "e1" _ 0 (e.getD 1 0) (by rfl),
      number_find "e2" _ 0 (e.getD 2 0) (by rfl), number_find "e3" _ 0 (e.getD 3 0) (by rfl)]
    simp only [Option.bind_some, Option.map_some, fieldV, hv]

/-- what the printing code relies on: the modulus is not the empty list and the seed is a proper bit string, not empty -/
structure Printable (c : Curve) : Prop where
  modulus : ∀ m, c.field = .binary m → m ≠ []
  seed : ∀ s, c.seed = some s → s.WF ∧ s.bitlen ≠ 0

/-- **C49** A printed curve reads back as the values of the curve: field, seed with its sign, coefficients, order, and the coordinates,
orders and cofactors of all generators and points. -/
theorem printed_curve_reads (w : Nat) (c : Curve) (j : Json) (hp : Printable c) (h : outputJson w c = some j) :
    readCurve j = some (curveV c) := by
  unfold outputJson at h
  rw [Option.bind_eq_some_iff] at h
  obtain ⟨f, hf, h⟩ := h
  have hfield := field_reads w c.field f hp.modulus hf
  -- the optional members
  have hsub : allSome ((c.gens.map (jsonSubgroup w)).map readSubgroup) = some (c.gens.map fun g => (pointV g.generator, g.points.map pointV)) := by
    rw [List.map_map]
    exact allSome_map _ _ c.gens fun g _ => subgroup_reads w g
  cases hs : c.seed with
  | none =>
    rw [hs] at h
    simp only [Option.some.injEq] at h
    subst h
    unfold readCurve
    rw [number_find "a" _ w (elementi c.a) (by simp [find]), number_find "b" _ w (elementi c.b) (by simp [find]),
      number_find "order" _ w c.order (by simp [find])]
    by_cases hg : c.gens = [] <;> by_cases hi : c.info = [] <;>
      simp [member, find, hg, hi, hfield, items, curveV, hs, elementi_eq, allSome] <;> simpa using hsub
  | some s =>
    rw [hs] at h
    obtain ⟨t, ht, htv⟩ := seed_reads s (hp.seed s hs).1 (hp.seed s hs).2
    simp only [ht, Option.map_some, Option.some.injEq] at h
    subst h
    unfold readCurve
    rw [number_find "a" _ w (elementi c.a) (by simp [find]), number_find "b" _ w (elementi c.b) (by simp [find]),
      number_find "order" _ w c.order (by simp [find])]
    by_cases hg : c.gens = [] <;> by_cases hi : c.info = [] <;>
      simp [member, find, hg, hi, hfield, items, curveV, hs, elementi_eq, allSome, text, htv] <;> simpa using hsub

/-- **C49** Curves with different values print differently. -/
theorem printed_curve_injective (w : Nat) (c d : Curve) (j : Json) (hc : Printable c) (hd : Printable d) (h1 : outputJson w c = some j)
    (h2 : outputJson w d = some j) : curveV c = curveV d := by
  have := printed_curve_reads w c j hc h1
  rw [printed_curve_reads w d j hd h2] at this
  exact (Option.some.inj this).symm

/-- **C49** Curves over the same field with the same printed form have the same coefficients and the same points. -/
theorem printed_elements_injective (w : Nat) (c d : Curve) (j : Json) (hc : Printable c) (hd : Printable d) (h1 : outputJson w c = some j)
    (h2 : outputJson w d = some j) (hf : c.field = d.field) (ha : Elem c.field c.a) (hb : Elem c.field c.b) (ha' : Elem d.field d.a)
    (hb' : Elem d.field d.b) : c.a = d.a ∧ c.b = d.b ∧ c.order = d.order := by
  have h := printed_curve_injective w c d j hc hd h1 h2
  rw [← hf] at ha' hb'
  have e1 : eltV c.a = eltV d.a := congrArg CurveV.a h
  have e2 : eltV c.b = eltV d.b := congrArg CurveV.b h
  exact ⟨eltV_injective _ _ _ ha ha' e1, eltV_injective _ _ _ hb hb' e2, congrArg CurveV.order h⟩

/-! ### When printing works -/

theorem paramsLoop_some : ∀ (v : List Bool) (out : List Nat), out.length + v.count true ≤ 4 → (paramsLoop v out).isSome := by
  intro v
  induction v with
  | nil => intro out h; simp only [List.count_nil, Nat.add_zero] at h; simp [paramsLoop, h]
  | cons c v ih =>
    intro out h
    rw [paramsLoop, if_pos (by omega)]
    apply ih
    cases c
    · simpa using h
    · simp at h ⊢; omega

/-- **C49** Printing works for every prime field, and for every binary field whose modulus has at most four terms besides the constant,
whatever the coefficients, order, generators and points; more terms are written past the end of a vector. -/
theorem printed_defined (w : Nat) (c : Curve) (hp : Printable c) (hf : ∀ m, c.field = .binary m → m.dropLast.count true ≤ 4) :
    (outputJson w c).isSome := by
  unfold outputJson
  have hfield : ∃ f, jsonField w c.field = some f := by
    cases hc : c.field with
    | prime p => exact ⟨_, rfl⟩
    | binary m =>
      have := paramsLoop_some m.dropLast [] (by simpa using hf m hc)
      obtain ⟨e, he⟩ := Option.isSome_iff_exists.1 this
      exact ⟨_, by simp only [jsonField, fieldParams, he, Option.map_some]; rfl⟩
  obtain ⟨f, hf⟩ := hfield
  rw [hf]
  cases hs : c.seed with
  | none => simp
  | some s =>
    obtain ⟨t, ht, _⟩ := seed_reads s (hp.seed s hs).1 (hp.seed s hs).2
    simp [ht]

theorem exponents_mem (m : List Bool) (i : Nat) : i ∈ exponents m ↔ i ≠ 0 ∧ m.reverse.getD i false = true := by
  simp only [exponents, List.mem_filter, List.mem_reverse, List.mem_range, decide_eq_true_eq]
  constructor
  · exact fun h => h.2
  · intro h
    refine ⟨?_, h⟩
    by_contra hi
    rw [List.getD_eq_default _ _ (by simpa using hi)] at h
    exact absurd h.2 (by simp)

/-- a modulus as PARI stores it: leading coefficient and constant term are 1, degree at least 1, and few enough terms -/
structure Modulus (m : List Bool) : Prop where
  degree : 2 ≤ m.length
  lead : m.head? = some true
  const : m.getLast? = some true
  terms : (exponents m).length ≤ 4

theorem lead_mem (m : List Bool) (h : Modulus m) : m.length - 1 ∈ exponents m := by
  rw [exponents_mem]
  refine ⟨by have := h.degree; omega, ?_⟩
  cases hm : m with
  | nil => have := h.degree; rw [hm] at this; simp at this
  | cons b v =>
    have := h.lead
    rw [hm, List.head?_cons] at this
    rw [List.length_cons, List.reverse_cons, List.getD_append_right _ _ _ _ (by simp)]
    simpa using this

/-- the printed field determines the modulus -/
theorem modulus_determined (m m' : List Bool) (h : Modulus m) (h' : Modulus m') (heq : fieldV (.binary m) = fieldV (.binary m')) :
    m = m' := by
  simp only [fieldV, FieldV.binary.injEq] at heq
  have pos (m : List Bool) (h : Modulus m) (i : Nat) : i < (exponents m).length ↔ (exponents m).getD i 0 ≠ 0 := by
    constructor
    · intro hi
      rw [List.getD_eq_getElem _ _ hi]
      exact ((exponents_mem m _).1 (List.getElem_mem hi)).1
    · intro hne
      by_contra hi
      exact hne (List.getD_eq_default _ _ (by omega))
  have hget : ∀ i, (exponents m).getD i 0 = (exponents m').getD i 0 := by
    intro i
    by_cases hi : i < 4
    · obtain ⟨e0, e1, e2, e3⟩ := heq
      match i, hi with
      | 0, _ => exact e0
      | 1, _ => exact e1
      | 2, _ => exact e2
      | 3, _ => exact e3
    · rw [List.getD_eq_default _ _ (by have := h.terms; omega), List.getD_eq_default _ _ (by have := h'.terms; omega)]
  have hlen : (exponents m).length = (exponents m').length := by
    rcases Nat.lt_trichotomy (exponents m).length (exponents m').length with hl | hl | hl
    · have := (pos m' h' _).1 hl
      rw [← hget] at this
      exact absurd ((pos m h _).2 this) (by omega)
    · exact hl
    · have := (pos m h _).1 hl
      rw [hget] at this
      exact absurd ((pos m' h' _).2 this) (by omega)
  have hex : exponents m = exponents m' := by
    apply List.ext_getElem hlen
    intro i h1 h2
    have := hget i
    rwa [List.getD_eq_getElem _ _ h1, List.getD_eq_getElem _ _ h2] at this
  have bound (m : List Bool) (i : Nat) (hi : i ∈ exponents m) : i < m.length := by
    have := (exponents_mem m i).1 hi
    by_contra hlt
    rw [List.getD_eq_default _ _ (by simpa using hlt)] at this
    exact absurd this.2 (by simp)
  have hl : m.length = m'.length := by
    have a1 := lead_mem m h
    have a2 := lead_mem m' h'
    rw [hex] at a1
    rw [← hex] at a2
    have := bound _ _ a1
    have := bound _ _ a2
    have := h.degree
    have := h'.degree
    omega
  have const (m : List Bool) (h : Modulus m) : m.reverse.getD 0 false = true := by
    have := h.const
    rw [← List.head?_reverse] at this
    cases hr : m.reverse with
    | nil => rw [hr] at this; cases this
    | cons b v => rw [hr] at this; simpa using this
  have hrev : m.reverse = m'.reverse := by
    apply List.ext_getElem (by simpa using hl)
    intro i h1 h2
    have e : m.reverse.getD i false = m'.reverse.getD i false := by
      by_cases hi : i = 0
      · rw [hi, const m h, const m' h']
      · have a := exponents_mem m i
        have b := exponents_mem m' i
        rw [← hex] at b
        rw [Bool.eq_iff_iff]
        constructor
        · intro hh; exact (b.1 (a.2 ⟨hi, hh⟩)).2
        · intro hh; exact (a.1 (b.2 ⟨hi, hh⟩)).2
    rwa [List.getD_eq_getElem _ _ h1, List.getD_eq_getElem _ _ h2] at e
  exact List.reverse_injective hrev

/-! ### A case -/

/-- y^2 + xy = x^3 + x^2 + 1 over GF(2^3), with a seed, a generator and a point -/
def sample : Curve :=
  { seed := Bits.fromI (-0xd20), field := .binary [true, false, true, true], a := .ff [true], b := .ff [true], order := 14
    gens := [⟨⟨.ff [true, false], .ff [true, true, true], 14, some 1⟩, [⟨.ff [], .ff [true], 2, none⟩]⟩], info := [] }

theorem sample_printable : Printable sample ∧ Modulus [true, false, true, true] ∧ (outputJson 2 sample).isSome ∧
    (curveV sample).seed = some (-0xd20) := by
  refine ⟨⟨?_, ?_⟩, ⟨by decide, by decide, by decide, by decide⟩, by decide +kernel, by decide +kernel⟩
  · intro m hm
    cases hm
    simp
  · intro s hs
    have : s = (Bits.fromI (-0xd20)).get (by decide +kernel) := by
      have h : sample.seed = some ((Bits.fromI (-0xd20)).get (by decide +kernel)) := by simp [sample]
      rw [h] at hs
      exact (Option.some.inj hs).symm
    subst this
    exact ⟨⟨by decide +kernel, by decide +kernel⟩, by decide +kernel⟩

/-- a modulus with six terms cannot be printed: the fifth exponent is written past the end of the vector -/
theorem printed_many_terms_false (w : Nat) : jsonField w (.binary [true, true, true, true, true, true]) = none := by
  simp [jsonField, fieldParams, paramsLoop]

end Ecgen.Output
