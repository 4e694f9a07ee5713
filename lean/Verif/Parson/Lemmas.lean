import Verif.Parson.Model

/-!
# The text that the serialisation writes
-/

namespace Ecgen.Parson

/-! ### The text as a function -/

def esc (c : Byte) : List Byte := (escape c).getD [c]

def renderStr (s : List Byte) : List Byte := quote :: (s.flatMap esc ++ [quote])

def indent (level : Nat) : List Byte := (List.range level).flatMap fun _ => List.replicate 4 32

/-- white space of the pretty form -/
def pw (pretty : Bool) (w : List Byte) : List Byte := if pretty then w else []

/-- the items of an array or the members of an object, with what is between them -/
def joined (pretty : Bool) (level : Nat) : List (List Byte) → List Byte
  | [] => []
  | [t] => pw pretty (indent (level + 1)) ++ (t ++ pw pretty [10])
  | t :: t' :: ts => pw pretty (indent (level + 1)) ++ (t ++ (44 :: (pw pretty [10] ++ joined pretty level (t' :: ts))))

def wrapped (pretty : Bool) (level count : Nat) (o c : Byte) (body : List Byte) : List Byte :=
  o :: (pw (count > 0 && pretty) [10] ++ (body ++ (pw (count > 0 && pretty) (indent level) ++ [c])))

def memberText (pretty : Bool) (k t : List Byte) : List Byte := renderStr k ++ (58 :: (pw pretty [32] ++ t))

mutual
def render (pretty : Bool) (level : Nat) : Value → List Byte
  | .null => [110, 117, 108, 108]
  | .bool true => [116, 114, 117, 101]
  | .bool false => [102, 97, 108, 115, 101]
  | .str s => renderStr s
  | .arr items => wrapped pretty level items.length 91 93 (joined pretty level (renders pretty (level + 1) items))
  | .obj names values =>
    wrapped pretty level names.length 123 125 (joined pretty level (List.zipWith (memberText pretty) names (renders pretty (level + 1) values)))
def renders (pretty : Bool) (level : Nat) : List Value → List (List Byte)
  | [] => []
  | v :: vs => render pretty level v :: renders pretty level vs
end

mutual
/-- the objects have as many names as values, all different -/
def WF : Value → Prop
  | .arr items => WFs items
  | .obj names values => names.Nodup ∧ names.length = values.length ∧ WFs values
  | _ => True
def WFs : List Value → Prop
  | [] => True
  | v :: vs => WF v ∧ WFs vs
end

theorem renders_length (pretty : Bool) (level : Nat) (vs : List Value) : (renders pretty level vs).length = vs.length := by
  induction vs with
  | nil => rfl
  | cons v vs ih => simp [renders, ih]

theorem sers_length (pretty : Bool) (vs : List Value) : (sers pretty vs).length = vs.length := by
  induction vs with
  | nil => rfl
  | cons v vs ih => simp [sers, ih]

/-! ### Writing -/

/-- the text `t` was written at `p` -/
def Wrote (z : Bool) (m : List Byte) (p : Nat) (t m' : List Byte) : Prop :=
  m'.length = m.length ∧ m'.take (p + t.length) = m.take p ++ t ∧ (z = true → m'[p + t.length]? = some 0)

theorem wrote_trans {z y : Bool} {m m' m'' t u : List Byte} {p : Nat} (h : Wrote y m p t m') (h' : Wrote z m' (p + t.length) u m'') :
    Wrote z m p (t ++ u) m'' := by
  obtain ⟨h1, h2, _⟩ := h
  obtain ⟨h3, h4, h5⟩ := h'
  have e : p + (t ++ u).length = p + t.length + u.length := by simp; omega
  refine ⟨h3.trans h1, ?_, fun hz => ?_⟩
  · rw [e, h4, h2, List.append_assoc]
  · rw [e]
    exact h5 hz

theorem wrote_nil (m : List Byte) (p : Nat) : Wrote false m p [] m := ⟨rfl, by simp, by simp⟩

/-- `g` appends the text `t`; with `z` a zero behind it -/
def Puts (z : Bool) (g : Acc → R Acc) (t : List Byte) : Prop :=
  ∀ a : Acc, 0 ≤ a.total → a.total + t.length ≤ 2147483647 →
    (a.mem = none → g a = .ok ⟨none, a.pos, a.total + t.length⟩) ∧
    (∀ m, a.mem = some m → a.pos + t.length < m.length →
      ∃ m', g a = .ok ⟨some m', a.pos + t.length, a.total + t.length⟩ ∧ Wrote z m a.pos t m')

/-- `f` writes the text `t` and a zero -/
def Writes (f : Mem → Nat → R (Int × Mem)) (t : List Byte) : Prop :=
  t.length ≤ 2147483647 → ∀ p, f none p = .ok ((t.length : Int), none) ∧
    ∀ m : List Byte, p + t.length < m.length → ∃ m', f (some m) p = .ok ((t.length : Int), some m') ∧ Wrote true m p t m'

theorem puts_comp {y z : Bool} {g h : Acc → R Acc} {t u : List Byte} (hg : Puts y g t) (hh : Puts z h u) :
    Puts z (fun a => g a >>= h) (t ++ u) := by
  intro a h0 hmax
  rw [List.length_append] at hmax
  obtain ⟨g1, g2⟩ := hg a h0 (by push_cast at hmax; omega)
  refine ⟨fun hn => ?_, fun m hm hl => ?_⟩
  · have := (hh ⟨none, a.pos, a.total + t.length⟩ (by simp only; omega) (by simp only; push_cast at hmax; omega)).1 rfl
    show (g a >>= h) = _
    rw [g1 hn]
    show h _ = _
    rw [this]
    simp only [List.length_append]
    push_cast
    rw [Int.add_assoc]
  · rw [List.length_append] at hl
    obtain ⟨m', e1, w1⟩ := g2 m hm (by omega)
    obtain ⟨m'', e2, w2⟩ := (hh ⟨some m', a.pos + t.length, a.total + t.length⟩ (by simp only; omega) (by simp only; push_cast at hmax; omega)).2 m' rfl
      (by rw [w1.1]; simp only; omega)
    refine ⟨m'', ?_, wrote_trans w1 w2⟩
    show (g a >>= h) = _
    rw [e1]
    show h _ = _
    rw [e2]
    simp only [List.length_append]
    push_cast
    rw [Int.add_assoc, Nat.add_assoc]

theorem puts_skip : Puts false (fun a => .ok a) [] := by
  intro a _ _
  refine ⟨fun h => ?_, fun m hm _ => ⟨m, ?_, wrote_nil m a.pos⟩⟩
  · cases a; simp only at h; subst h; simp
  · cases a; simp only at hm; subst hm; simp

theorem pokes_spec (m : List Byte) (p : Nat) (s : List Byte) (h : p + s.length ≤ m.length) :
    ∃ m', pokes m p s = .ok m' ∧ m'.length = m.length ∧ m'.take (p + s.length) = m.take p ++ s := by
  induction s generalizing m p with
  | nil => exact ⟨m, rfl, rfl, by simp⟩
  | cons c s ih =>
    simp only [List.length_cons] at h
    obtain ⟨m', e, hl, ht⟩ := ih (m.set p c) (p + 1) (by rw [List.length_set]; omega)
    refine ⟨m', ?_, by rw [hl, List.length_set], ?_⟩
    · unfold pokes poke
      rw [if_pos (by omega)]
      exact e
    · rw [List.length_cons, show p + (s.length + 1) = p + 1 + s.length by omega, ht, List.take_add_one,
        List.getElem?_set_self (by omega), List.take_set_of_le (Nat.le_refl _)]
      simp

theorem puts_app (s : List Byte) : Puts true (app s) s := by
  intro a h0 hmax
  refine ⟨fun hn => ?_, fun m hm hl => ?_⟩
  · unfold app appendString advance addInt
    rw [hn]
    simp only [bind, Except.bind, pure, Except.pure]
    rw [if_neg (by omega), if_pos hmax]
    rfl
  · obtain ⟨m', e, hml, ht⟩ := pokes_spec m a.pos (s ++ [0]) (by simp; omega)
    refine ⟨m', ?_, hml, ?_, ?_⟩
    · unfold app appendString advance addInt
      rw [hm]
      simp only [bind, Except.bind, pure, Except.pure, e]
      rw [if_neg (by omega), if_pos hmax]
      rfl
    · have := congrArg (List.take (a.pos + s.length)) ht
      rw [List.take_take, ← List.append_assoc, List.take_append_of_le_length (by simp; omega), List.take_of_length_le (l := m.take a.pos ++ s) (by simp; omega)] at this
      rw [← this]
      rw [Nat.min_eq_left (by simp)]
    · intro _
      have : (m'.take (a.pos + (s ++ [0]).length))[a.pos + s.length]? = (m.take a.pos ++ (s ++ [0]))[a.pos + s.length]? := by rw [ht]
      rw [List.getElem?_take_of_lt (by simp), ← List.append_assoc, List.getElem?_append_right (by simp; omega)] at this
      rw [this]
      have : a.pos + s.length - (m.take a.pos ++ s).length = 0 := by simp; omega
      rw [this]
      rfl

theorem puts_weaken {g : Acc → R Acc} {t : List Byte} {z : Bool} (h : Puts z g t) : Puts false g t := by
  intro a h0 hmax
  obtain ⟨h1, h2⟩ := h a h0 hmax
  refine ⟨h1, fun m hm hl => ?_⟩
  obtain ⟨m', e, w⟩ := h2 m hm hl
  exact ⟨m', e, w.1, w.2.1, fun h => by cases h⟩

theorem puts_char (c : Byte) : Puts false (putChar c) [c] := by
  intro a h0 hmax
  refine ⟨fun hn => ?_, fun m hm hl => ?_⟩
  · unfold putChar advance addInt
    rw [hn]
    simp only [bind, Except.bind, pure, Except.pure]
    rw [if_neg (by decide), if_pos (show a.total + 1 ≤ 2147483647 from hmax)]
    rfl
  · obtain ⟨m', e, hml, ht⟩ := pokes_spec m a.pos [c] (by simp only [List.length_cons, List.length_nil] at hl ⊢; omega)
    refine ⟨m', ?_, hml, ht, by simp⟩
    unfold pokes at e
    unfold putChar advance addInt
    rw [hm]
    cases hp : poke m a.pos c with
    | error x => rw [hp] at e; cases e
    | ok m1 =>
      rw [hp] at e
      simp only [bind, Except.bind, pokes] at e
      cases e
      simp only [bind, Except.bind, pure, Except.pure, hp]
      rw [if_neg (by decide), if_pos (show a.total + 1 ≤ 2147483647 from hmax)]
      rfl

theorem puts_call {f : Mem → Nat → R (Int × Mem)} {t : List Byte} (h : Writes f t) : Puts true (call f) t := by
  intro a h0 hmax
  obtain ⟨h1, h2⟩ := h (by omega) a.pos
  refine ⟨fun hn => ?_, fun m hm hl => ?_⟩
  · unfold call advance addInt
    rw [hn, h1]
    simp only [bind, Except.bind, pure, Except.pure]
    rw [if_neg (by omega), if_pos hmax]
    rfl
  · obtain ⟨m', e, w⟩ := h2 m hl
    refine ⟨m', ?_, w⟩
    unfold call advance addInt
    rw [hm, e]
    simp only [bind, Except.bind, pure, Except.pure]
    rw [if_neg (by omega), if_pos hmax]
    rfl

theorem writes_of {g : Acc → R Acc} {t : List Byte} (h : Puts true g t) :
    Writes (body g) t := by
  intro hmax p
  obtain ⟨h1, _⟩ := h ⟨none, p, 0⟩ (Int.le_refl 0) (by simp only; omega)
  refine ⟨?_, fun m hl => ?_⟩
  · simp only [body, bind, Except.bind, pure, Except.pure]
    rw [h1 rfl]
    simp
  · obtain ⟨_, h2⟩ := h ⟨some m, p, 0⟩ (Int.le_refl 0) (by simp only; omega)
    obtain ⟨m', e, w⟩ := h2 m rfl hl
    refine ⟨m', ?_, w⟩
    simp only [body, bind, Except.bind, pure, Except.pure]
    rw [e]
    simp

/-! ### The parts of a text -/

theorem puts_foldl (s : List Byte) (l : List Nat) : Puts false (fun a => l.foldlM (fun a _ => app s a) a) (l.flatMap fun _ => s) := by
  induction l with
  | nil => exact puts_skip
  | cons x l ih =>
    rw [List.flatMap_cons]
    exact puts_comp (puts_app s) ih

theorem writes_weak {g : Acc → R Acc} {t : List Byte} (h : Puts false g t) : ∀ a : Acc, 0 ≤ a.total → a.total + t.length ≤ 2147483647 →
    (a.mem = none → call (body g) a = .ok ⟨none, a.pos, a.total + t.length⟩) ∧
    (∀ m, a.mem = some m → a.pos + t.length < m.length →
      ∃ m', call (body g) a = .ok ⟨some m', a.pos + t.length, a.total + t.length⟩ ∧
        Wrote false m a.pos t m') := by
  intro a h0 hmax
  refine ⟨fun hn => ?_, fun m hm hl => ?_⟩
  · have h1 := (h ⟨none, a.pos, 0⟩ (Int.le_refl 0) (by simp only; omega)).1 rfl
    unfold call advance addInt body
    rw [hn]
    simp only [bind, Except.bind, pure, Except.pure]
    rw [h1]
    simp only [Int.zero_add]
    rw [if_neg (by omega), if_pos hmax]
    rfl
  · obtain ⟨m', e, w⟩ := (h ⟨some m, a.pos, 0⟩ (Int.le_refl 0) (by simp only; omega)).2 m rfl hl
    refine ⟨m', ?_, w⟩
    unfold call advance addInt body
    rw [hm]
    simp only [bind, Except.bind, pure, Except.pure]
    rw [e]
    simp only [Int.zero_add]
    rw [if_neg (by omega), if_pos hmax]
    rfl

theorem puts_indent (level : Nat) : Puts false (call (appendIndent level)) (indent level) :=
  writes_weak (puts_foldl (List.replicate 4 (chr ' ')) (List.range level))

theorem puts_if {z : Bool} (c : Bool) {g : Acc → R Acc} {t : List Byte} (h : Puts z g t) : Puts false (ifDo c g) (pw c t) := by
  cases c
  · exact puts_skip
  · exact puts_weaken h

theorem puts_escaped (c : Byte) : Puts false (putEscaped c) (esc c) := by
  unfold putEscaped esc
  cases escape c with
  | some e => exact puts_weaken (puts_app e)
  | none => exact puts_char c

theorem puts_stringLoop (s : List Byte) : Puts false (stringLoop s) (s.flatMap esc) := by
  induction s with
  | nil => exact puts_skip
  | cons c s ih =>
    rw [List.flatMap_cons]
    exact puts_comp (puts_escaped c) ih

theorem writes_serString (s : List Byte) : Writes (serString s) (renderStr s) :=
  writes_of (puts_comp (puts_app [quote]) (puts_comp (puts_stringLoop s) (puts_app [quote])))

theorem writes_around (pretty : Bool) (level count : Nat) (o c : Byte) (loop : Acc → R Acc) (t : List Byte) (h : Puts false loop t) :
    Writes (around pretty level count o c loop) (wrapped pretty level count o c t) :=
  writes_of (puts_comp (puts_app [o]) (puts_comp (puts_if _ (puts_app _)) (puts_comp h (puts_comp (puts_if _ (puts_indent level)) (puts_app [c])))))

/-- the writers of a list write the texts of a list -/
def AllWrite (level : Nat) : List Fn → List (List Byte) → Prop
  | [], [] => True
  | f :: fs, t :: ts => Writes (f level) t ∧ AllWrite level fs ts
  | _, _ => False

theorem joined_cons (pretty : Bool) (level count i : Nat) (t : List Byte) (ts : List (List Byte)) (hi : i + (ts.length + 1) = count) :
    joined pretty level (t :: ts) = pw pretty (indent (level + 1)) ++ (t ++ (pw (decide (i < count - 1)) [chr ','] ++
      (pw pretty [chr '\n'] ++ joined pretty level ts))) := by
  cases ts with
  | nil =>
    rw [show decide (i < count - 1) = false by simp at hi ⊢; omega]
    simp [joined, pw]
    rfl
  | cons t' ts =>
    rw [show decide (i < count - 1) = true by simp at hi ⊢; omega]
    rfl

theorem allWrite_length {level : Nat} {fs : List Fn} {ts : List (List Byte)} (h : AllWrite level fs ts) : fs.length = ts.length := by
  induction fs generalizing ts with
  | nil => cases ts with
    | nil => rfl
    | cons t ts => exact absurd h id
  | cons f fs ih => cases ts with
    | nil => exact absurd h id
    | cons t ts => simp [ih h.2]

theorem puts_arrLoop (pretty : Bool) (level count : Nat) (fs : List Fn) (ts : List (List Byte)) (i : Nat) (hi : i + fs.length = count)
    (h : AllWrite (level + 1) fs ts) : Puts false (arrLoop pretty level count i fs) (joined pretty level ts) := by
  induction fs generalizing ts i with
  | nil =>
    cases ts with
    | nil => exact puts_skip
    | cons t ts => exact absurd h id
  | cons f fs ih =>
    cases ts with
    | nil => exact absurd h id
    | cons t ts =>
      simp only [List.length_cons] at hi
      rw [joined_cons pretty level count i t ts (by rw [← allWrite_length h.2]; exact hi)]
      exact puts_comp (puts_if pretty (puts_indent (level + 1))) (puts_comp (puts_call h.1) (puts_comp (puts_if (i < count - 1) (puts_app [chr ',']))
        (puts_comp (puts_if pretty (puts_app [chr '\n'])) (ih ts (i + 1) (by omega) h.2))))

/-- the members of a list of names are written -/
def AllMember (level : Nat) (names : List (List Byte)) (fs : List Fn) : List (List Byte) → List (List Byte) → Prop
  | [], [] => True
  | k :: ks, t :: ts => (∃ f, getn names fs k = some f ∧ Writes (f level) t) ∧ AllMember level names fs ks ts
  | _, _ => False

theorem allMember_length {level : Nat} {names : List (List Byte)} {fs : List Fn} {ks ts : List (List Byte)} (h : AllMember level names fs ks ts) :
    ks.length = ts.length := by
  induction ks generalizing ts with
  | nil => cases ts with
    | nil => rfl
    | cons t ts => exact absurd h id
  | cons f fs ih => cases ts with
    | nil => exact absurd h id
    | cons t ts => simp [ih h.2]

theorem puts_objLoop (pretty : Bool) (level count : Nat) (names : List (List Byte)) (fs : List Fn) (ks ts : List (List Byte)) (i : Nat)
    (hi : i + ks.length = count) (h : AllMember (level + 1) names fs ks ts) :
    Puts false (objLoop pretty level count names fs i ks) (joined pretty level (List.zipWith (memberText pretty) ks ts)) := by
  induction ks generalizing ts i with
  | nil =>
    cases ts with
    | nil => exact puts_skip
    | cons t ts => exact absurd h id
  | cons k ks ih =>
    cases ts with
    | nil => exact absurd h id
    | cons t ts =>
      simp only [List.length_cons] at hi
      obtain ⟨⟨f, hf, hw⟩, h2⟩ := h
      have hl := allMember_length h2
      rw [List.zipWith_cons_cons, joined_cons pretty level count i _ _ (by simp only [List.length_zipWith]; omega)]
      have hc : Puts true (callValue (getn names fs k) (level + 1)) t := by
        rw [hf]
        exact puts_call hw
      have := puts_comp (puts_if pretty (puts_indent (level + 1))) (puts_comp (puts_call (writes_serString k)) (puts_comp (puts_app [chr ':'])
        (puts_comp (puts_if pretty (puts_app [chr ' '])) (puts_comp hc (puts_comp (puts_if (i < count - 1) (puts_app [chr ',']))
        (puts_comp (puts_if pretty (puts_app [chr '\n'])) (ih ts (i + 1) (by omega) h2)))))))
      have e : ∀ x y : List Byte, pw pretty (indent (level + 1)) ++ (memberText pretty k t ++ (x ++ y)) =
          pw pretty (indent (level + 1)) ++ (renderStr k ++ ([chr ':'] ++ (pw pretty [chr ' '] ++ (t ++ (x ++ y))))) := by
        intro x y
        unfold memberText
        simp only [List.append_assoc, List.cons_append, List.nil_append]
        rfl
      rw [e]
      exact this

theorem indexOf_append (ks : List (List Byte)) (k : List Byte) (rest : List (List Byte)) (h : k ∉ ks) :
    indexOf k (ks ++ k :: rest) = some ks.length := by
  induction ks with
  | nil => simp [indexOf]
  | cons n ks ih =>
    simp only [List.mem_cons, not_or] at h
    rw [List.cons_append, indexOf, if_neg (fun e => h.1 e.symm), ih h.2]
    rfl

theorem allMember_of (level : Nat) (names : List (List Byte)) (fs : List Fn) (pre ks : List (List Byte)) (pf gs : List Fn) (ts : List (List Byte))
    (hn : names = pre ++ ks) (hf : fs = pf ++ gs) (hl : pre.length = pf.length) (hl' : ks.length = gs.length) (hd : names.Nodup)
    (h : AllWrite level gs ts) : AllMember level names fs ks ts := by
  induction ks generalizing pre pf gs ts with
  | nil =>
    cases gs with
    | nil => cases ts with
      | nil => trivial
      | cons t ts => exact absurd h id
    | cons g gs => simp at hl'
  | cons k ks ih =>
    cases gs with
    | nil => simp at hl'
    | cons g gs =>
      cases ts with
      | nil => exact absurd h id
      | cons t ts =>
        refine ⟨⟨g, ?_, h.1⟩, ?_⟩
        · unfold getn
          rw [hn, indexOf_append pre k ks ?_, hf]
          · simp [hl]
          · rw [hn] at hd
            have := (List.nodup_append.1 hd).2.2
            intro hm
            exact this k hm k (by simp) rfl
        · exact ih (pre ++ [k]) (pf ++ [g]) gs ts (by rw [hn]; simp) (by rw [hf]; simp) (by simp [hl]) (by simpa using hl') h.2

mutual
theorem writes_ser (pretty : Bool) (level : Nat) (v : Value) (h : WF v) : Writes (ser pretty v level) (render pretty level v) :=
  match v with
  | .null => writes_of (puts_app _)
  | .bool true => writes_of (puts_app _)
  | .bool false => writes_of (puts_app _)
  | .str s => writes_of (puts_call (writes_serString s))
  | .arr items => by
    simp only [ser, render]
    simp only [WF] at h
    exact writes_around pretty level items.length 91 93 _ _
      (puts_arrLoop pretty level items.length (sers pretty items) _ 0 (by rw [sers_length]; omega) (writes_sers pretty (level + 1) items h))
  | .obj names values => by
    simp only [ser, render]
    simp only [WF] at h
    exact writes_around pretty level names.length 123 125 _ _
      (puts_objLoop pretty level names.length names (sers pretty values) names _ 0 (by omega)
        (allMember_of (level + 1) names (sers pretty values) [] names [] (sers pretty values) _ rfl rfl rfl (by rw [sers_length]; exact h.2.1) h.1
          (writes_sers pretty (level + 1) values h.2.2)))
theorem writes_sers (pretty : Bool) (level : Nat) (vs : List Value) (h : WFs vs) : AllWrite level (sers pretty vs) (renders pretty level vs) :=
  match vs with
  | [] => trivial
  | v :: vs => ⟨writes_ser pretty level v h.1, writes_sers pretty level vs h.2⟩
end

end Ecgen.Parson
