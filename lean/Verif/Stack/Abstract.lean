import Verif.Stack.Model

/-!
# A checker for function bodies, and its soundness

`chk` follows all executions of a function body at once, knowing of each variable only whether it may be read and which noted positions it is
older than. If it accepts, no execution does anything undefined (`chk_sound`). It computes the invariants of loops.
-/

namespace Ecgen.Stack

/-- what is known of a variable. `live s c`: it may be read; it is older than the positions in the set `s` (a number whose binary digits are the
members); `c`: it may refer to clones. `opt`: the same, or a null pointer. -/
inductive AVal where
  | null
  | live (s : Nat) (c : Bool)
  | opt (s : Nat) (c : Bool)
  | any
  deriving DecidableEq, Repr

/-- what is known of the static variable: `ok` is a null pointer or a clone -/
inductive AStat where
  | null | good | ok | any
  deriving DecidableEq, Repr

structure AState where
  v : List AVal
  stat : AStat
  deriving DecidableEq, Repr

/-- positions in the list -/
def Slot.idx : Slot → Nat
  | .field => 0 | .a => 1 | .b => 2 | .crv => 3 | .card => 4 | .order => 5 | .z => 6 | .r => 7 | .mult => 8 | .gens => 9 | .pts => 10
  | .data => 11 | .disc => 12
  | .loc n => 13 + n

theorem Slot.idx_inj {x y : Slot} (h : x.idx = y.idx) : x = y := by
  cases x <;> cases y <;> simp_all [Slot.idx] <;> omega

def AState.get (a : AState) (x : Slot) : AVal := a.v.getD x.idx .any
def AState.set (a : AState) (x : Slot) (v : AVal) : AState := { a with v := a.v.set x.idx v }
def AState.map (f : AVal → AVal) (a : AState) : AState := { a with v := a.v.map f }

/-- the positions are 0 to 19 -/
def full : Nat := 1048575

/-- the blocks of a value are there, on the stack at places older than some positions; `c`: there may be clones -/
def Good (m : Mem) (s : Nat) (c : Bool) (l : List Id) : Prop :=
  (∀ n, Id.stk n ∈ l → n ∈ m.stack ∧ ∀ k, s.testBit k = true → n ∈ m.stack.take (m.mark k)) ∧
  (∀ n, Id.cln n ∈ l → n ∈ m.clones ∧ c = true)

def VRep (m : Mem) : AVal → Option (List Id) → Prop
  | .null, v => v = none
  | .live s c, v => ∃ l, v = some l ∧ Good m s c l
  | .opt s c, v => ∀ l, v = some l → Good m s c l
  | .any, _ => True

def SRep : AStat → Stat → Prop
  | .null, s => s = .null
  | .good, s => s = .good
  | .ok, s => s ≠ .freed
  | .any, _ => True

/-- the memory is as described -/
structure Rep (a : AState) (m : Mem) : Prop where
  slot : ∀ x, VRep m (a.get x) (m.slot x)
  stat : SRep a.stat m.stat

/-! ## comparison -/

def AVal.le : AVal → AVal → Bool
  | _, .any => true
  | .null, .null => true
  | .null, .opt _ _ => true
  | .live s c, .live s' c' => s' &&& s == s' && (!c || c')
  | .live s c, .opt s' c' => s' &&& s == s' && (!c || c')
  | .opt s c, .opt s' c' => s' &&& s == s' && (!c || c')
  | _, _ => false

def AVal.join : AVal → AVal → AVal
  | .null, .null => .null
  | .null, .live s c => .opt s c
  | .null, .opt s c => .opt s c
  | .live s c, .null => .opt s c
  | .opt s c, .null => .opt s c
  | .live s c, .live s' c' => .live (s &&& s') (c || c')
  | .live s c, .opt s' c' => .opt (s &&& s') (c || c')
  | .opt s c, .live s' c' => .opt (s &&& s') (c || c')
  | .opt s c, .opt s' c' => .opt (s &&& s') (c || c')
  | _, _ => .any

def leL : List AVal → List AVal → Bool
  | _, [] => true
  | [], _ => false
  | x :: l, y :: k => x.le y && leL l k

def joinL : List AVal → List AVal → List AVal
  | x :: l, y :: k => x.join y :: joinL l k
  | _, _ => []

def AStat.le : AStat → AStat → Bool
  | _, .any => true
  | .any, _ => false
  | _, .ok => true
  | x, y => x == y

def AStat.join (x y : AStat) : AStat := if x == y then x else if x == .any || y == .any then .any else .ok

def AState.le (a b : AState) : Bool := leL a.v b.v && a.stat.le b.stat
def AState.join (a b : AState) : AState := ⟨joinL a.v b.v, a.stat.join b.stat⟩

/-! ## operations -/

/-- `avma = position k`: what is not known to be older is not known to be there -/
def AVal.cut (k : Nat) : AVal → AVal
  | .null => .null
  | .live s c => if s.testBit k then .live s c else .any
  | .opt s c => if s.testBit k then .opt s c else .any
  | .any => .any

/-- a position is noted -/
def AVal.note (k : Nat) : AVal → AVal
  | .null => .null
  | .live s c => .live (s ||| 2 ^ k) c
  | .opt s c => .opt (s ||| 2 ^ k) c
  | .any => .any

/-- clones are released -/
def AVal.drop : AVal → AVal
  | .live _ true => .any
  | .opt _ true => .any
  | v => v

def AState.cardOk (a : AState) : Bool := a.get .card != .any

def AState.readable (a : AState) (x : Slot) : Bool :=
  match a.get x with
  | .live _ _ => x != .crv || a.cardOk
  | _ => false

def AVal.c : AVal → Bool
  | .live _ c => c
  | .opt _ c => c
  | _ => false

/-- a value known to have no clones -/
def AVal.unshared : AVal → AVal
  | .live s _ => .live s false
  | .opt s _ => .opt s false
  | v => v

/-- may a result refer to clones -/
def AState.clone (a : AState) (x : Slot) : Bool := (a.get x).c || (x == .crv && (a.get .card).c)

def AVal.cat : AVal → AVal → AVal
  | .null, v => v
  | v, .null => v
  | .live s c, .live s' c' => .live (s &&& s') (c || c')
  | .live s c, .opt s' c' => .live (s &&& s') (c || c')
  | .opt s c, .live s' c' => .live (s &&& s') (c || c')
  | .opt s c, .opt s' c' => .opt (s &&& s') (c || c')
  | _, _ => .any

def AState.gather (a : AState) : List Slot → AVal
  | [] => .null
  | x :: l => (a.get x).cat (a.gather l)

def AState.sets (v : AVal) : List Slot → AState → AState
  | [], a => a
  | x :: l, a => AState.sets v l (a.set x v)

def opA (rel : Bool) (a : AState) : Op → Option AState
  | .call d args => if args.all a.readable then some (a.set d (.live 0 (args.any a.clone))) else none
  | .copy d x => if a.readable x then some (a.set d (.live 0 false)) else none
  | .part d x => if a.readable x then some (a.set d (a.get x)) else none
  | .const d => some (a.set d (.live full false))
  | .set d xs => some (a.set d (a.gather xs))
  | .null d => some (a.set d .null)
  | .read xs => if xs.all a.readable then some a else none
  | .readIf x => if a.get x = .null || a.readable x || (x != .crv && a.get x != .any) then some a else none
  | .save k => some (a.map (AVal.note k))
  | .restore k => some (a.map (AVal.cut k))
  | .keep k xs => if xs.all a.readable then some (AState.sets (.live 0 false) xs (a.map (AVal.cut k))) else none
  | .card d =>
    if a.readable .crv then
      match a.get .card with
      | .null => some ((a.set .card (.live full true)).set d (.live full true))
      | .live s c => some (a.set d (.live s c))
      | .opt s _ => some ((a.set .card (.live s true)).set d (.live s true))
      | .any => none
    else none
  | .cacheGens d =>
    if a.readable .crv then
      match a.get .card with
      | .null => some ((a.set .card (.live full true)).set d (.live full true))
      | .live s _ => some ((a.set .card (.live s true)).set d (.live full true))
      | .opt s _ => some ((a.set .card (.live s true)).set d (.live full true))
      | .any => none
    else none
  | .insert x =>
    if a.readable .crv then some ((if rel then a.map AVal.drop else a).set .card ((if rel then a.map AVal.drop else a).get x)) else none
  | .insertClone x => if a.readable .crv && a.readable x then some ((a.map AVal.drop).set .card (.live full true)) else none
  | .objFree => if a.readable .crv then some (((a.map AVal.drop).set .crv .null).set .card .null) else none
  | .statNew => some { a with stat := .good }
  | .statDrop => if a.stat = .good then some { a with stat := .any } else none
  | .statRead => if a.stat = .good then some a else none

/-! ## evaluation

`force` is the identity; it makes the kernel evaluate a description before it goes on. -/

def forceNat {α : Type} (n : Nat) (k : Nat → α) : α :=
  match n with
  | 0 => k 0
  | m + 1 => k (m + 1)

def forceBool {α : Type} (b : Bool) (k : Bool → α) : α :=
  match b with
  | true => k true
  | false => k false

def AVal.force {α : Type} (v : AVal) (k : AVal → α) : α :=
  match v with
  | .null => k .null
  | .live s c => forceNat s fun s => forceBool c fun c => k (.live s c)
  | .opt s c => forceNat s fun s => forceBool c fun c => k (.opt s c)
  | .any => k .any

def forceL {α : Type} : List AVal → (List AVal → α) → α
  | [], k => k []
  | x :: l, k => x.force fun x => forceL l fun l => k (x :: l)

def AStat.force {α : Type} (v : AStat) (k : AStat → α) : α :=
  match v with
  | .null => k .null
  | .good => k .good
  | .ok => k .ok
  | .any => k .any

def AState.force {α : Type} (a : AState) (k : AState → α) : α :=
  forceL a.v fun v => a.stat.force fun s => k ⟨v, s⟩

/-- leaves out the descriptions that are covered by others -/
def prune : List AState → List AState → List AState
  | [], acc => acc
  | a :: l, acc => if acc.any (a.le ·) then prune l acc else prune l (a :: acc)

/-- the invariant of a loop, found by repetition -/
def fix (f : AState → Option (List AState)) : Nat → AState → Option AState
  | 0, _ => none
  | n + 1, a =>
    match f a with
    | none => none
    | some l => if l.all (·.le a) then some a else (l.foldl AState.join a).force fun a => fix f n a

/-- for each state of a list -/
def each (f : AState → Option (List AState)) : List AState → Option (List AState)
  | [] => some []
  | a :: l =>
    match f a, each f l with
    | some k, some k' => some (k ++ k')
    | _, _ => none

/-- what a function body must meet: `ret d a` for the returns, `cut a` wherever the timer may go off; `again`: whether `again` loops have
more than no rounds -/
structure Goals where
  again : Bool
  ret : Int → AState → Bool
  cut : AState → Bool

/-- the states in which a function body falls through; `none` if it is not accepted -/
def chk (rel : Bool) (G : Goals) : Stmt → AState → Option (List AState)
  | .skip, a => some [a]
  | .op o, a => if G.cut a then (opA rel a o).bind fun a' => a'.force fun a' => some [a'] else none
  | .seq p q, a =>
    match chk rel G p a with
    | none => none
    | some l => each (chk rel G q) (prune l [])
  | .choice p q, a =>
    match chk rel G p a, chk rel G q a with
    | some l, some l' => some (l ++ l')
    | _, _ => none
  | .loop p, a => (fix (chk rel G p) 9 a).map fun a' => [a']
  | .again p, a => if G.again then (fix (chk rel G p) 9 a).map fun a' => [a'] else some [a]
  | .ifClone x p q, a =>
    if a.readable x then
      match chk rel G p a, (a.set x (a.get x).unshared).force (chk rel G q) with
      | some l, some l' => some (l ++ l')
      | _, _ => none
    else none
  | .ifNull x p q, a =>
    match a.get x with
    | .null => chk rel G p a
    | .live _ _ => chk rel G q a
    | .opt s c =>
      match (a.set x .null).force (chk rel G p), (a.set x (.live s c)).force (chk rel G q) with
      | some l, some l' => some (l ++ l')
      | _, _ => none
    | .any => none
  | .ifStat p q, a =>
    match a.stat with
    | .null => chk rel G p a
    | .good => chk rel G q a
    | .ok =>
      match chk rel G p { a with stat := .null }, chk rel G q { a with stat := .good } with
      | some l, some l' => some (l ++ l')
      | _, _ => none
    | .any => none
  | .ret d, a => if G.ret d a then some [] else none

/-! ## soundness: comparison -/

theorem sub_bit {s s' k : Nat} (h : (s' &&& s == s') = true) (hk : s'.testBit k = true) : s.testBit k = true := by
  have h : s' &&& s = s' := by simpa using h
  rw [← h, Nat.testBit_and] at hk
  simp only [Bool.and_eq_true] at hk
  exact hk.2

theorem Good.mono {m : Mem} {s s' : Nat} {c c' : Bool} {l : List Id} (h : Good m s c l) (hs : (s' &&& s == s') = true)
    (hc : (!c || c') = true) : Good m s' c' l := by
  refine ⟨fun n hn => ⟨(h.1 n hn).1, fun k hk => (h.1 n hn).2 k (sub_bit hs hk)⟩, fun n hn => ⟨(h.2 n hn).1, ?_⟩⟩
  have := (h.2 n hn).2
  simp_all

theorem AVal.le_sound {m : Mem} {x y : AVal} {v : Option (List Id)} (h : x.le y = true) (hx : VRep m x v) : VRep m y v := by
  cases x <;> cases y <;> simp only [AVal.le, Bool.and_eq_true, Bool.false_eq_true] at h <;> try trivial
  · intro l hl; rw [show v = none from hx] at hl; cases hl
  · obtain ⟨l, e, g⟩ := hx; exact ⟨l, e, g.mono h.1 h.2⟩
  · obtain ⟨l, e, g⟩ := hx
    intro l' e'
    rw [e] at e'; cases e'
    exact g.mono h.1 h.2
  · intro l e
    exact (hx l e).mono h.1 h.2

theorem leL_get {l k : List AVal} (h : leL l k = true) (i : Nat) : (l.getD i .any).le (k.getD i .any) = true := by
  induction k generalizing l i with
  | nil => cases h' : l.getD i .any <;> simp [AVal.le]
  | cons y k ih =>
    cases l with
    | nil => simp [leL] at h
    | cons x l =>
      simp only [leL, Bool.and_eq_true] at h
      cases i with
      | zero => simpa using h.1
      | succ i => simpa using ih h.2 i

theorem AStat.le_sound {x y : AStat} {s : Stat} (h : x.le y = true) (hx : SRep x s) : SRep y s := by
  cases x <;> cases y <;> cases s <;> simp_all [AStat.le, SRep]

theorem Rep.le {a b : AState} {m : Mem} (h : a.le b = true) (r : Rep a m) : Rep b m := by
  simp only [AState.le, Bool.and_eq_true] at h
  exact ⟨fun x => AVal.le_sound (leL_get h.1 x.idx) (r.slot x), AStat.le_sound h.2 r.stat⟩

theorem and_left (s t : Nat) : (s &&& t &&& s == s &&& t) = true := by
  rw [beq_iff_eq, Nat.and_comm s t, Nat.and_assoc, Nat.and_self]

theorem AVal.le_join (x y : AVal) : x.le (x.join y) = true := by
  cases x <;> cases y <;> simp [AVal.le, AVal.join, and_left, -beq_iff_eq] <;> (try decide) <;> rename_i c _ c' <;> cases c <;> simp

theorem leL_join (l k : List AVal) : leL l (joinL l k) = true := by
  induction l generalizing k with
  | nil => cases k <;> simp [joinL, leL]
  | cons x l ih =>
    cases k with
    | nil => simp [joinL, leL]
    | cons y k => simp [joinL, leL, AVal.le_join, ih]

theorem AStat.le_join (x y : AStat) : x.le (x.join y) = true := by cases x <;> cases y <;> decide

theorem Rep.join {a b : AState} {m : Mem} (r : Rep a m) : Rep (a.join b) m :=
  Rep.le (by simp [AState.le, AState.join, leL_join, AStat.le_join]) r

theorem Rep.joins {a : AState} {m : Mem} (l : List AState) (r : Rep a m) : Rep (l.foldl AState.join a) m := by
  induction l generalizing a with
  | nil => exact r
  | cons b l ih => exact ih r.join

/-! ## soundness: operations -/

theorem getD_set (l : List AVal) (i j : Nat) (v : AVal) :
    (l.set i v).getD j .any = if j = i ∧ i < l.length then v else l.getD j .any := by
  simp only [List.getD_eq_getElem?_getD, List.getElem?_set]
  by_cases h : i = j
  · subst h
    by_cases h' : i < l.length <;> simp [h']
  · rw [if_neg h, if_neg (by intro e; exact h e.1.symm)]

theorem AState.get_set (a : AState) (x y : Slot) (v : AVal) :
    (a.set x v).get y = if y = x ∧ x.idx < a.v.length then v else a.get y := by
  unfold AState.get AState.set
  rw [getD_set]
  by_cases h : y = x
  · subst h; simp only [true_and]
  · rw [if_neg (fun e => h (Slot.idx_inj e.1)), if_neg (fun e => h e.1)]

theorem AState.get_map (a : AState) (f : AVal → AVal) (x : Slot) (hf : f .any = .any) : (a.map f).get x = f (a.get x) := by
  unfold AState.get AState.map
  simp only [List.getD_eq_getElem?_getD, List.getElem?_map]
  cases a.v[x.idx]? <;> simp [hf]

/-- an assignment -/
theorem Rep.put {a : AState} {m : Mem} (r : Rep a m) (x : Slot) (v : AVal) (w : Option (List Id)) (h : VRep m v w) :
    Rep (a.set x v) (m.put x w) := by
  have hp : ∀ v' w', VRep m v' w' → VRep (m.put x w) v' w' := by
    intro v' w' h'
    cases v' <;> exact h'
  refine ⟨fun y => ?_, r.stat⟩
  rw [AState.get_set]
  by_cases hy : y = x
  · subst hy
    by_cases hl : y.idx < a.v.length
    · simp only [hl, and_self, if_true]
      refine hp _ _ ?_
      simpa [Mem.put] using h
    · have : a.get y = .any := by
        unfold AState.get
        simp only [List.getD_eq_getElem?_getD]
        rw [List.getElem?_eq_none (by omega)]
        rfl
      simp only [hl, and_false, if_false, this]
      trivial
  · rw [if_neg (fun e => hy e.1)]
    refine hp _ _ ?_
    have : (m.put x w).slot y = m.slot y := by simp [Mem.put, hy]
    rw [this]
    exact r.slot y

theorem mem_take_append {α : Type} {n : α} {l l' : List α} {k : Nat} (h : n ∈ l.take k) : n ∈ (l ++ l').take k := by
  rw [List.take_append]
  exact List.mem_append_left _ h

theorem Good.push {m : Mem} {s : Nat} {c : Bool} {l : List Id} (g : Good m s c l) (n : Nat) : Good (m.push n) s c l :=
  ⟨fun i hi => ⟨List.mem_append_left _ (g.1 i hi).1, fun k hk => mem_take_append ((g.1 i hi).2 k hk)⟩, g.2⟩

theorem VRep.push {m : Mem} {v : AVal} {w : Option (List Id)} (h : VRep m v w) (n : Nat) : VRep (m.push n) v w := by
  cases v with
  | null => exact h
  | any => exact h
  | live s c => obtain ⟨l, e, g⟩ := h; exact ⟨l, e, g.push n⟩
  | opt s c => exact fun l e => (h l e).push n

/-- new blocks -/
theorem Rep.push {a : AState} {m : Mem} (r : Rep a m) (n : Nat) : Rep a (m.push n) :=
  ⟨fun x => (r.slot x).push n, r.stat⟩

/-- a new clone -/
theorem VRep.clone {m m' : Mem} {v : AVal} {w : Option (List Id)} (h : VRep m v w) (h1 : m'.stack = m.stack) (h2 : m'.mark = m.mark)
    (h3 : ∀ n ∈ m.clones, n ∈ m'.clones) : VRep m' v w := by
  have hg : ∀ s c l, Good m s c l → Good m' s c l := fun s c l g =>
    ⟨fun i hi => by rw [h1, h2]; exact g.1 i hi, fun i hi => ⟨h3 i (g.2 i hi).1, (g.2 i hi).2⟩⟩
  cases v with
  | null => exact h
  | any => exact h
  | live s c => obtain ⟨l, e, g⟩ := h; exact ⟨l, e, hg _ _ _ g⟩
  | opt s c => exact fun l e => hg _ _ _ (h l e)

theorem Rep.clone {a : AState} {m m' : Mem} (r : Rep a m) (h1 : m'.stack = m.stack) (h2 : m'.mark = m.mark)
    (h3 : ∀ n ∈ m.clones, n ∈ m'.clones) (h4 : m'.slot = m.slot) (h5 : m'.stat = m.stat) : Rep a m' :=
  ⟨fun x => by rw [h4]; exact (r.slot x).clone h1 h2 h3, by rw [h5]; exact r.stat⟩

theorem newIds_good (m : Mem) (n : Nat) : Good (m.push n) 0 false (newIds m.next n) := by
  refine ⟨fun i hi => ⟨?_, fun k hk => by simp at hk⟩, fun i hi => ?_⟩
  · unfold newIds at hi
    simp only [List.mem_map, List.mem_range, Id.stk.injEq] at hi
    obtain ⟨j, hj, rfl⟩ := hi
    refine List.mem_append_right _ ?_
    simp only [List.mem_map, List.mem_range]
    exact ⟨j, hj, rfl⟩
  · unfold newIds at hi
    simp at hi

/-- `avma = top` -/
theorem Rep.release {a : AState} {m : Mem} (r : Rep a m) (k : Nat) : Rep (a.map (AVal.cut k)) (m.release k) := by
  have hg : ∀ s c l, s.testBit k = true → Good m s c l → Good (m.release k) s c l := by
    intro s c l hk g
    refine ⟨fun i hi => ⟨(g.1 i hi).2 k hk, fun j hj => ?_⟩, g.2⟩
    have h1 := (g.1 i hi).2 k hk
    have h2 := (g.1 i hi).2 j hj
    show i ∈ (m.stack.take (m.mark k)).take (m.mark j)
    rw [List.take_take]
    by_cases hle : m.mark j ≤ m.mark k
    · rw [Nat.min_eq_left hle]; exact h2
    · rw [Nat.min_eq_right (by omega)]; exact h1
  refine ⟨fun x => ?_, r.stat⟩
  rw [AState.get_map _ _ _ rfl]
  have hx := r.slot x
  show VRep _ _ (m.slot x)
  cases hv : a.get x with
  | null => rw [hv] at hx; exact hx
  | any => trivial
  | live s c =>
    rw [hv] at hx
    by_cases hk : s.testBit k = true
    · simp only [AVal.cut, hk, if_true]
      obtain ⟨l, e, g⟩ := hx
      exact ⟨l, e, hg _ _ _ hk g⟩
    · simp only [AVal.cut, hk]
      trivial
  | opt s c =>
    rw [hv] at hx
    by_cases hk : s.testBit k = true
    · simp only [AVal.cut, hk, if_true]
      exact fun l e => hg _ _ _ hk (hx l e)
    · simp only [AVal.cut, hk]
      trivial

/-- a position is noted -/
theorem Rep.note {a : AState} {m : Mem} (r : Rep a m) (k : Nat) :
    Rep (a.map (AVal.note k)) { m with mark := fun j => if j = k then m.stack.length else m.mark j } := by
  have hg : ∀ s c l, Good m s c l → Good { m with mark := fun j => if j = k then m.stack.length else m.mark j } (s ||| 2 ^ k) c l := by
    intro s c l g
    refine ⟨fun i hi => ⟨(g.1 i hi).1, fun j hj => ?_⟩, g.2⟩
    show i ∈ m.stack.take (if j = k then m.stack.length else m.mark j)
    by_cases hjk : j = k
    · rw [if_pos hjk, List.take_length]; exact (g.1 i hi).1
    · rw [if_neg hjk]
      refine (g.1 i hi).2 j ?_
      rw [Nat.testBit_or, Nat.testBit_two_pow] at hj
      simpa [show ¬ k = j from fun e => hjk e.symm] using hj
  refine ⟨fun x => ?_, r.stat⟩
  rw [AState.get_map _ _ _ rfl]
  have hx := r.slot x
  show VRep _ _ (m.slot x)
  cases hv : a.get x with
  | null => rw [hv] at hx; exact hx
  | any => trivial
  | live s c =>
    rw [hv] at hx
    obtain ⟨l, e, g⟩ := hx
    exact ⟨l, e, hg _ _ _ g⟩
  | opt s c =>
    rw [hv] at hx
    exact fun l e => hg _ _ _ (hx l e)

/-- clones are released -/
theorem Rep.drop {a : AState} {m : Mem} (r : Rep a m) (l : List Id) : Rep (a.map AVal.drop) (m.unclone l) := by
  have hg : ∀ s l', Good m s false l' → Good (m.unclone l) s false l' := fun s l' g =>
    ⟨g.1, fun i hi => by have := (g.2 i hi).2; simp at this⟩
  refine ⟨fun x => ?_, r.stat⟩
  rw [AState.get_map _ _ _ rfl]
  have hx := r.slot x
  show VRep _ _ (m.slot x)
  cases hv : a.get x with
  | null => rw [hv] at hx; exact hx
  | any => trivial
  | live s c =>
    rw [hv] at hx
    cases c with
    | true => trivial
    | false => obtain ⟨l', e, g⟩ := hx; exact ⟨l', e, hg _ _ g⟩
  | opt s c =>
    rw [hv] at hx
    cases c with
    | true => trivial
    | false => exact fun l' e => hg _ _ (hx l' e)

theorem Good.valid {m : Mem} {s : Nat} {c : Bool} {l : List Id} (g : Good m s c l) : m.valid (some l) = true := by
  unfold Mem.valid
  simp only [List.all_eq_true]
  intro i hi
  cases i with
  | stk n => simpa [Mem.here] using (g.1 n hi).1
  | cln n => simpa [Mem.here] using (g.2 n hi).1

theorem VRep.valid {m : Mem} {v : AVal} {w : Option (List Id)} (h : VRep m v w) (hv : v ≠ .any) : w.isNone = true ∨ m.valid w = true := by
  cases v with
  | null => exact Or.inl (by rw [show w = none from h]; rfl)
  | any => exact absurd rfl hv
  | live s c => obtain ⟨l, e, g⟩ := h; rw [e]; exact Or.inr g.valid
  | opt s c =>
    cases w with
    | none => exact Or.inl rfl
    | some l => exact Or.inr (h l rfl).valid

theorem Rep.readable {a : AState} {m : Mem} (r : Rep a m) {x : Slot} (h : a.readable x = true) : m.readable x = true := by
  unfold AState.readable at h
  have hx := r.slot x
  cases hv : a.get x with
  | null => simp [hv] at h
  | any => simp [hv] at h
  | opt s c => simp [hv] at h
  | live s c =>
    simp only [hv] at h
    rw [hv] at hx
    obtain ⟨l, e, g⟩ := hx
    unfold Mem.readable
    rw [e, g.valid, Bool.true_and]
    by_cases hc : x = .crv
    · subst hc
      simp only [AState.cardOk, Bool.or_eq_true, bne_iff_ne, ne_eq] at h
      have := (r.slot .card).valid (by simpa using h)
      rcases this with h1 | h1 <;> simp [h1]
    · simp [hc]

theorem all_readable {a : AState} {m : Mem} (r : Rep a m) {xs : List Slot} (h : xs.all a.readable = true) : xs.all m.readable = true := by
  simp only [List.all_eq_true] at h ⊢
  exact fun x hx => r.readable (h x hx)

theorem VRep.good {m : Mem} {v : AVal} {w : Option (List Id)} (h : VRep m v w) (hv : v ≠ .any) : Good m 0 v.c (w.getD []) := by
  have h0 : ∀ s c l, Good m s c l → Good m 0 c l := fun s c l g => g.mono (by simp) (by cases c <;> rfl)
  cases v with
  | null => rw [show w = none from h]; exact ⟨fun n hn => by simp at hn, fun n hn => by simp at hn⟩
  | any => exact absurd rfl hv
  | live s c => obtain ⟨l, e, g⟩ := h; rw [e]; exact h0 _ _ _ g
  | opt s c =>
    cases w with
    | none => exact ⟨fun n hn => by simp at hn, fun n hn => by simp at hn⟩
    | some l => exact h0 _ _ _ (h l rfl)

theorem Good.append {m : Mem} {s : Nat} {c c' : Bool} {l l' : List Id} (g : Good m s c l) (g' : Good m s c' l') :
    Good m s (c || c') (l ++ l') := by
  refine ⟨fun n hn => ?_, fun n hn => ?_⟩
  · rcases List.mem_append.mp hn with h | h
    · exact g.1 n h
    · exact g'.1 n h
  · rcases List.mem_append.mp hn with h | h
    · exact ⟨(g.2 n h).1, by rw [(g.2 n h).2]; rfl⟩
    · exact ⟨(g'.2 n h).1, by rw [(g'.2 n h).2]; simp⟩

theorem Rep.ids {a : AState} {m : Mem} (r : Rep a m) {x : Slot} (h : a.readable x = true) : Good m 0 (a.clone x) (m.ids x) := by
  unfold AState.readable at h
  cases hv : a.get x with
  | null => simp [hv] at h
  | any => simp [hv] at h
  | opt s c => simp [hv] at h
  | live s c =>
    simp only [hv] at h
    unfold Mem.ids AState.clone
    refine ((r.slot x).good (by rw [hv]; simp)).append ?_
    by_cases hc : x = .crv
    · subst hc
      simp only [AState.cardOk, bne_self_eq_false, Bool.false_or, bne_iff_ne, ne_eq] at h
      simpa using (r.slot .card).good h
    · rw [if_neg hc]
      exact ⟨fun n hn => by simp at hn, fun n hn => by simp at hn⟩

theorem Rep.allIds {a : AState} {m : Mem} (r : Rep a m) (xs : List Slot) (h : xs.all a.readable = true) :
    Good m 0 (xs.any a.clone) (xs.flatMap m.ids) := by
  induction xs with
  | nil => exact ⟨fun n hn => by simp at hn, fun n hn => by simp at hn⟩
  | cons x xs ih =>
    simp only [List.all_cons, Bool.and_eq_true] at h
    simp only [List.any_cons, List.flatMap_cons]
    exact (r.ids h.1).append (ih h.2)

theorem and_right (s t : Nat) : (s &&& t &&& t == s &&& t) = true := by
  rw [beq_iff_eq, Nat.and_assoc, Nat.and_self]

theorem Good.both {m : Mem} {s s' : Nat} {c c' : Bool} {l l' : List Id} (g : Good m s c l) (g' : Good m s' c' l') :
    Good m (s &&& s') (c || c') (l ++ l') := by
  have h1 : Good m (s &&& s') c l := g.mono (and_left s s') (by cases c <;> rfl)
  have h2 : Good m (s &&& s') c' l' := g'.mono (and_right s s') (by cases c' <;> rfl)
  exact h1.append h2

theorem Good.leftOnly {m : Mem} {s s' : Nat} {c c' : Bool} {l : List Id} (g : Good m s c l) : Good m (s &&& s') (c || c') l :=
  g.mono (and_left s s') (by cases c <;> rfl)

theorem Good.rightOnly {m : Mem} {s s' : Nat} {c c' : Bool} {l : List Id} (g : Good m s' c' l) : Good m (s &&& s') (c || c') l :=
  g.mono (and_right s s') (by cases c' <;> simp)

/-- the value of a list -/
def cat : Option (List Id) → Option (List Id) → Option (List Id)
  | none, r => r
  | some v, none => some v
  | some v, some w => some (v ++ w)

theorem VRep.cat {m : Mem} {v v' : AVal} {w w' : Option (List Id)} (h : VRep m v w) (h' : VRep m v' w') :
    VRep m (v.cat v') (cat w w') := by
  cases v <;> cases v' <;> cases w <;> cases w' <;>
    simp only [VRep, AVal.cat, Stack.cat, reduceCtorEq, Option.some.injEq, false_and, exists_false, forall_eq', false_implies, implies_true,
      exists_eq_left'] at h h' ⊢ <;>
    first
      | exact h
      | exact h'
      | exact Good.both h h'
      | exact Good.leftOnly h
      | exact Good.rightOnly h'
      | skip

theorem Rep.gather {a : AState} {m : Mem} (r : Rep a m) (xs : List Slot) : VRep m (a.gather xs) (Stack.gather m xs) := by
  induction xs with
  | nil => rfl
  | cons x xs ih =>
    have := (r.slot x).cat ih
    have e : Stack.gather m (x :: xs) = Stack.cat (m.slot x) (Stack.gather m xs) := by
      simp only [Stack.gather]
      cases m.slot x <;> cases Stack.gather m xs <;> rfl
    rw [e]
    exact this

theorem Rep.copies {a : AState} {m : Mem} (xs : List Slot) (r : Rep a m) : Rep (AState.sets (.live 0 false) xs a) (m.copies xs) := by
  induction xs generalizing a m with
  | nil => exact r
  | cons x xs ih => exact ih ((r.push 1).put x _ _ ⟨_, rfl, newIds_good m 1⟩)

theorem good_clone (m : Mem) (s n : Nat) (h : n ∈ m.clones) : Good m s true [.cln n] :=
  ⟨fun i hi => by simp at hi, fun i hi => by simp only [List.mem_singleton, Id.cln.injEq] at hi; subst hi; exact ⟨h, rfl⟩⟩

theorem VRep.cln (m : Mem) (s n : Nat) (h : n ∈ m.clones) : VRep m (.live s true) (some [.cln n]) := ⟨_, rfl, good_clone m s n h⟩

theorem VRep.ofGood {m : Mem} {s : Nat} {c : Bool} {l : List Id} (g : Good m s c l) : VRep m (.live s c) (some l) := ⟨_, rfl, g⟩

theorem VRep.afterPut {m : Mem} {v : AVal} {w : Option (List Id)} (h : VRep m v w) (x : Slot) (w' : Option (List Id)) :
    VRep (m.put x w') v w := by
  cases v <;> exact h

/-- an accepted operation is defined and leads to the state computed -/
theorem opA_sound {rel : Bool} {a a' : AState} {m : Mem} {o : Op} (n : Nat) (r : Rep a m) (h : opA rel a o = some a') :
    ∃ m', o.exec rel n m = some m' ∧ Rep a' m' := by
  cases o with
  | call d args =>
    simp only [opA] at h
    split at h
    · rename_i hr
      cases h
      refine ⟨_, by simp only [Op.exec]; rw [if_pos (all_readable r hr)], ?_⟩
      refine (r.push (n + 1)).put d _ _ ⟨_, rfl, ?_⟩
      have := (newIds_good m (n + 1)).append ((r.allIds args hr).push (n + 1))
      simpa using this
    · cases h
  | copy d x =>
    simp only [opA] at h
    split at h
    · rename_i hr
      cases h
      exact ⟨_, by simp only [Op.exec]; rw [if_pos (r.readable hr)], (r.push 1).put d _ _ ⟨_, rfl, newIds_good m 1⟩⟩
    · cases h
  | part d x =>
    simp only [opA] at h
    split at h
    · rename_i hr
      cases h
      exact ⟨_, by simp only [Op.exec]; rw [if_pos (r.readable hr)], r.put d _ _ (r.slot x)⟩
    · cases h
  | const d =>
    cases h
    exact ⟨_, rfl, r.put d _ _ ⟨[], rfl, ⟨fun n hn => by simp at hn, fun n hn => by simp at hn⟩⟩⟩
  | set d xs => cases h; exact ⟨_, rfl, r.put d _ _ (r.gather xs)⟩
  | null d => cases h; exact ⟨_, rfl, r.put d .null none rfl⟩
  | read xs =>
    simp only [opA] at h
    split at h
    · rename_i hr
      cases h
      exact ⟨_, by simp only [Op.exec]; rw [if_pos (all_readable r hr)], r.push n⟩
    · cases h
  | readIf x =>
    simp only [opA] at h
    split at h
    · rename_i hr
      cases h
      refine ⟨_, ?_, r.push n⟩
      simp only [Op.exec]
      rw [if_pos]
      simp only [Bool.or_eq_true, decide_eq_true_eq, Bool.and_eq_true, bne_iff_ne, ne_eq] at hr ⊢
      rcases hr with (hr | hr) | hr
      · have hx := r.slot x
        rw [hr] at hx
        left
        rw [show m.slot x = none from hx]; rfl
      · exact Or.inr (r.readable hr)
      · rcases (r.slot x).valid hr.2 with h1 | h1
        · exact Or.inl h1
        · right
          unfold Mem.readable
          rw [h1]
          simp [hr.1]
    · cases h
  | save k => cases h; exact ⟨_, rfl, r.note k⟩
  | restore k => cases h; exact ⟨_, rfl, r.release k⟩
  | keep k xs =>
    simp only [opA] at h
    split at h
    · rename_i hr
      cases h
      exact ⟨_, by simp only [Op.exec]; rw [if_pos (all_readable r hr)], (r.release k).copies xs⟩
    · cases h
  | card d =>
    simp only [opA] at h
    split at h
    · rename_i hr
      have hc := r.slot .card
      have r' : Rep a { m.push n with clones := m.clones ++ [m.next + n], next := m.next + n + 1 } :=
        (r.push n).clone rfl rfl (fun i hi => List.mem_append_left _ hi) rfl rfl
      have hm : m.next + n ∈ ({ m.push n with clones := m.clones ++ [m.next + n], next := m.next + n + 1 } : Mem).clones :=
        List.mem_append_right _ (List.mem_singleton.mpr rfl)
      cases hv : a.get .card with
      | null =>
        rw [hv] at h hc
        cases h
        refine ⟨_, by simp only [Op.exec]; rw [if_pos (r.readable hr), show m.slot .card = none from hc], ?_⟩
        exact (r'.put .card _ _ (VRep.cln _ _ _ hm)).put d _ _ ((VRep.cln _ _ _ hm).afterPut _ _)
      | any => rw [hv] at h; cases h
      | live s c =>
        rw [hv] at h hc
        cases h
        obtain ⟨l, e, g⟩ := hc
        refine ⟨_, by simp only [Op.exec]; rw [if_pos (r.readable hr), e], ?_⟩
        exact r.put d _ _ ⟨_, rfl, g⟩
      | opt s c =>
        rw [hv] at h hc
        cases h
        cases e : m.slot .card with
        | none =>
          refine ⟨_, by simp only [Op.exec]; rw [if_pos (r.readable hr), e], ?_⟩
          exact (r'.put .card _ _ (VRep.cln _ _ _ hm)).put d _ _ ((VRep.cln _ _ _ hm).afterPut _ _)
        | some l =>
          have g : Good m s true l := (hc l e).mono (by simp) (by simp)
          refine ⟨_, by simp only [Op.exec]; rw [if_pos (r.readable hr), e], ?_⟩
          have h1 : Rep (a.set .card (.live s true)) (m.put .card (some l)) := r.put .card _ _ ⟨_, rfl, g⟩
          have e2 : m.put .card (some l) = m := by
            unfold Mem.put
            have : (fun y => if y = Slot.card then some l else m.slot y) = m.slot := by
              funext y
              by_cases hy : y = .card
              · subst hy; rw [if_pos rfl, e]
              · rw [if_neg hy]
            rw [this]
          rw [e2] at h1
          exact h1.put d _ _ (VRep.ofGood g)
    · cases h
  | cacheGens d =>
    simp only [opA] at h
    split at h
    · rename_i hr
      have hc := r.slot .card
      have r' : Rep a { m.push n with clones := m.clones ++ [m.next + n], next := m.next + n + 1 } :=
        (r.push n).clone rfl rfl (fun i hi => List.mem_append_left _ hi) rfl rfl
      have hm : m.next + n ∈ ({ m.push n with clones := m.clones ++ [m.next + n], next := m.next + n + 1 } : Mem).clones :=
        List.mem_append_right _ (List.mem_singleton.mpr rfl)
      have key : ∀ s l, Good { m.push n with clones := m.clones ++ [m.next + n], next := m.next + n + 1 } s true l →
          (m.slot .card).getD [] = l → ∃ m', Op.exec rel n m (.cacheGens d) = some m' ∧
            Rep ((a.set .card (.live s true)).set d (.live full true)) m' := by
        intro s l g e
        refine ⟨_, by simp only [Op.exec]; rw [if_pos (r.readable hr)], ?_⟩
        refine (r'.put .card _ _ (VRep.ofGood ?_)).put d _ _ ((VRep.cln _ _ _ hm).afterPut _ _)
        rw [e]
        exact ((good_clone _ s _ hm).append g)
      have up : ∀ s c l, Good m s c l → Good { m.push n with clones := m.clones ++ [m.next + n], next := m.next + n + 1 } s true l := by
        intro s c l g
        have g2 := (g.push n).mono (s' := s) (c' := true) (by simp) (by simp)
        exact ⟨g2.1, fun i hi => ⟨List.mem_append_left _ (g2.2 i hi).1, rfl⟩⟩
      cases hv : a.get .card with
      | null =>
        rw [hv] at h hc
        cases h
        exact key full [] ⟨fun i hi => by simp at hi, fun i hi => by simp at hi⟩ (by rw [show m.slot .card = none from hc]; rfl)
      | any => rw [hv] at h; cases h
      | live s c =>
        rw [hv] at h hc
        cases h
        obtain ⟨l, e, g⟩ := hc
        exact key s l (up _ _ _ g) (by rw [e]; rfl)
      | opt s c =>
        rw [hv] at h hc
        cases h
        cases e : m.slot .card with
        | none => exact key s [] ⟨fun i hi => by simp at hi, fun i hi => by simp at hi⟩ (by rw [e]; rfl)
        | some l => exact key s l (up _ _ _ (hc l e)) (by rw [e]; rfl)
    · cases h
  | insert x =>
    simp only [opA] at h
    split at h
    · rename_i hr
      cases h
      refine ⟨_, by simp only [Op.exec]; rw [if_pos (r.readable hr)], ?_⟩
      cases rel with
      | false => exact r.put .card _ _ (r.slot x)
      | true =>
        have := r.drop ((m.slot .card).getD [])
        exact this.put .card _ _ (this.slot x)
    · cases h
  | insertClone x =>
    simp only [opA] at h
    split at h
    · rename_i hr
      cases h
      simp only [Bool.and_eq_true] at hr
      refine ⟨_, by simp only [Op.exec]; rw [if_pos (by rw [r.readable hr.1, r.readable hr.2]; rfl)], ?_⟩
      have r' := r.drop ((m.slot .card).getD [])
      have r2 : Rep (a.map AVal.drop) { m.unclone ((m.slot .card).getD []) with
          clones := (m.unclone ((m.slot .card).getD [])).clones ++ [m.next], next := m.next + 1 } :=
        r'.clone rfl rfl (fun i hi => List.mem_append_left _ hi) rfl rfl
      exact r2.put .card _ _ (VRep.cln _ _ _ (List.mem_append_right _ (List.mem_singleton.mpr rfl)))
    · cases h
  | objFree =>
    simp only [opA] at h
    split at h
    · rename_i hr
      cases h
      refine ⟨_, by simp only [Op.exec]; rw [if_pos (r.readable hr)], ?_⟩
      exact ((r.drop _).put .crv .null none rfl).put .card .null none rfl
    · cases h
  | statNew => cases h; exact ⟨_, rfl, ⟨r.slot, rfl⟩⟩
  | statDrop =>
    simp only [opA] at h
    split at h
    · rename_i hs
      cases h
      have := r.stat
      rw [hs] at this
      exact ⟨{ m with stat := .freed }, by simp only [Op.exec]; rw [if_pos (show m.stat = .good from this)], ⟨r.slot, trivial⟩⟩
    · cases h
  | statRead =>
    simp only [opA] at h
    split at h
    · rename_i hs
      cases h
      have := r.stat
      rw [hs] at this
      exact ⟨_, by simp only [Op.exec]; rw [if_pos (show m.stat = .good from this)], r.push n⟩
    · cases h

/-! ## soundness: function bodies -/

/-- the outcome is one of those accepted -/
def Meets (G : Goals) (l : List AState) : Out → Prop
  | .norm m => ∃ a ∈ l, Rep a m
  | .ret d m => ∃ a, G.ret d a = true ∧ Rep a m
  | .cut m => ∃ a, G.cut a = true ∧ Rep a m
  | .ub => False

theorem Meets.mono {G : Goals} {l l' : List AState} {o : Out} (h : Meets G l o) (hs : ∀ a ∈ l, a ∈ l') : Meets G l' o := by
  cases o with
  | norm m => obtain ⟨a, ha, r⟩ := h; exact ⟨a, hs a ha, r⟩
  | ret d m => exact h
  | cut m => exact h
  | ub => exact h

theorem times_sound {G : Goals} {f : Nat → Mem → Out × Nat} {a : AState} {l : List AState}
    (hf : ∀ k m, Rep a m → Meets G l (f k m).1) (hl : l.all (·.le a) = true) (n k : Nat) (m : Mem) (r : Rep a m) :
    Meets G [a] (times f n k m).1 := by
  induction n generalizing k m with
  | zero => exact ⟨a, List.mem_singleton.mpr rfl, r⟩
  | succ n ih =>
    have h := hf k m r
    simp only [times]
    rcases hfk : f k m with ⟨o, k'⟩
    rw [hfk] at h
    cases o with
    | norm m' =>
      obtain ⟨b, hb, rb⟩ := h
      exact ih k' m' (rb.le ((List.all_eq_true.mp hl) b hb))
    | ret d m' => exact h
    | cut m' => exact h
    | ub => exact h.elim

theorem forceNat_eq {α : Type} (n : Nat) (k : Nat → α) : forceNat n k = k n := by cases n <;> rfl

theorem forceBool_eq {α : Type} (b : Bool) (k : Bool → α) : forceBool b k = k b := by cases b <;> rfl

theorem AVal.force_eq {α : Type} (v : AVal) (k : AVal → α) : v.force k = k v := by
  cases v <;> simp [AVal.force, forceNat_eq, forceBool_eq]

theorem forceL_eq {α : Type} (l : List AVal) (k : List AVal → α) : forceL l k = k l := by
  induction l generalizing k with
  | nil => rfl
  | cons x l ih => simp [forceL, AVal.force_eq, ih]

theorem AState.force_eq {α : Type} (a : AState) (k : AState → α) : a.force k = k a := by
  unfold AState.force
  rw [forceL_eq]
  obtain ⟨v, s⟩ := a
  cases s <;> rfl

theorem leL_refl (l : List AVal) : leL l l = true := by
  induction l with
  | nil => rfl
  | cons x l ih => cases x <;> simp [leL, AVal.le, ih]

theorem AState.le_refl (a : AState) : a.le a = true := by
  obtain ⟨v, s⟩ := a
  cases s <;> simp [AState.le, leL_refl, AStat.le]

theorem prune_sound {l acc : List AState} {a : AState} (h : a ∈ l ∨ ∃ b ∈ acc, a.le b = true) : ∃ b ∈ prune l acc, a.le b = true := by
  induction l generalizing acc with
  | nil => rcases h with h | h; exact absurd h (by simp); exact h
  | cons x l ih =>
    simp only [prune]
    split
    · rename_i hx
      refine ih ?_
      rcases h with h | h
      · rcases List.mem_cons.mp h with rfl | h
        · obtain ⟨b, hb, e⟩ := List.any_eq_true.mp hx
          exact Or.inr ⟨b, hb, e⟩
        · exact Or.inl h
      · exact Or.inr h
    · refine ih ?_
      rcases h with h | ⟨b, hb, e⟩
      · rcases List.mem_cons.mp h with rfl | h
        · exact Or.inr ⟨_, List.mem_cons_self, AState.le_refl _⟩
        · exact Or.inl h
      · exact Or.inr ⟨b, List.mem_cons_of_mem _ hb, e⟩

theorem fix_sound {f : AState → Option (List AState)} {n : Nat} {a b : AState} (h : fix f n a = some b) :
    (∀ m, Rep a m → Rep b m) ∧ ∃ l, f b = some l ∧ l.all (·.le b) = true := by
  induction n generalizing a with
  | zero => cases h
  | succ n ih =>
    simp only [fix] at h
    cases hf : f a with
    | none => rw [hf] at h; cases h
    | some l =>
      rw [hf] at h
      simp only at h
      split at h
      · rename_i hl
        cases h
        exact ⟨fun m r => r, l, hf, hl⟩
      · rw [AState.force_eq] at h
        obtain ⟨h1, h2⟩ := ih h
        exact ⟨fun m r => h1 m (r.joins l), h2⟩

theorem each_sound {f : AState → Option (List AState)} {l k : List AState} (h : each f l = some k) {a : AState} (ha : a ∈ l) :
    ∃ k', f a = some k' ∧ ∀ b ∈ k', b ∈ k := by
  induction l generalizing k with
  | nil => simp at ha
  | cons x l ih =>
    simp only [each] at h
    cases hf : f x with
    | none => rw [hf] at h; cases h
    | some k1 =>
      cases he : each f l with
      | none => rw [hf, he] at h; cases h
      | some k2 =>
        rw [hf, he] at h
        cases h
        rcases List.mem_cons.mp ha with rfl | ha
        · exact ⟨k1, hf, fun b hb => List.mem_append_left _ hb⟩
        · obtain ⟨k', h1, h2⟩ := ih he ha
          exact ⟨k', h1, fun b hb => List.mem_append_right _ (h2 b hb)⟩

/-- a value without clones -/
theorem Rep.unshare {a : AState} {m : Mem} (r : Rep a m) (x : Slot) (h : clonesOf ((m.slot x).getD []) = []) :
    Rep (a.set x (a.get x).unshared) m := by
  have hx := r.slot x
  have none : ∀ l n, m.slot x = some l → Id.cln n ∉ l := by
    intro l n e hn
    rw [e] at h
    have : n ∈ clonesOf l := List.mem_filterMap.mpr ⟨_, hn, rfl⟩
    rw [show clonesOf l = [] from h] at this
    simp at this
  have key : VRep m (a.get x).unshared (m.slot x) := by
    cases hv : a.get x with
    | null => rw [hv] at hx; exact hx
    | any => trivial
    | live s c =>
      rw [hv] at hx
      obtain ⟨l, e, g⟩ := hx
      exact ⟨l, e, g.1, fun n hn => absurd hn (none l n e)⟩
    | opt s c =>
      rw [hv] at hx
      exact fun l e => ⟨(hx l e).1, fun n hn => absurd hn (none l n e)⟩
  have r' := r.put x _ _ key
  have same : m.put x (m.slot x) = m := by
    unfold Mem.put
    have : (fun y => if y = x then m.slot x else m.slot y) = m.slot := by
      funext y
      by_cases hy : y = x
      · rw [if_pos hy, hy]
      · rw [if_neg hy]
    rw [this]
  rwa [same] at r'

/-- an accepted function body: no execution does anything undefined, and all end in accepted states -/
theorem chk_sound (rel : Bool) (G : Goals) (t : Nat → Cell) (timed : Bool) (hag : G.again = false → ∀ k, (t k).again = false)
    (p : Stmt) (a : AState) (l : List AState) (h : chk rel G p a = some l) (k : Nat) (m : Mem) (r : Rep a m) :
    Meets G l (exec rel t timed p k m).1 := by
  induction p generalizing a l k m with
  | skip => cases h; exact ⟨a, List.mem_singleton.mpr rfl, r⟩
  | op o =>
    simp only [chk] at h
    split at h
    · rename_i hc
      cases ho : opA rel a o with
      | none => rw [ho] at h; cases h
      | some a' =>
        rw [ho] at h
        simp only [Option.bind_some, AState.force_eq] at h
        cases h
        simp only [exec]
        split
        · exact ⟨a, hc, r.push _⟩
        · obtain ⟨m', e, r'⟩ := opA_sound (t k).size r ho
          rw [e]
          exact ⟨a', List.mem_singleton.mpr rfl, r'⟩
    · cases h
  | seq p q ihp ihq =>
    simp only [chk] at h
    cases hp : chk rel G p a with
    | none => rw [hp] at h; cases h
    | some lp =>
      rw [hp] at h
      have h1 := ihp a lp hp k m r
      simp only [exec]
      rcases he : exec rel t timed p k m with ⟨o, k'⟩
      rw [he] at h1
      cases o with
      | norm m' =>
        obtain ⟨b, hb, rb⟩ := h1
        obtain ⟨b', hb', hle⟩ := prune_sound (acc := []) (Or.inl hb)
        obtain ⟨k2, hk2, hs⟩ := each_sound h hb'
        exact (ihq b' k2 hk2 k' m' (rb.le hle)).mono hs
      | ret d m' => exact h1
      | cut m' => exact h1
      | ub => exact h1.elim
  | choice p q ihp ihq =>
    simp only [chk] at h
    cases hp : chk rel G p a with
    | none => rw [hp] at h; cases h
    | some lp =>
      cases hq : chk rel G q a with
      | none => rw [hp, hq] at h; cases h
      | some lq =>
        rw [hp, hq] at h
        cases h
        simp only [exec]
        split
        · exact (ihp a lp hp _ m r).mono fun b hb => List.mem_append_left _ hb
        · exact (ihq a lq hq _ m r).mono fun b hb => List.mem_append_right _ hb
  | loop p ih =>
    simp only [chk] at h
    cases hf : fix (chk rel G p) 9 a with
    | none => rw [hf] at h; cases h
    | some b =>
      rw [hf] at h
      cases h
      obtain ⟨h1, lb, h2, h3⟩ := fix_sound hf
      exact times_sound (fun k m r => ih b lb h2 k m r) h3 _ _ m (h1 m r)
  | again p ih =>
    simp only [chk] at h
    split at h
    · cases hf : fix (chk rel G p) 9 a with
      | none => rw [hf] at h; cases h
      | some b =>
        rw [hf] at h
        cases h
        obtain ⟨h1, lb, h2, h3⟩ := fix_sound hf
        exact times_sound (fun k m r => ih b lb h2 k m r) h3 _ _ m (h1 m r)
    · rename_i hg
      cases h
      simp only [exec]
      rw [hag (by simpa using hg) k]
      exact ⟨a, List.mem_singleton.mpr rfl, r⟩
  | ifClone x p q ihp ihq =>
    simp only [chk] at h
    split at h
    · rename_i hr
      simp only [AState.force_eq] at h
      cases hp : chk rel G p a with
      | none => rw [hp] at h; cases h
      | some lp =>
        cases hq : chk rel G q (a.set x (a.get x).unshared) with
        | none => rw [hp, hq] at h; cases h
        | some lq =>
          rw [hp, hq] at h
          cases h
          simp only [exec]
          rw [if_pos (r.readable hr)]
          split
          · rename_i hcl
            exact (ihq _ lq hq _ m (r.unshare x hcl)).mono fun b hb => List.mem_append_right _ hb
          · exact (ihp a lp hp _ m r).mono fun b hb => List.mem_append_left _ hb
    · cases h
  | ifNull x p q ihp ihq =>
    simp only [chk] at h
    have hx := r.slot x
    simp only [exec]
    cases hv : a.get x with
    | null =>
      rw [hv] at h hx
      rw [show m.slot x = none from hx]
      exact ihp a l h k m r
    | any => rw [hv] at h; cases h
    | live s c =>
      rw [hv] at h hx
      obtain ⟨l', e, g⟩ := hx
      rw [e]
      exact ihq a l h k m r
    | opt s c =>
      rw [hv] at h hx
      simp only [AState.force_eq] at h
      cases hp : chk rel G p (a.set x .null) with
      | none => rw [hp] at h; cases h
      | some lp =>
        cases hq : chk rel G q (a.set x (.live s c)) with
        | none => rw [hp, hq] at h; cases h
        | some lq =>
          rw [hp, hq] at h
          cases h
          have same : ∀ w, m.slot x = w → m.put x w = m := by
            intro w e
            unfold Mem.put
            have : (fun y => if y = x then w else m.slot y) = m.slot := by
              funext y
              by_cases hy : y = x
              · subst hy; rw [if_pos rfl, e]
              · rw [if_neg hy]
            rw [this]
          cases e : m.slot x with
          | none =>
            have r' := r.put x .null none rfl
            rw [same none e] at r'
            exact (ihp _ lp hp k m r').mono fun b hb => List.mem_append_left _ hb
          | some l' =>
            have r' := r.put x (.live s c) (some l') ⟨l', rfl, hx l' e⟩
            rw [same _ e] at r'
            exact (ihq _ lq hq k m r').mono fun b hb => List.mem_append_right _ hb
  | ifStat p q ihp ihq =>
    simp only [chk] at h
    have hx := r.stat
    simp only [exec]
    cases hv : a.stat with
    | null =>
      rw [hv] at h hx
      rw [if_pos (show m.stat = .null from hx)]
      exact ihp a l h k m r
    | any => rw [hv] at h; cases h
    | good =>
      rw [hv] at h hx
      rw [if_neg (by rw [show m.stat = .good from hx]; simp)]
      exact ihq a l h k m r
    | ok =>
      rw [hv] at h hx
      simp only at h
      cases hp : chk rel G p { a with stat := .null } with
      | none => rw [hp] at h; cases h
      | some lp =>
        cases hq : chk rel G q { a with stat := .good } with
        | none => rw [hp, hq] at h; cases h
        | some lq =>
          rw [hp, hq] at h
          cases h
          by_cases e : m.stat = .null
          · rw [if_pos e]
            exact (ihp _ lp hp k m ⟨r.slot, e⟩).mono fun b hb => List.mem_append_left _ hb
          · rw [if_neg e]
            refine (ihq _ lq hq k m ⟨r.slot, ?_⟩).mono fun b hb => List.mem_append_right _ hb
            have hx : m.stat ≠ .freed := hx
            show m.stat = .good
            cases hs : m.stat <;> simp_all
  | ret d =>
    simp only [chk] at h
    split at h
    · rename_i hr
      cases h
      exact ⟨a, hr, r⟩
    · cases h

theorem times_calm {f : Nat → Mem → Out × Nat} (hf : ∀ k m m', (f k m).1 ≠ .cut m') (n k : Nat) (m m' : Mem) : (times f n k m).1 ≠ .cut m' := by
  induction n generalizing k m with
  | zero => simp [times]
  | succ n ih =>
    simp only [times]
    rcases hfk : f k m with ⟨o, k'⟩
    have h := hf k m m'
    rw [hfk] at h
    cases o with
    | norm m1 => exact ih k' m1
    | ret d m1 => exact h
    | cut m1 => exact h
    | ub => exact h

/-- without the timer nothing is cut off -/
theorem exec_calm (rel : Bool) (t : Nat → Cell) (timed : Bool) (h : timed = true → ∀ k, (t k).cut = false) (p : Stmt) (k : Nat) (m m' : Mem) :
    (exec rel t timed p k m).1 ≠ .cut m' := by
  induction p generalizing k m m' with
  | skip => simp [exec]
  | op o =>
    simp only [exec]
    cases timed with
    | true => rw [h rfl k]; simp only [Bool.and_false, Bool.false_eq_true, if_false]; split <;> simp
    | false => simp only [Bool.false_and, Bool.false_eq_true, if_false]; split <;> simp
  | seq p q ihp ihq =>
    simp only [exec]
    rcases he : exec rel t timed p k m with ⟨o, k'⟩
    have h1 := ihp k m m'
    rw [he] at h1
    cases o with
    | norm m1 => exact ihq _ _ _
    | ret d m1 => exact h1
    | cut m1 => exact h1
    | ub => exact h1
  | choice p q ihp ihq =>
    simp only [exec]
    split
    · exact ihp _ _ _
    · exact ihq _ _ _
  | loop p ih => exact times_calm ih _ _ _ _
  | again p ih => exact times_calm ih _ _ _ _
  | ifClone x p q ihp ihq =>
    simp only [exec]
    split
    · split
      · exact ihq _ _ _
      · exact ihp _ _ _
    · simp
  | ifNull x p q ihp ihq =>
    simp only [exec]
    split
    · exact ihp _ _ _
    · exact ihq _ _ _
  | ifStat p q ihp ihq =>
    simp only [exec]
    split
    · exact ihp _ _ _
    · exact ihq _ _ _
  | ret d => simp [exec]

end Ecgen.Stack
