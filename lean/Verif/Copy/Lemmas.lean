import Verif.Copy.Spec

/-!
# Lemmas on objects on the heap
-/

namespace Ecgen.Copy

variable {V M : Type}

mutual
theorem at_frame {h h' : Heap V M} : ∀ {a t fp}, At h a t fp → (∀ x ∈ fp, h' x = h x) → At h' a t fp
  | _, _, _, .node e hs, hf => .node ((hf _ (by simp)).trans e) (slots_frame hs fun x hx => hf x (by simp [hx]))
theorem slot_frame {h h' : Heap V M} : ∀ {s m fp}, SlotAt h s m fp → (∀ x ∈ fp, h' x = h x) → SlotAt h' s m fp
  | _, _, _, .null, _ => .null
  | _, _, _, .val v, _ => .val v
  | _, _, _, .ptr ht, hf => .ptr (at_frame ht hf)
theorem slots_frame {h h' : Heap V M} : ∀ {ss ms fp}, SlotsAt h ss ms fp → (∀ x ∈ fp, h' x = h x) → SlotsAt h' ss ms fp
  | _, _, _, .nil, _ => .nil
  | _, _, _, .cons h1 h2, hf => .cons (slot_frame h1 fun x hx => hf x (by simp [hx])) (slots_frame h2 fun x hx => hf x (by simp [hx]))
end

mutual
theorem at_live {h : Heap V M} : ∀ {a t fp}, At h a t fp → ∀ x ∈ fp, h x ≠ none
  | _, _, _, .node e hs, x, hx => by
    rcases List.mem_cons.1 hx with rfl | hx
    · rw [e]; exact Option.some_ne_none _
    · exact slots_live hs x hx
theorem slot_live {h : Heap V M} : ∀ {s m fp}, SlotAt h s m fp → ∀ x ∈ fp, h x ≠ none
  | _, _, _, .null, _, hx => nomatch hx
  | _, _, _, .val _, _, hx => nomatch hx
  | _, _, _, .ptr ht, x, hx => at_live ht x hx
theorem slots_live {h : Heap V M} : ∀ {ss ms fp}, SlotsAt h ss ms fp → ∀ x ∈ fp, h x ≠ none
  | _, _, _, .nil, _, hx => nomatch hx
  | _, _, _, .cons h1 h2, x, hx => by
    rcases List.mem_append.1 hx with hx | hx
    · exact slot_live h1 x hx
    · exact slots_live h2 x hx
end

/-! ## Copying -/

/-- `h'` is `h` with new blocks at the addresses `fp` -/
structure Grown (h h' : Heap V M) (fp : List Nat) : Prop where
  old : ∀ x, h x ≠ none → h' x = h x
  fresh : ∀ x ∈ fp, h x = none
  live : ∀ x ∈ fp, h' x ≠ none
  only : ∀ x, h' x ≠ none → h x ≠ none ∨ x ∈ fp
  nodup : fp.Nodup
  bounded : Bounded h'

theorem grown_refl {h : Heap V M} (hb : Bounded h) : Grown h h [] where
  old _ _ := rfl
  fresh x hx := nomatch hx
  live x hx := nomatch hx
  only x hx := Or.inl hx
  nodup := List.nodup_nil
  bounded := hb

theorem Grown.trans {h h' h'' : Heap V M} {fp fp' : List Nat} (h1 : Grown h h' fp) (h2 : Grown h' h'' fp') : Grown h h'' (fp ++ fp') where
  old x hx := (h2.old x (by rw [h1.old x hx]; exact hx)).trans (h1.old x hx)
  fresh x hx := by
    rcases List.mem_append.1 hx with hx | hx
    · exact h1.fresh x hx
    · have := h2.fresh x hx
      by_contra hc
      rw [h1.old x hc] at this
      exact hc this
  live x hx := by
    rcases List.mem_append.1 hx with hx | hx
    · rw [h2.old x (h1.live x hx)]; exact h1.live x hx
    · exact h2.live x hx
  only x hx := by
    rcases h2.only x hx with h | h
    · rcases h1.only x h with h | h
      · exact Or.inl h
      · exact Or.inr (List.mem_append_left _ h)
    · exact Or.inr (List.mem_append_right _ h)
  nodup := List.nodup_append.2 ⟨h1.nodup, h2.nodup, fun a ha b hb hab => h1.live a ha (by rw [hab]; exact h2.fresh b hb)⟩
  bounded := h2.bounded

theorem Grown.at {h h' : Heap V M} {fp fp' : List Nat} (hg : Grown h h' fp') {a t} (ha : At h a t fp) : At h' a t fp :=
  at_frame ha fun x hx => hg.old x (at_live ha x hx)

theorem Grown.slot {h h' : Heap V M} {fp fp' : List Nat} (hg : Grown h h' fp') {s m} (ha : SlotAt h s m fp) : SlotAt h' s m fp :=
  slot_frame ha fun x hx => hg.old x (slot_live ha x hx)

theorem Grown.slots {h h' : Heap V M} {fp fp' : List Nat} (hg : Grown h h' fp') {s m} (ha : SlotsAt h s m fp) : SlotsAt h' s m fp :=
  slots_frame ha fun x hx => hg.old x (slots_live ha x hx)

theorem set_same (h : Heap V M) (a : Nat) (c : Option (Cell V M)) : h.set a c a = c := if_pos rfl

theorem set_other (h : Heap V M) {a x : Nat} (c : Option (Cell V M)) (hx : x ≠ a) : h.set a c x = h x := if_neg hx

theorem bounded_set {h : Heap V M} (hb : Bounded h) (a : Nat) (c : Option (Cell V M)) : Bounded (h.set a c) := by
  obtain ⟨n, hn⟩ := hb
  refine ⟨n + a + 1, fun x hx => ?_⟩
  rw [set_other h c (by omega)]
  exact hn x (by omega)

variable {A : Heap V M → Nat} {N : Option V → Member V M → Prop}

theorem grown_alloc (hA : Allocator A) {h : Heap V M} (hb : Bounded h) (c : Cell V M) : Grown h (alloc A h c).1 [A h] where
  old x hx := set_other h _ fun e => hx (by rw [e]; exact hA h hb)
  fresh x hx := by rw [List.mem_singleton.1 hx]; exact hA h hb
  live x hx := by rw [List.mem_singleton.1 hx]; show h.set _ _ _ ≠ none; rw [set_same]; exact Option.some_ne_none _
  only x hx := by
    by_cases e : x = A h
    · exact Or.inr (by simp [e])
    · refine Or.inl ?_
      have : (alloc A h c).1 x = h x := set_other h _ e
      rwa [this] at hx
  nodup := List.nodup_singleton _
  bounded := bounded_set hb _ _

/-- the new object is filled -/
theorem finish (hA : Allocator A) {h h2 : Heap V M} (hb : Bounded h) {c : Cell V M} {fps : List Nat} (hg : Grown (alloc A h c).1 h2 fps) {ss ms}
    (hs : SlotsAt h2 ss ms fps) (D : Data V M) : Grown h (h2.set (A h) (some ⟨D, ss⟩)) (A h :: fps) ∧ At (h2.set (A h) (some ⟨D, ss⟩)) (A h) (.node D ms) (A h :: fps) := by
  have hd : (alloc A h c).1 (A h) ≠ none := (grown_alloc hA hb c).live _ (by simp)
  have hout : ∀ x ∈ fps, x ≠ A h := fun x hx e => hd (e ▸ hg.fresh x hx)
  have hall := (grown_alloc hA hb c).trans hg
  refine ⟨⟨fun x hx => ?_, hall.fresh, fun x hx => ?_, fun x hx => ?_, hall.nodup, bounded_set hg.bounded _ _⟩, .node (set_same _ _ _) (slots_frame hs fun x hx => set_other _ _ (hout x hx))⟩
  · rw [set_other _ _ fun e => hx (by rw [e]; exact hA h hb)]
    exact hall.old x hx
  · by_cases e : x = A h
    · rw [e, set_same]; exact Option.some_ne_none _
    · rw [set_other _ _ e]; exact hall.live x hx
  · by_cases e : x = A h
    · exact Or.inr (by simp [e])
    · rw [set_other _ _ e] at hx; exact hall.only x hx

/-- a step that copies what a member holds: something that meets `R` gives something new that meets `R'` -/
def Copies (f : Heap V M → Slot V → Option (Heap V M × Slot V)) (R R' : Member V M → Prop) : Prop :=
  ∀ h, Bounded h → ∀ s m fp, SlotAt h s m fp → R m → ∃ h' s' m' fp', f h s = some (h', s') ∧ Grown h h' fp' ∧ SlotAt h' s' m' fp' ∧ R' m'

/-- the same for an object -/
def CopiesTo (f : Heap V M → Nat → Option (Heap V M × Nat)) (R R' : Tree V M → Prop) : Prop :=
  ∀ h, Bounded h → ∀ a t fp, At h a t fp → R t → ∃ h' a' t' fp', f h a = some (h', a') ∧ Grown h h' fp' ∧ At h' a' t' fp' ∧ R' t'

theorem ifSet_copies {α β : Type} {f : Heap V M → Nat → Option (Heap V M × Nat)} {R : α → Tree V M → Prop} {R' : β → Tree V M → Prop} (g : α → β) (o : Option α)
    (hf : ∀ v, o = some v → CopiesTo f (R v) (R' (g v))) : Copies (ifSet f) (OptIs R o) (OptIs R' (o.map g)) := by
  intro h hb s m fp hs hr
  cases hr with
  | null =>
    cases hs
    exact ⟨h, .null, .null, [], rfl, grown_refl hb, .null, .null⟩
  | ptr hr =>
    cases hs with
    | ptr ha =>
      obtain ⟨h', a', t', fp', e, hg, ha', hr'⟩ := hf _ rfl h hb _ _ _ ha hr
      exact ⟨h', .ptr a', .ptr t', fp', by rw [ifSet, e]; rfl, hg, .ptr ha', .ptr hr'⟩

theorem number_copies (hA : Allocator A) (hN : ∀ v m, N v m → NumIs v m) (clone : Bool) (v : Option V) : Copies (number A clone) (N v) (Placed clone v) := by
  intro h hb s m fp hs hr
  replace hr := hN _ _ hr
  have new : ∀ v, ∃ h' s' m' fp', (if clone then some ((alloc A h ⟨.num v, []⟩).1, Slot.ptr (A h)) else some (h, Slot.val v)) = some (h', s') ∧
      Grown h h' fp' ∧ SlotAt h' s' m' fp' ∧ Placed clone (some v) m' := by
    intro v
    cases clone with
    | true => exact ⟨_, _, _, _, if_pos rfl, grown_alloc hA hb _, .ptr (.node (set_same _ _ _) .nil), .clone v⟩
    | false => exact ⟨_, _, _, _, if_neg (by decide), grown_refl hb, .val v, .stack v⟩
  cases hr with
  | null =>
    cases hs
    exact ⟨h, .null, .null, [], rfl, grown_refl hb, .null, .null _⟩
  | stack v =>
    cases hs
    exact new v
  | clone v =>
    cases hs with
    | ptr ha =>
      cases ha with
      | node e hss =>
        obtain ⟨h', s', m', fp', k1, k2⟩ := new v
        exact ⟨h', s', m', fp', by rw [number, e]; exact k1, k2⟩

theorem point_copies (hA : Allocator A) (hN : ∀ v m, N v m → NumIs v m) (clone : Bool) (v : PointV V) : CopiesTo (pointNew A clone) (PointIs N v) (PointIs (Placed clone) v) := by
  intro h hb a t fp ha hr
  cases hr with
  | mk r1 r2 r3 =>
    cases ha with
    | node e hs =>
      cases hs with
      | cons s1 hs =>
        cases hs with
        | cons s2 hs =>
          cases hs with
          | cons s3 hs =>
            cases hs
            have g0 := grown_alloc hA hb (⟨.point, [.null, .null, .null]⟩ : Cell V M)
            obtain ⟨h1, t1, m1, f1, e1, g1, a1, r1⟩ := number_copies hA hN clone _ _ g0.bounded _ _ _ (g0.slot s1) r1
            obtain ⟨h2, t2, m2, f2, e2, g2, a2, r2⟩ := number_copies hA hN clone _ _ g1.bounded _ _ _ (g1.slot (g0.slot s2)) r2
            obtain ⟨h3, t3, m3, f3, e3, g3, a3, r3⟩ := number_copies hA hN clone _ _ g2.bounded _ _ _ (g2.slot (g1.slot (g0.slot s3))) r3
            have hg := g1.trans (g2.trans (g3.trans (grown_refl g3.bounded)))
            obtain ⟨k1, k2⟩ := finish hA hb hg (.cons (g3.slot (g2.slot a1)) (.cons (g3.slot a2) (.cons a3 .nil))) .point
            refine ⟨_, _, _, _, ?_, k1, k2, .mk r1 r2 r3⟩
            simp only [pointNew, e, Option.bind_eq_bind, e1, e2, e3, Option.bind_some]

theorem each_copies {α β : Type} {f : Heap V M → Nat → Option (Heap V M × Nat)} {R : α → Tree V M → Prop} {R' : β → Tree V M → Prop} (g : α → β) :
    ∀ (vs : List α), (∀ v ∈ vs, CopiesTo f (R v) (R' (g v))) → ∀ h, Bounded h → ∀ ss ms fp, SlotsAt h ss ms fp → EachIs R vs ms →
      ∃ h' ss' ms' fp', copyEach f h ss = some (h', ss') ∧ Grown h h' fp' ∧ SlotsAt h' ss' ms' fp' ∧ EachIs R' (vs.map g) ms' := by
  intro vs
  induction vs with
  | nil =>
    intro _ h hb ss ms fp hs hr
    cases hr
    cases hs
    exact ⟨h, [], [], [], rfl, grown_refl hb, .nil, .nil⟩
  | cons v vs ih =>
    intro hf h hb ss ms fp hs hr
    cases hr with
    | cons r1 hr =>
      cases hs with
      | cons s1 hs =>
        cases s1 with
        | ptr a1 =>
          obtain ⟨h1, b1, t1, f1, e1, g1, k1, q1⟩ := hf v (by simp) h hb _ _ _ a1 r1
          obtain ⟨h2, ss2, ms2, f2, e2, g2, k2, q2⟩ := ih (fun v hv => hf v (by simp [hv])) h1 g1.bounded _ _ _ (g1.slots hs) hr
          refine ⟨h2, .ptr b1 :: ss2, .ptr t1 :: ms2, f1 ++ f2, ?_, g1.trans g2, .cons (.ptr (g2.at k1)) k2, .cons q1 q2⟩
          simp only [copyEach, e1, e2, Option.bind_eq_bind, Option.bind_some]

theorem slots_length {h : Heap V M} : ∀ {ss ms fp}, SlotsAt h ss ms fp → ss.length = ms.length
  | _, _, _, .nil => rfl
  | _, _, _, .cons _ h2 => by simp [slots_length h2]

theorem each_length {α : Type} {R : α → Tree V M → Prop} {vs : List α} {ms : List (Member V M)} (h : EachIs R vs ms) : vs.length = ms.length := by
  induction h with
  | nil => rfl
  | cons _ _ ih => simp [ih]

theorem array_copies (hA : Allocator A) {α β : Type} {f : Heap V M → Nat → Option (Heap V M × Nat)} {R : α → Tree V M → Prop} {R' : β → Tree V M → Prop}
    (g : α → β) (vs : List α) (hf : ∀ v ∈ vs, CopiesTo f (R v) (R' (g v))) (n : Nat) (hn : vs.length = n) :
    CopiesTo (arrayNew A f n) (ArrayIs R vs) (ArrayIs R' (vs.map g)) := by
  intro h hb a t fp ha hr
  cases hr with
  | mk hr =>
    cases ha with
    | node e hs =>
      rename_i ms ss fps
      have hl : ss.length = n := by rw [slots_length hs, ← each_length hr, hn]
      have g0 := grown_alloc hA hb (⟨.array, List.replicate n .null⟩ : Cell V M)
      obtain ⟨h1, ss1, ms1, f1, e1, g1, k1, q1⟩ := each_copies g vs hf _ g0.bounded _ _ _ (g0.slots hs) hr
      obtain ⟨k2, k3⟩ := finish hA hb g1 k1 .array
      refine ⟨_, _, _, _, ?_, k2, k3, .mk q1⟩
      simp only [arrayNew, e, hl, Nat.le_refl, if_true, List.take_of_length_le, e1, Option.bind_eq_bind, Option.bind_some]

theorem subgroup_copies (hA : Allocator A) (hN : ∀ v m, N v m → NumIs v m) (clone : Bool) (v : SubgroupV V) : CopiesTo (subgroupNew A clone) (SubgroupIs N v) (SubgroupIs (Placed clone) v) := by
  intro h hb a t fp ha hr
  cases hr with
  | mk r1 r2 hn =>
    rename_i gen ps n _ _
    cases ha with
    | node e hs =>
      cases hs with
      | cons s1 hs =>
        cases hs with
        | cons s2 hs =>
          cases hs
          have g0 := grown_alloc hA hb (⟨.subgroup 0, [.null, .null]⟩ : Cell V M)
          obtain ⟨h1, t1, m1, f1, e1, g1, a1, q1⟩ := ifSet_copies (R' := PointIs (Placed clone)) id gen (fun v _ => point_copies hA hN clone v) _ g0.bounded _ _ _ (g0.slot s1) r1
          obtain ⟨h2, t2, m2, f2, e2, g2, a2, q2⟩ := ifSet_copies (R' := ArrayIs (PointIs (Placed clone))) (List.map id) ps
            (fun l hl => array_copies hA id l (fun v _ => point_copies hA hN clone v) n (hn l hl)) _ g1.bounded _ _ _ (g1.slot (g0.slot s2)) r2
          have hg := g1.trans (g2.trans (grown_refl g2.bounded))
          rename_i _ _ sp _
          obtain ⟨k1, k2⟩ := finish hA hb hg (.cons (g2.slot a1) (.cons a2 .nil)) (.subgroup (countOf n sp))
          have ei : ps.map (List.map id) = ps := by simp
          rw [Option.map_id_fun, id] at q1
          rw [ei] at q2
          refine ⟨_, _, _, _, ?_, k1, k2, .mk q1 q2 fun l hl => ?_⟩
          · simp only [subgroupNew, e, Option.bind_eq_bind, e1, e2, Option.bind_some]
          · subst hl
            cases r2
            cases s2
            exact hn l rfl

theorem memdup_copies (hA : Allocator A) (l : List UInt8) (n : Nat) (hn : l.length = n) : CopiesTo (memdup A n) (BytesIs (V := V) (M := M) l) (BytesIs l) := by
  intro h hb a t fp ha hr
  cases hr
  cases ha with
  | node e hs =>
    cases hs
    refine ⟨_, _, .node (.bytes l) [], _, ?_, grown_alloc hA hb ⟨.bytes l, []⟩, .node (set_same _ _ _) .nil, .mk l⟩
    rw [memdup, e]
    simp only [hn, Nat.le_refl, if_true]
    rw [List.take_of_length_le (by omega)]
    rfl

theorem bits_copies (hA : Allocator A) (v : BitsV) : CopiesTo (bitsCopy A) (BitsIs (V := V) (M := M) v) (BitsIs v) := by
  intro h hb a t fp ha hr
  cases hr with
  | empty s n =>
    cases ha with
    | node e hs =>
      cases hs with
      | cons s1 hs =>
        cases hs
        cases s1
        refine ⟨_, _, .node (.bits s n 0) [.null], [A h], ?_, grown_alloc hA hb ⟨.bits s n 0, [.null]⟩, .node (set_same _ _ _) (.cons .null .nil), .empty s n⟩
        rw [bitsCopy, e]
        rfl
  | block s n l =>
    cases ha with
    | node e hs =>
      cases hs with
      | cons s1 hs =>
        cases hs
        cases s1 with
        | ptr ha =>
          by_cases hl : l.length = 0
          · have : l = [] := List.length_eq_zero_iff.1 hl
            subst this
            refine ⟨_, _, .node (.bits s n 0) [.null], [A h], ?_, grown_alloc hA hb ⟨.bits s n 0, [.null]⟩, .node (set_same _ _ _) (.cons .null .nil), .empty s n⟩
            rw [bitsCopy, e]
            rfl
          · have g0 := grown_alloc hA hb (⟨.bits s n l.length, [.null]⟩ : Cell V M)
            obtain ⟨h1, y, t1, f1, e1, g1, a1, q1⟩ := memdup_copies hA l l.length rfl _ g0.bounded _ _ _ (g0.at ha) (.mk l)
            cases q1
            obtain ⟨k1, k2⟩ := finish hA hb (g1.trans (grown_refl g1.bounded)) (.cons (.ptr a1) .nil) (.bits s n l.length)
            refine ⟨_, _, _, _, ?_, k1, k2, .block s n l⟩
            simp only [bitsCopy, e, if_neg hl, Option.bind_eq_bind, e1, Option.bind_some]

/-- what a copy of a seed holds -/
def seedCopied (v : SeedV M) : SeedV M := ⟨v.seed, v.hash, .none, (none, none), none⟩

theorem seed_copies (hA : Allocator A) (v : SeedV M) : CopiesTo (seedNew A) (SeedIs (V := V) v) (SeedIs (seedCopied v)) := by
  intro h hb a t fp ha hr
  cases hr with
  | mk r1 r2 hx r3 r4 hbp =>
    rename_i sv xv _ _ _ _ _ _ _ _
    cases ha with
    | node e hs =>
      cases hs with
      | cons s1 hs =>
        cases hs with
        | cons s2 hs =>
          cases hs with
          | cons s3 hs =>
            cases hs with
            | cons s4 hs =>
              cases hs
              have g0 := grown_alloc hA hb (⟨.seed .none none, [.null, .null, .null, .null]⟩ : Cell V M)
              obtain ⟨h1, t1, m1, f1, e1, g1, a1, q1⟩ := ifSet_copies (R' := BitsIs) id sv (fun v _ => bits_copies hA v) _ g0.bounded _ _ _ (g0.slot s1) r1
              obtain ⟨h2, t2, m2, f2, e2, g2, a2, q2⟩ := ifSet_copies (R' := BytesIs) id xv
                (fun l hl => memdup_copies hA l 20 (hx l hl)) _ g1.bounded _ _ _ (g1.slot (g0.slot s2)) r2
              have hg := g1.trans (g2.trans (grown_refl g2.bounded))
              obtain ⟨k1, k2⟩ := finish hA hb hg (.cons (g2.slot a1) (.cons a2 (.cons .null (.cons .null .nil)))) (.seed .none none)
              rw [Option.map_id_fun, id] at q1 q2
              refine ⟨_, _, _, _, ?_, k1, k2, .mk q1 q2 hx .null .null fun _ => ⟨rfl, rfl⟩⟩
              simp only [seedNew, e, Option.bind_eq_bind, e1, e2, Option.bind_some]

/-- what a copy of a curve holds -/
def copied (v : CurveV V M) : CurveV V M := ⟨v.seed.map seedCopied, v.field, v.a, v.b, v.curve, v.order, v.generators, none⟩

theorem curve_copies (hA : Allocator A) (hN : ∀ v m, N v m → NumIs v m) (clone : Bool) (v : CurveV V M) :
    CopiesTo (curveNew A clone) (CurveIs N v) (CurveIs (Placed clone) (copied v)) := by
  intro h hb a t fp ha hr
  cases hr with
  | mk r1 r2 r3 r4 r5 r6 r7 hn =>
    rename_i sv _ _ _ _ _ gs _ n _ _ _ _ _ _ _
    cases ha with
    | node e hs =>
      cases hs with
      | cons s1 hs =>
      cases hs with
      | cons s2 hs =>
      cases hs with
      | cons s3 hs =>
      cases hs with
      | cons s4 hs =>
      cases hs with
      | cons s5 hs =>
      cases hs with
      | cons s6 hs =>
      cases hs with
      | cons s7 hs =>
      cases hs
      rename_i sp _
      have g0 := grown_alloc hA hb (⟨.curve 0 none, [.null, .null, .null, .null, .null, .null, .null]⟩ : Cell V M)
      obtain ⟨h1, t1, m1, f1, e1, g1, a1, q1⟩ := ifSet_copies (R' := SeedIs) seedCopied sv (fun v _ => seed_copies hA v) _ g0.bounded _ _ _ (g0.slot s1) r1
      have G1 := g0.trans g1
      obtain ⟨h2, t2, m2, f2, e2, g2, a2, q2⟩ := number_copies hA hN clone _ _ g1.bounded _ _ _ (G1.slot s2) r2
      have G2 := G1.trans g2
      obtain ⟨h3, t3, m3, f3, e3, g3, a3, q3⟩ := number_copies hA hN clone _ _ g2.bounded _ _ _ (G2.slot s3) r3
      have G3 := G2.trans g3
      obtain ⟨h4, t4, m4, f4, e4, g4, a4, q4⟩ := number_copies hA hN clone _ _ g3.bounded _ _ _ (G3.slot s4) r4
      have G4 := G3.trans g4
      obtain ⟨h5, t5, m5, f5, e5, g5, a5, q5⟩ := number_copies hA hN clone _ _ g4.bounded _ _ _ (G4.slot s5) r5
      have G5 := G4.trans g5
      obtain ⟨h6, t6, m6, f6, e6, g6, a6, q6⟩ := number_copies hA hN clone _ _ g5.bounded _ _ _ (G5.slot s6) r6
      have G6 := G5.trans g6
      obtain ⟨h7, t7, m7, f7, e7, g7, a7, q7⟩ := ifSet_copies (R' := ArrayIs (SubgroupIs (Placed clone))) (List.map id) gs
        (fun l hl => array_copies hA id l (fun v _ => subgroup_copies hA hN clone v) n (hn l hl)) _ g6.bounded _ _ _ (G6.slot s7) r7
      have L6 := g7.trans (grown_refl g7.bounded)
      have L5 := g6.trans L6
      have L4 := g5.trans L5
      have L3 := g4.trans L4
      have L2 := g3.trans L3
      have L1 := g2.trans L2
      obtain ⟨k1, k2⟩ := finish hA hb (g1.trans L1) (.cons (L1.slot a1) (.cons (L2.slot a2) (.cons (L3.slot a3) (.cons (L4.slot a4) (.cons (L5.slot a5) (.cons (L6.slot a6) (.cons a7 .nil))))))) (.curve (countOf n sp) none)
      have ei : gs.map (List.map id) = gs := by simp
      rw [ei] at q7
      refine ⟨_, _, _, _, ?_, k1, k2, .mk q1 q2 q3 q4 q5 q6 q7 fun l hl => ?_⟩
      · simp only [curveNew, e, Option.bind_eq_bind, e1, e2, e3, e4, e5, e6, e7, Option.bind_some]
      · subst hl
        cases r7
        cases s7
        exact hn l rfl

/-! ## Releasing -/

theorem gone_nil (h : Heap V M) : gone h [] = h := rfl

theorem gone_gone (h : Heap V M) (f g : List Nat) : gone (gone h f) g = gone h (f ++ g) := by
  funext x
  simp only [gone, List.mem_append]
  by_cases h1 : x ∈ g <;> by_cases h2 : x ∈ f <;> simp [h1, h2]

theorem gone_congr (h : Heap V M) {f g : List Nat} (hfg : ∀ x, x ∈ f ↔ x ∈ g) : gone h f = gone h g := by
  funext x
  simp only [gone, hfg]

theorem slot_gone {h : Heap V M} {s m fp} (hs : SlotAt h s m fp) {g : List Nat} (hd : ∀ x ∈ fp, x ∉ g) : SlotAt (gone h g) s m fp :=
  slot_frame hs fun x hx => if_neg (hd x hx)

theorem slots_gone {h : Heap V M} {s m fp} (hs : SlotsAt h s m fp) {g : List Nat} (hd : ∀ x ∈ fp, x ∉ g) : SlotsAt (gone h g) s m fp :=
  slots_frame hs fun x hx => if_neg (hd x hx)

/-- releasing what a member holds takes its blocks away and nothing else -/
def Frees (f : Heap V M → Slot V → Option (Heap V M)) (R : Member V M → Prop) : Prop :=
  ∀ h s m fp, SlotAt h s m fp → fp.Nodup → R m → f h s = some (gone h fp)

def FreesAt (f : Heap V M → Nat → Option (Heap V M)) (R : Tree V M → Prop) : Prop :=
  ∀ h a t fp, At h a t fp → fp.Nodup → R t → f h a = some (gone h fp)

theorem free_gone {h : Heap V M} {a : Nat} (ha : h a ≠ none) {g : List Nat} (hg : a ∉ g) : free (gone h g) a = some (gone h (g ++ [a])) := by
  have e : gone h g a = h a := if_neg hg
  rw [← gone_gone]
  unfold free
  rw [e]
  cases hh : h a with
  | none => exact absurd hh ha
  | some c =>
    show some _ = some _
    congr 1
    funext x
    simp [Heap.set, gone]

theorem freeSet_frees {α : Type} {f : Heap V M → Nat → Option (Heap V M)} {R : α → Tree V M → Prop} (o : Option α) (hf : ∀ v, o = some v → FreesAt f (R v)) :
    Frees (freeSet f) (OptIs R o) := by
  intro h s m fp hs hn hr
  cases hr with
  | null => cases hs; rfl
  | ptr hr =>
    cases hs with
    | ptr ha => exact hf _ rfl h _ _ _ ha hn hr

theorem bytes_frees (l : List UInt8) : FreesAt free (BytesIs (V := V) (M := M) l) := by
  intro h a t fp ha hn hr
  cases hr
  cases ha with
  | node e hs =>
    cases hs
    have := free_gone (h := h) (a := a) (by rw [e]; exact Option.some_ne_none _) (g := []) (by simp)
    exact this

theorem unclone_frees (hN : ∀ v m, N v m → NumIs v m) (v : Option V) : Frees (unclone (M := M)) (N v) := by
  intro h s m fp hs hn hr
  replace hr := hN _ _ hr
  cases hr with
  | null => cases hs; rfl
  | stack v => cases hs; rfl
  | clone v =>
    cases hs with
    | ptr ha =>
      cases ha with
      | node e hs =>
        cases hs
        have := free_gone (h := h) (a := _) (by rw [e]; exact Option.some_ne_none _) (g := []) (by simp)
        exact this

theorem point_frees (hN : ∀ v m, N v m → NumIs v m) (v : PointV V) : FreesAt pointFree (PointIs N v) := by
  intro h a t fp ha hn hr
  cases hr with
  | mk r1 r2 r3 =>
    cases ha with
    | node e hs =>
      cases hs with
      | cons s1 hs =>
      cases hs with
      | cons s2 hs =>
      cases hs with
      | cons s3 hs =>
      cases hs
      rename_i f1 _ f2 _ f3
      simp only [List.append_nil, List.nodup_cons, List.nodup_append, List.mem_append] at hn
      obtain ⟨hn0, n1, ⟨n2, n3, d23⟩, d1⟩ := hn
      have e1 := unclone_frees hN _ _ _ _ _ s1 n1 r1
      have e2 := unclone_frees hN _ _ _ _ _ (slot_gone s2 (g := f1) fun x hx hy => d1 x hy x (Or.inl hx) rfl) n2 r2
      have e3 := unclone_frees hN _ _ _ _ _ (slot_gone s3 (g := f1 ++ f2) fun x hx hy => by
        rcases List.mem_append.1 hy with hy | hy
        · exact d1 x hy x (Or.inr hx) rfl
        · exact d23 x hy x hx rfl) n3 r3
      rw [gone_gone] at e2 e3
      have e4 := free_gone (h := h) (a := a) (by rw [e]; exact Option.some_ne_none _) (g := f1 ++ f2 ++ f3) (by simp; tauto)
      simp only [pointFree, e, Option.bind_eq_bind, e1, e2, e3, e4, Option.bind_some]
      congr 1
      exact gone_congr h fun x => by simp; tauto

theorem each_frees {α : Type} {f : Heap V M → Nat → Option (Heap V M)} {R : α → Tree V M → Prop} :
    ∀ (vs : List α), (∀ v ∈ vs, FreesAt f (R v)) → ∀ h ss ms fp, SlotsAt h ss ms fp → fp.Nodup → EachIs R vs ms → freeEach f h ss = some (gone h fp) := by
  intro vs
  induction vs with
  | nil =>
    intro _ h ss ms fp hs hn hr
    cases hr
    cases hs
    rfl
  | cons v vs ih =>
    intro hf h ss ms fp hs hn hr
    cases hr with
    | cons r1 hr =>
      cases hs with
      | cons s1 hs =>
        cases s1 with
        | ptr a1 =>
          obtain ⟨n1, n2, d⟩ := List.nodup_append.1 hn
          have e1 := hf v (by simp) h _ _ _ a1 n1 r1
          have e2 := ih (fun v hv => hf v (by simp [hv])) _ _ _ _ (slots_gone hs fun x hx hy => d x hy x hx rfl) n2 hr
          rw [gone_gone] at e2
          simp only [freeEach, freeSet, e1, Option.bind_some, e2]

theorem array_frees {α : Type} {f : Heap V M → Nat → Option (Heap V M)} {R : α → Tree V M → Prop} (vs : List α) (hf : ∀ v ∈ vs, FreesAt f (R v)) (n : Nat)
    (hl : vs.length = n) : FreesAt (arrayFree f n) (ArrayIs R vs) := by
  intro h a t fp ha hn hr
  cases hr with
  | mk hr =>
    cases ha with
    | node e hs =>
      rename_i ms ss fps
      have hl : ss.length = n := by rw [slots_length hs, ← each_length hr, hl]
      obtain ⟨n0, n1⟩ := List.nodup_cons.1 hn
      have e1 := each_frees vs hf _ _ _ _ hs n1 hr
      have e2 := free_gone (h := h) (a := a) (by rw [e]; exact Option.some_ne_none _) n0
      simp only [arrayFree, e, hl, Nat.le_refl, if_true, List.take_of_length_le, e1, Option.bind_some, e2]
      congr 1
      exact gone_congr h fun x => by clear * -; simp; tauto

theorem subgroup_frees (hN : ∀ v m, N v m → NumIs v m) (v : SubgroupV V) : FreesAt subgroupFree (SubgroupIs N v) := by
  intro h a t fp ha hn hr
  cases hr with
  | mk r1 r2 hl =>
    cases ha with
    | node e hs =>
      cases hs with
      | cons s1 hs =>
      cases hs with
      | cons s2 hs =>
      cases hs
      rename_i f1 _ f2
      simp only [List.append_nil, List.nodup_cons, List.nodup_append, List.mem_append] at hn
      obtain ⟨hn0, n1, n2, d12⟩ := hn
      have e1 := freeSet_frees _ (fun l hl' => array_frees l (fun v _ => point_frees hN v) _ (hl l hl')) _ _ _ _ s2 n2 r2
      have e2 := freeSet_frees _ (fun v _ => point_frees hN v) _ _ _ _ (slot_gone s1 (g := f2) fun x hx hy => d12 x hx x hy rfl) n1 r1
      rw [gone_gone] at e2
      have e3 := free_gone (h := h) (a := a) (by rw [e]; exact Option.some_ne_none _) (g := f2 ++ f1) (by clear * - hn0; simp; tauto)
      simp only [subgroupFree, e, Option.bind_eq_bind, e1, e2, e3, Option.bind_some]
      congr 1
      exact gone_congr h fun x => by clear * -; simp; tauto

theorem bits_frees (v : BitsV) : FreesAt bitsFree (BitsIs (V := V) (M := M) v) := by
  intro h a t fp ha hn hr
  have main : ∀ {s n k b m fp}, h a = some ⟨.bits s n k, [b]⟩ → SlotAt h b m fp → (a :: fp).Nodup → (m = .null ∨ ∃ l, m = .ptr (.node (.bytes l) [])) →
      bitsFree h a = some (gone h (a :: fp)) := by
    intro s n k b m fp e s1 hn hm
    obtain ⟨n0, n1⟩ := List.nodup_cons.1 hn
    have e1 : freeSet free h b = some (gone h fp) := by
      rcases hm with rfl | ⟨l, rfl⟩
      · exact freeSet_frees (R := BytesIs) none (fun v _ => bytes_frees v) _ _ _ _ s1 n1 .null
      · exact freeSet_frees (R := BytesIs) (some l) (fun v _ => bytes_frees v) _ _ _ _ s1 n1 (.ptr (.mk l))
    have e3 := free_gone (h := h) (a := a) (by rw [e]; exact Option.some_ne_none _) n0
    simp only [bitsFree, e, Option.bind_eq_bind, e1, e3, Option.bind_some]
    congr 1
    exact gone_congr h fun x => by clear * -; simp; tauto
  cases hr with
  | empty s n =>
    cases ha with
    | node e hs =>
      cases hs with
      | cons s1 hs =>
      cases hs
      rw [List.append_nil] at hn ⊢
      exact main e s1 hn (Or.inl rfl)
  | block s n l =>
    cases ha with
    | node e hs =>
      cases hs with
      | cons s1 hs =>
      cases hs
      rw [List.append_nil] at hn ⊢
      exact main e s1 hn (Or.inr ⟨l, rfl⟩)

theorem seed_frees (v : SeedV M) : FreesAt seedFree (SeedIs (V := V) v) := by
  intro h a t fp ha hn hr
  cases hr with
  | mk r1 r2 hx r3 r4 hbp =>
    rename_i sv xv ty ca cb _ _ _ _ _
    cases ha with
    | node e hs =>
      cases hs with
      | cons s1 hs =>
      cases hs with
      | cons s2 hs =>
      cases hs with
      | cons s3 hs =>
      cases hs with
      | cons s4 hs =>
      cases hs
      rename_i f1 _ f2 _ f3 _ f4
      simp only [List.append_nil, List.nodup_cons, List.nodup_append, List.mem_append] at hn
      obtain ⟨hn0, n1, ⟨n2, ⟨n3, n4, d34⟩, d2⟩, d1⟩ := hn
      have e1 := freeSet_frees _ (fun v _ => bits_frees v) _ _ _ _ s1 n1 r1
      have e2 := freeSet_frees _ (fun v _ => bytes_frees v) _ _ _ _ (slot_gone s2 (g := f1) fun x hx hy => d1 x hy x (Or.inl hx) rfl) n2 r2
      rw [gone_gone] at e2
      by_cases ht : isBrainpool ty
      · have e3 := freeSet_frees _ (fun v _ => bits_frees v) _ _ _ _ (slot_gone s3 (g := f1 ++ f2) fun x hx hy => by
          rcases List.mem_append.1 hy with hy | hy
          · exact d1 x hy x (Or.inr (Or.inl hx)) rfl
          · exact d2 x hy x (Or.inl hx) rfl) n3 r3
        have e4 := freeSet_frees _ (fun v _ => bits_frees v) _ _ _ _ (slot_gone s4 (g := f1 ++ f2 ++ f3) fun x hx hy => by
          rcases List.mem_append.1 hy with hy | hy
          · rcases List.mem_append.1 hy with hy | hy
            · exact d1 x hy x (Or.inr (Or.inr hx)) rfl
            · exact d2 x hy x (Or.inr hx) rfl
          · exact d34 x hy x hx rfl) n4 r4
        rw [gone_gone] at e3 e4
        have e5 := free_gone (h := h) (a := a) (by rw [e]; exact Option.some_ne_none _) (g := f1 ++ f2 ++ f3 ++ f4) (by clear * - hn0; simp; tauto)
        have ht' : ty = .brainpool ∨ ty = .brainpoolRfc := ht
        simp only [seedFree, e, Option.bind_eq_bind, e1, e2, if_pos ht', e3, e4, e5, Option.bind_some]
        congr 1
        exact gone_congr h fun x => by clear * -; simp; tauto
      · obtain ⟨rfl, rfl⟩ := hbp ht
        cases r3
        cases r4
        cases s3
        cases s4
        have e5 := free_gone (h := h) (a := a) (by rw [e]; exact Option.some_ne_none _) (g := f1 ++ f2) (by clear * - hn0; simp at hn0 ⊢; tauto)
        have ht' : ¬ (ty = .brainpool ∨ ty = .brainpoolRfc) := ht
        simp only [seedFree, e, Option.bind_eq_bind, e1, e2, if_neg ht', e5, Option.bind_some]
        congr 1
        exact gone_congr h fun x => by clear * -; simp; tauto

theorem curve_frees (hN : ∀ v m, N v m → NumIs v m) (v : CurveV V M) : FreesAt curveFree (CurveIs N v) := by
  intro h a t fp ha hn hr
  cases hr with
  | mk r1 r2 r3 r4 r5 r6 r7 hl =>
    cases ha with
    | node e hs =>
      cases hs with
      | cons s1 hs =>
      cases hs with
      | cons s2 hs =>
      cases hs with
      | cons s3 hs =>
      cases hs with
      | cons s4 hs =>
      cases hs with
      | cons s5 hs =>
      cases hs with
      | cons s6 hs =>
      cases hs with
      | cons s7 hs =>
      cases hs
      rename_i f1 _ f2 _ f3 _ f4 _ f5 _ f6 _ f7
      simp only [List.append_nil, List.nodup_cons, List.nodup_append, List.mem_append] at hn
      obtain ⟨hn0, n1, ⟨n2, ⟨n3, ⟨n4, ⟨n5, ⟨n6, n7, d6⟩, d5⟩, d4⟩, d3⟩, d2⟩, d1⟩ := hn
      have e1 := freeSet_frees _ (fun v _ => seed_frees v) _ _ _ _ s1 n1 r1
      have e7 := freeSet_frees _ (fun l hl' => array_frees l (fun v _ => subgroup_frees hN v) _ (hl l hl')) _ _ _ _ (slot_gone s7 (g := f1) fun x hx hy => d1 x hy x (by clear * - hx; tauto) rfl) n7 r7
      rw [gone_gone] at e7
      have e5 := unclone_frees hN _ _ _ _ _ (slot_gone s5 (g := f1 ++ f7) fun x hx hy => by
        simp only [List.mem_append] at hy
        rcases hy with hy | hy
        · exact d1 x hy x (by clear * - hx; tauto) rfl
        · exact d5 x hx x (by clear * - hy; tauto) rfl) n5 r5
      rw [gone_gone] at e5
      have e2 := unclone_frees hN _ _ _ _ _ (slot_gone s2 (g := f1 ++ f7 ++ f5) fun x hx hy => by
        simp only [List.mem_append] at hy
        rcases hy with (hy | hy) | hy
        · exact d1 x hy x (by clear * - hx; tauto) rfl
        · exact d2 x hx x (by clear * - hy; tauto) rfl
        · exact d2 x hx x (by clear * - hy; tauto) rfl) n2 r2
      rw [gone_gone] at e2
      have e3 := unclone_frees hN _ _ _ _ _ (slot_gone s3 (g := f1 ++ f7 ++ f5 ++ f2) fun x hx hy => by
        simp only [List.mem_append] at hy
        rcases hy with ((hy | hy) | hy) | hy
        · exact d1 x hy x (by clear * - hx; tauto) rfl
        · exact d3 x hx x (by clear * - hy; tauto) rfl
        · exact d3 x hx x (by clear * - hy; tauto) rfl
        · exact d2 x hy x (by clear * - hx; tauto) rfl) n3 r3
      rw [gone_gone] at e3
      have e4 := unclone_frees hN _ _ _ _ _ (slot_gone s4 (g := f1 ++ f7 ++ f5 ++ f2 ++ f3) fun x hx hy => by
        simp only [List.mem_append] at hy
        rcases hy with (((hy | hy) | hy) | hy) | hy
        · exact d1 x hy x (by clear * - hx; tauto) rfl
        · exact d4 x hx x (by clear * - hy; tauto) rfl
        · exact d4 x hx x (by clear * - hy; tauto) rfl
        · exact d2 x hy x (by clear * - hx; tauto) rfl
        · exact d3 x hy x (by clear * - hx; tauto) rfl) n4 r4
      rw [gone_gone] at e4
      have e6 := unclone_frees hN _ _ _ _ _ (slot_gone s6 (g := f1 ++ f7 ++ f5 ++ f2 ++ f3 ++ f4) fun x hx hy => by
        simp only [List.mem_append] at hy
        rcases hy with ((((hy | hy) | hy) | hy) | hy) | hy
        · exact d1 x hy x (by clear * - hx; tauto) rfl
        · exact d6 x hx x hy rfl
        · exact d5 x hy x (by clear * - hx; tauto) rfl
        · exact d2 x hy x (by clear * - hx; tauto) rfl
        · exact d3 x hy x (by clear * - hx; tauto) rfl
        · exact d4 x hy x (by clear * - hx; tauto) rfl) n6 r6
      rw [gone_gone] at e6
      have e8 := free_gone (h := h) (a := a) (by rw [e]; exact Option.some_ne_none _) (g := f1 ++ f7 ++ f5 ++ f2 ++ f3 ++ f4 ++ f6) (by clear * - hn0; simp; tauto)
      simp only [curveFree, e, Option.bind_eq_bind, e1, e7, e5, e2, e3, e4, e6, e8, Option.bind_some]
      congr 1
      exact gone_congr h fun x => by clear * -; simp; tauto

/-! ## The stack is reset -/

mutual
/-- nothing of the object is on the stack -/
inductive Off : Tree V M → Prop
  | node {d ms} : OffAll ms → Off (.node d ms)
inductive OffMember : Member V M → Prop
  | null : OffMember .null
  | ptr {t} : Off t → OffMember (.ptr t)
inductive OffAll : List (Member V M) → Prop
  | nil : OffAll []
  | cons {m ms} : OffMember m → OffAll ms → OffAll (m :: ms)
end

mutual
theorem wipe_at {h : Heap V M} : ∀ {a t fp}, At h a t fp → Off t → At (wipe h) a t fp
  | _, _, _, .node e hs, .node ho => .node (by rw [wipe, e]; rfl) (wipe_slots hs ho)
theorem wipe_slot {h : Heap V M} : ∀ {s m fp}, SlotAt h s m fp → OffMember m → SlotAt (wipe h) (match s with | .val _ => .null | s => s) m fp
  | _, _, _, .null, _ => .null
  | _, _, _, .ptr ht, .ptr ho => .ptr (wipe_at ht ho)
theorem wipe_slots {h : Heap V M} : ∀ {ss ms fp}, SlotsAt h ss ms fp → OffAll ms → SlotsAt (wipe h) (ss.map fun s => match s with | .val _ => .null | s => s) ms fp
  | _, _, _, .nil, _ => .nil
  | _, _, _, .cons h1 h2, .cons o1 o2 => .cons (wipe_slot h1 o1) (wipe_slots h2 o2)
end

theorem off_num {v : Option V} {m : Member V M} (h : Placed true v m) : OffMember m := by
  cases h with
  | null => exact .null
  | clone v => exact .ptr (.node .nil)

theorem off_opt {α : Type} {R : α → Tree V M → Prop} (hR : ∀ v t, R v t → Off t) {o : Option α} {m : Member V M} (h : OptIs R o m) : OffMember m := by
  cases h with
  | null => exact .null
  | ptr h => exact .ptr (hR _ _ h)

theorem off_each {α : Type} {R : α → Tree V M → Prop} (hR : ∀ v t, R v t → Off t) {o : List α} {m : List (Member V M)} (h : EachIs R o m) : OffAll m := by
  induction h with
  | nil => exact .nil
  | cons h _ ih => exact .cons (.ptr (hR _ _ h)) ih

theorem off_array {α : Type} {R : α → Tree V M → Prop} (hR : ∀ v t, R v t → Off t) (o : List α) (t : Tree V M) (h : ArrayIs R o t) : Off t := by
  cases h with
  | mk h => exact .node (off_each hR h)

theorem off_point (v : PointV V) (t : Tree V M) (h : PointIs (Placed true) v t) : Off t := by
  cases h with
  | mk h1 h2 h3 => exact .node (.cons (off_num h1) (.cons (off_num h2) (.cons (off_num h3) .nil)))

theorem off_subgroup (v : SubgroupV V) (t : Tree V M) (h : SubgroupIs (Placed true) v t) : Off t := by
  cases h with
  | mk h1 h2 => exact .node (.cons (off_opt off_point h1) (.cons (off_opt (off_array off_point) h2) .nil))

theorem off_bytes (v : List UInt8) (t : Tree V M) (h : BytesIs v t) : Off t := by
  cases h
  exact .node .nil

theorem off_bits (v : BitsV) (t : Tree V M) (h : BitsIs v t) : Off t := by
  cases h with
  | block => exact .node (.cons (.ptr (.node .nil)) .nil)
  | empty => exact .node (.cons .null .nil)

theorem off_seed (v : SeedV M) (t : Tree V M) (h : SeedIs v t) : Off t := by
  cases h with
  | mk h1 h2 h3 h4 h5 => exact .node (.cons (off_opt off_bits h1) (.cons (off_opt off_bytes h2) (.cons (off_opt off_bits h4) (.cons (off_opt off_bits h5) .nil))))

theorem off_curve (v : CurveV V M) (t : Tree V M) (h : CurveIs (Placed true) v t) : Off t := by
  cases h with
  | mk h1 h2 h3 h4 h5 h6 h7 =>
    exact .node (.cons (off_opt off_seed h1) (.cons (off_num h2) (.cons (off_num h3) (.cons (off_num h4) (.cons (off_num h5) (.cons (off_num h6)
      (.cons (off_opt (off_array off_subgroup) h7) .nil)))))))

theorem placed_num (c : Bool) (v : Option V) (m : Member V M) (h : Placed c v m) : NumIs v m := by
  cases h with
  | null => exact .null
  | stack v => exact .stack v
  | clone v => exact .clone v

/-! ## Another reading of the numbers -/

variable {N' : Option V → Member V M → Prop}

theorem opt_mono {α : Type} {R R' : α → Tree V M → Prop} (hR : ∀ v t, R v t → R' v t) {o : Option α} {m : Member V M} (h : OptIs R o m) : OptIs R' o m := by
  cases h with
  | null => exact .null
  | ptr h => exact .ptr (hR _ _ h)

theorem array_mono {α : Type} {R R' : α → Tree V M → Prop} (hR : ∀ v t, R v t → R' v t) (o : List α) (t : Tree V M) (h : ArrayIs R o t) : ArrayIs R' o t := by
  cases h with
  | mk h =>
    refine .mk ?_
    induction h with
    | nil => exact .nil
    | cons h _ ih => exact .cons (hR _ _ h) ih

theorem point_mono (hN : ∀ v m, N v m → N' v m) (v : PointV V) (t : Tree V M) (h : PointIs N v t) : PointIs N' v t := by
  cases h with
  | mk h1 h2 h3 => exact .mk (hN _ _ h1) (hN _ _ h2) (hN _ _ h3)

theorem subgroup_mono (hN : ∀ v m, N v m → N' v m) (v : SubgroupV V) (t : Tree V M) (h : SubgroupIs N v t) : SubgroupIs N' v t := by
  cases h with
  | mk h1 h2 h3 => exact .mk (opt_mono (point_mono hN) h1) (opt_mono (array_mono (point_mono hN)) h2) h3

theorem curve_mono (hN : ∀ v m, N v m → N' v m) (v : CurveV V M) (t : Tree V M) (h : CurveIs N v t) : CurveIs N' v t := by
  cases h with
  | mk h1 h2 h3 h4 h5 h6 h7 h8 =>
    exact .mk h1 (hN _ _ h2) (hN _ _ h3) (hN _ _ h4) (hN _ _ h5) (hN _ _ h6) (opt_mono (array_mono (subgroup_mono hN)) h7) h8

end Ecgen.Copy
