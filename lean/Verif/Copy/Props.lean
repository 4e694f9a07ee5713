import Verif.Copy.Lemmas

/-!
# Copies of curves and their release (C97)
-/

namespace Ecgen.Copy

variable {V M : Type}

/-! ## An address stands for one curve -/

mutual
theorem at_unique {h : Heap V M} : ∀ {a t t' fp fp'}, At h a t fp → At h a t' fp' → t = t' ∧ fp = fp'
  | _, _, _, _, _, .node e hs, .node e' hs' => by
    rw [e] at e'
    cases e'
    obtain ⟨rfl, rfl⟩ := slots_unique hs hs'
    exact ⟨rfl, rfl⟩
theorem slot_unique {h : Heap V M} : ∀ {s m m' fp fp'}, SlotAt h s m fp → SlotAt h s m' fp' → m = m' ∧ fp = fp'
  | _, _, _, _, _, .null, .null => ⟨rfl, rfl⟩
  | _, _, _, _, _, .val _, .val _ => ⟨rfl, rfl⟩
  | _, _, _, _, _, .ptr ha, .ptr ha' => by
    obtain ⟨rfl, rfl⟩ := at_unique ha ha'
    exact ⟨rfl, rfl⟩
theorem slots_unique {h : Heap V M} : ∀ {s m m' fp fp'}, SlotsAt h s m fp → SlotsAt h s m' fp' → m = m' ∧ fp = fp'
  | _, _, _, _, _, .nil, .nil => ⟨rfl, rfl⟩
  | _, _, _, _, _, .cons h1 h2, .cons h1' h2' => by
    obtain ⟨rfl, rfl⟩ := slot_unique h1 h1'
    obtain ⟨rfl, rfl⟩ := slots_unique h2 h2'
    exact ⟨rfl, rfl⟩
end

theorem num_unique {v v' : Option V} {m : Member V M} (h : NumIs v m) (h' : NumIs v' m) : v = v' := by
  cases h <;> cases h' <;> rfl

theorem opt_unique {α : Type} {R : α → Tree V M → Prop} (hR : ∀ v v' t, R v t → R v' t → v = v') {o o' : Option α} {m : Member V M} (h : OptIs R o m) (h' : OptIs R o' m) :
    o = o' := by
  cases h with
  | null => cases h'; rfl
  | ptr h => cases h' with
    | ptr h' => rw [hR _ _ _ h h']

theorem array_unique {α : Type} {R : α → Tree V M → Prop} (hR : ∀ v v' t, R v t → R v' t → v = v') (o o' : List α) (t : Tree V M) (h : ArrayIs R o t) (h' : ArrayIs R o' t) :
    o = o' := by
  cases h with
  | mk h => cases h' with
    | mk h' =>
      induction h generalizing o' with
      | nil => cases h'; rfl
      | cons h _ ih => cases h' with
        | cons h' hs => rw [hR _ _ _ h h', ih _ hs]

theorem point_unique (v v' : PointV V) (t : Tree V M) (h : PointIs NumIs v t) (h' : PointIs NumIs v' t) : v = v' := by
  cases h with
  | mk h1 h2 h3 => cases h' with
    | mk k1 k2 k3 => rw [num_unique h1 k1, num_unique h2 k2, num_unique h3 k3]

theorem subgroup_unique (v v' : SubgroupV V) (t : Tree V M) (h : SubgroupIs NumIs v t) (h' : SubgroupIs NumIs v' t) : v = v' := by
  cases h with
  | mk h1 h2 => cases h' with
    | mk k1 k2 => rw [opt_unique point_unique h1 k1, opt_unique (array_unique point_unique) h2 k2]

theorem bytes_unique (v v' : List UInt8) (t : Tree V M) (h : BytesIs v t) (h' : BytesIs v' t) : v = v' := by
  cases h
  cases h'
  rfl

theorem bits_unique (v v' : BitsV) (t : Tree V M) (h : BitsIs v t) (h' : BitsIs v' t) : v = v' := by
  obtain ⟨s, n, l⟩ := v
  cases h with
  | block =>
    generalize ht : (Tree.node (Data.bits s n l.length) [Member.ptr (Tree.node (Data.bytes l) [])] : Tree V M) = t at h'
    cases h' with
    | block s' n' l' =>
      simp only [Tree.node.injEq, Data.bits.injEq, List.cons.injEq, Member.ptr.injEq, Data.bytes.injEq] at ht
      rw [ht.1.1, ht.1.2.1, ht.2.1.1]
    | empty s' n' => simp at ht
  | empty =>
    generalize ht : (Tree.node (Data.bits s n 0) [Member.null] : Tree V M) = t at h'
    cases h' with
    | block s' n' l' => simp at ht
    | empty s' n' =>
      simp only [Tree.node.injEq, Data.bits.injEq] at ht
      rw [ht.1.1, ht.1.2.1]

theorem seed_unique (v v' : SeedV M) (t : Tree V M) (h : SeedIs v t) (h' : SeedIs v' t) : v = v' := by
  cases h with
  | mk h1 h2 _ h3 h4 => cases h' with
    | mk k1 k2 _ k3 k4 => rw [opt_unique bits_unique h1 k1, opt_unique bytes_unique h2 k2, opt_unique bits_unique h3 k3, opt_unique bits_unique h4 k4]

theorem curve_unique (v v' : CurveV V M) (t : Tree V M) (h : CurveIs NumIs v t) (h' : CurveIs NumIs v' t) : v = v' := by
  cases h with
  | mk h1 h2 h3 h4 h5 h6 h7 => cases h' with
    | mk k1 k2 k3 k4 k5 k6 k7 =>
      rw [opt_unique seed_unique h1 k1, num_unique h2 k2, num_unique h3 k3, num_unique h4 k4, num_unique h5 k5, num_unique h6 k6,
        opt_unique (array_unique subgroup_unique) h7 k7]

/-- the curve at an address and the blocks it occupies are determined by the heap -/
theorem holds_unique {h : Heap V M} {a : Nat} {v v' : CurveV V M} {fp fp' : List Nat} (hv : Holds h a v fp) (hv' : Holds h a v' fp') : v = v' ∧ fp = fp' := by
  obtain ⟨t, h1, h2, -⟩ := hv
  obtain ⟨t', k1, k2, -⟩ := hv'
  obtain ⟨rfl, rfl⟩ := at_unique h1 k1
  exact ⟨curve_unique v v' _ h2 k2, rfl⟩

theorem placed_holds {clone : Bool} {h : Heap V M} {a : Nat} {v : CurveV V M} {fp : List Nat} (hv : HoldsPlaced clone h a v fp) : Holds h a v fp := by
  obtain ⟨t, h1, h2, h3⟩ := hv
  exact ⟨t, h1, curve_mono (placed_num clone) v t h2, h3⟩

/-! ## Theorems -/

/-- Copying or cloning a curve always succeeds and reads nothing outside of it; the new curve is in blocks of its own, all that was on the heap is as it
was, what is printed of the curve is the same for both, and so is the curve PARI computes with. A copy has its numbers on the stack, a clone has none
there.

Partial: `Faithful`, that the new curve is the same in all, fails (`copy_faithful_false`): the metadata and the type of the seed are not copied. -/
theorem copy_partial {A : Heap V M → Nat} (hA : Allocator A) (clone : Bool) {h : Heap V M} (hb : Bounded h) {a : Nat} {v : CurveV V M} {fp : List Nat} (hv : Holds h a v fp) :
    ∃ h' a' v' fp', curveNew A clone h a = some (h', a') ∧ HoldsPlaced clone h' a' v' fp' ∧ Holds h' a v fp ∧ (∀ x, h x ≠ none → h' x = h x ∧ x ∉ fp') ∧
      shownPart v' = shownPart v ∧ v'.curve = v.curve ∧ v'.seed.map SeedV.hash = v.seed.map SeedV.hash := by
  obtain ⟨t, h1, h2, h3⟩ := hv
  obtain ⟨h', a', t', fp', e, hg, ha, hr⟩ := curve_copies hA (fun _ _ h => h) clone v h hb a t fp h1 h2
  refine ⟨h', a', copied v, fp', e, ⟨t', ha, hr, hg.nodup⟩, ⟨t, hg.at h1, h2, h3⟩, fun x hx => ⟨hg.old x hx, fun hy => hx (hg.fresh x hy)⟩, ?_, rfl, ?_⟩
  · simp [shownPart, copied, seedCopied, Function.comp_def]
  · simp [copied, seedCopied, Function.comp_def]

/-- a curve with metadata is not copied faithfully, nor is one whose seed has a type -/
theorem copy_unfaithful {A : Heap V M → Nat} (hA : Allocator A) (clone : Bool) {h : Heap V M} (hb : Bounded h) {a : Nat} {v : CurveV V M} {fp : List Nat} (hv : Holds h a v fp)
    (hm : v.info ≠ none ∨ ∃ s, v.seed = some s ∧ s.type ≠ .none) :
    ∃ h' a', curveNew A clone h a = some (h', a') ∧ ∀ v' fp', Holds h' a' v' fp' → ¬ Faithful v v' := by
  obtain ⟨t, h1, h2, h3⟩ := hv
  obtain ⟨h', a', t', fp', e, hg, ha, hr⟩ := curve_copies hA (fun _ _ h => h) clone v h hb a t fp h1 h2
  refine ⟨h', a', e, fun v' fp'' hv' hf => ?_⟩
  have := (holds_unique (placed_holds ⟨t', ha, hr, hg.nodup⟩) hv').1
  unfold Faithful at hf
  subst hf
  rcases hm with hm | ⟨s, hs, ht⟩
  · exact hm (by rw [← this]; rfl)
  · have h4 : (copied v').seed = some s := (congrArg CurveV.seed this).trans hs
    rw [copied, hs] at h4
    exact ht (by rw [← Option.some.inj h4]; rfl)

/-- releasing a curve gives back exactly the blocks it occupies, and touches nothing that is not its own -/
theorem release {h : Heap V M} {a : Nat} {v : CurveV V M} {fp : List Nat} (hv : Holds h a v fp) : curveFree h a = some (gone h fp) := by
  obtain ⟨t, h1, h2, h3⟩ := hv
  exact curve_frees (fun _ _ h => h) v h a t fp h1 h3 h2

/-- releasing a curve a second time is undefined -/
theorem release_twice {h : Heap V M} {a : Nat} {v : CurveV V M} {fp : List Nat} (hv : Holds h a v fp) : (curveFree h a).bind (fun h => curveFree h a) = none := by
  rw [release hv, Option.bind_some]
  obtain ⟨t, h1, h2, h3⟩ := hv
  have : gone h fp a = none := by
    cases h1
    simp [gone]
  rw [curveFree, this]

/-- a copy that is released again leaves the heap as it was -/
theorem copy_release {A : Heap V M → Nat} (hA : Allocator A) (clone : Bool) {h : Heap V M} (hb : Bounded h) {a : Nat} {v : CurveV V M} {fp : List Nat} (hv : Holds h a v fp) :
    ((curveNew A clone h a).bind fun r => curveFree r.1 r.2) = some h := by
  obtain ⟨t, h1, h2, h3⟩ := hv
  obtain ⟨h', a', t', fp', e, hg, ha, hr⟩ := curve_copies hA (fun _ _ h => h) clone v h hb a t fp h1 h2
  rw [e, Option.bind_some, release (placed_holds ⟨t', ha, hr, hg.nodup⟩)]
  congr 1
  funext x
  by_cases hx : x ∈ fp'
  · rw [gone, if_pos hx, hg.fresh x hx]
  · rw [gone, if_neg hx]
    by_cases hy : h x = none
    · rw [hy]
      by_contra hc
      rcases hg.only x hc with k | k
      · exact k hy
      · exact hx k
    · exact hg.old x hy

/-- the original can be released, and the copy is as it was -/
theorem copy_outlives {A : Heap V M → Nat} (hA : Allocator A) (clone : Bool) {h : Heap V M} (hb : Bounded h) {a : Nat} {v : CurveV V M} {fp : List Nat} (hv : Holds h a v fp) :
    ∃ h' a' h'' v' fp', curveNew A clone h a = some (h', a') ∧ curveFree h' a = some h'' ∧ HoldsPlaced clone h' a' v' fp' ∧ HoldsPlaced clone h'' a' v' fp' := by
  obtain ⟨h', a', v', fp', e, k1, k2, k3, -⟩ := copy_partial hA clone hb hv
  refine ⟨h', a', _, v', fp', e, release k2, k1, ?_⟩
  obtain ⟨t, h1, h2, h3⟩ := k1
  obtain ⟨t0, a1, -⟩ := hv
  exact ⟨t, at_frame h1 fun x hx => if_neg fun hy => (k3 x (at_live a1 x hy)).2 hx, h2, h3⟩

/-- a clone is as it was when the stack of PARI is reset -/
theorem clone_survives {h : Heap V M} {a : Nat} {v : CurveV V M} {fp : List Nat} (hv : HoldsPlaced true h a v fp) : HoldsPlaced true (wipe h) a v fp := by
  obtain ⟨t, h1, h2, h3⟩ := hv
  exact ⟨t, wipe_at h1 (off_curve v t h2), h2, h3⟩

/-- a copy with a number in it is not -/
theorem copy_perishes {h : Heap V M} {a : Nat} {v : CurveV V M} {fp : List Nat} (hv : HoldsPlaced false h a v fp) (hf : v.field ≠ none) : ¬ ∃ fp', Holds (wipe h) a v fp' := by
  rintro ⟨fp', t', k1, k2, -⟩
  obtain ⟨t, h1, h2, h3⟩ := hv
  cases h2 with
  | mk r1 r2 r3 r4 r5 r6 r7 =>
    cases r2 with
    | null => exact hf rfl
    | stack f =>
      cases h1 with
      | node e hs =>
        cases hs with
        | cons s1 hs => cases hs with
          | cons s2 hs =>
            cases s2
            cases k2 with
            | mk q1 q2 =>
              cases k1 with
              | node e' hs' =>
                rw [wipe, e] at e'
                simp only [Option.map_some, Option.some.injEq, Cell.mk.injEq] at e'
                cases hs' with
                | cons p1 hs' => cases hs' with
                  | cons p2 hs' =>
                    simp only [List.map_cons, List.cons.injEq] at e'
                    rw [← e'.2.2.1] at p2
                    cases p2
                    cases q2

/-! ## Concrete cases -/

/-- an allocator -/
noncomputable def someAllocator (h : Heap V M) : Nat := by
  classical exact if hb : Bounded h then hb.choose else 0

theorem someAllocator_ok : Allocator (someAllocator : Heap V M → Nat) := by
  intro h hb
  rw [someAllocator, dif_pos hb]
  exact hb.choose_spec _ (Nat.le_refl _)

/-- a curve with a seed of ANSI, metadata, numbers of which some are clones, a generator and a point of small order -/
def heapC : Heap Nat Nat := fun x =>
  if x = 0 then some ⟨.curve 1 (some 5), [.ptr 1, .val 23, .val 1, .ptr 4, .val 77, .val 28, .ptr 5]⟩
  else if x = 1 then some ⟨.seed .ansi (some 9), [.ptr 2, .null, .null, .null]⟩
  else if x = 2 then some ⟨.bits false 16 2, [.ptr 3]⟩
  else if x = 3 then some ⟨.bytes [171, 205], []⟩
  else if x = 4 then some ⟨.num 13, []⟩
  else if x = 5 then some ⟨.array, [.ptr 6]⟩
  else if x = 6 then some ⟨.subgroup 1, [.ptr 7, .ptr 8]⟩
  else if x = 7 then some ⟨.point, [.val 100, .val 28, .val 1]⟩
  else if x = 8 then some ⟨.array, [.ptr 9]⟩
  else if x = 9 then some ⟨.point, [.val 101, .ptr 10, .null]⟩
  else if x = 10 then some ⟨.num 2, []⟩
  else none

def curveC : CurveV Nat Nat :=
  ⟨some ⟨some ⟨false, 16, [171, 205]⟩, none, .ansi, (none, none), some 9⟩, some 23, some 1, some 13, some 77, some 28,
    some [⟨some ⟨some 100, some 28, some 1⟩, some [⟨some 101, some 2, none⟩]⟩], some 5⟩

theorem heapC_bounded : Bounded heapC := ⟨11, fun x hx => by
  unfold heapC
  repeat rw [if_neg (by omega)]⟩

theorem heapC_holds : Holds heapC 0 curveC [0, 1, 2, 3, 4, 5, 6, 7, 8, 9, 10] := by
  refine ⟨_, .node (ss := [.ptr 1, .val 23, .val 1, .ptr 4, .val 77, .val 28, .ptr 5]) rfl
    (.cons (.ptr (.node rfl (.cons (.ptr (.node rfl (.cons (.ptr (.node rfl .nil)) .nil))) (.cons .null (.cons .null (.cons .null .nil))))))
    (.cons (.val 23) (.cons (.val 1) (.cons (.ptr (.node rfl .nil)) (.cons (.val 77) (.cons (.val 28)
    (.cons (.ptr (.node rfl (.cons (.ptr (.node rfl (.cons (.ptr (.node rfl (.cons (.val 100) (.cons (.val 28) (.cons (.val 1) .nil)))))
      (.cons (.ptr (.node rfl (.cons (.ptr (.node rfl (.cons (.val 101) (.cons (.ptr (.node rfl .nil)) (.cons .null .nil))))) .nil))) .nil)))) .nil))) .nil))))))),
    .mk (.ptr (.mk (.ptr (.block false 16 [171, 205])) .null (by simp) .null .null (fun _ => ⟨rfl, rfl⟩))) (.stack 23) (.stack 1) (.clone 13) (.stack 77) (.stack 28)
      (.ptr (.mk (.cons (.mk (.ptr (.mk (.stack 100) (.stack 28) (.stack 1))) (.ptr (.mk (.cons (.mk (.stack 101) (.clone 2) .null) .nil))) (by rintro l ⟨⟩; rfl)) .nil)))
      (by rintro l ⟨⟩; rfl), by decide⟩

/-- copies are not faithful -/
theorem copy_faithful_false : ∃ (h : Heap Nat Nat) (a : Nat) (v : CurveV Nat Nat) (fp : List Nat), Bounded h ∧ Holds h a v fp ∧ ∀ (A : Heap Nat Nat → Nat), Allocator A → ∀ clone,
    ∃ h' a', curveNew A clone h a = some (h', a') ∧ ∀ v' fp', Holds h' a' v' fp' → ¬ Faithful v v' :=
  ⟨heapC, 0, curveC, _, heapC_bounded, heapC_holds, fun _ hA clone => copy_unfaithful hA clone heapC_bounded heapC_holds (Or.inl (by decide))⟩

/-- the hypotheses are met, and a copy of this curve perishes with the stack while a clone does not -/
theorem copy_met : ∃ (h : Heap Nat Nat) (a : Nat) (v : CurveV Nat Nat) (fp : List Nat), Allocator (someAllocator : Heap Nat Nat → Nat) ∧ Bounded h ∧ Holds h a v fp ∧
    v.seed ≠ none ∧ v.generators ≠ none ∧
    (∃ h' a' v' fp', curveNew someAllocator true h a = some (h', a') ∧ Holds (wipe h') a' v' fp' ∧ shownPart v' = shownPart v) ∧
    (∃ h' a' v' fp', curveNew someAllocator false h a = some (h', a') ∧ Holds h' a' v' fp' ∧ ¬ ∃ fp', Holds (wipe h') a' v' fp') := by
  refine ⟨heapC, 0, curveC, _, someAllocator_ok, heapC_bounded, heapC_holds, by simp [curveC], by simp [curveC], ?_, ?_⟩
  · obtain ⟨h', a', v', fp', e, k, -, -, s, -⟩ := copy_partial someAllocator_ok true heapC_bounded heapC_holds
    exact ⟨h', a', v', fp', e, placed_holds (clone_survives k), s⟩
  · obtain ⟨h', a', v', fp', e, k, -, -, s, -⟩ := copy_partial someAllocator_ok false heapC_bounded heapC_holds
    refine ⟨h', a', v', fp', e, placed_holds k, copy_perishes k ?_⟩
    have : v'.field = curveC.field := by
      have := congrArg (fun x => x.2.1) s
      simp only [shownPart, List.cons.injEq] at this
      exact this.1
    rw [this]
    simp [curveC]

end Ecgen.Copy
