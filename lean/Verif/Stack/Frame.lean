import Verif.Stack.Search

/-!
# What a search leaves alone

A search never gives back numbers that were allocated before all the positions it has noted, and never releases clones that none of its
variables refers to.
-/

namespace Ecgen.Stack
open Ecgen.Engine Ecgen.Engine.Spec

/-- the blocks of `S` are the oldest ones and no noted position is before their end; the clones in `K` are there, and no variable refers to them -/
structure Fr (S : List Nat) (K : Nat → Prop) (m : Mem) : Prop where
  old : m.stack.take S.length = S
  mark : ∀ k, S.length ≤ m.mark k
  fresh : ∀ n ∈ m.clones, n < m.next
  kept : ∀ n, K n → n ∈ m.clones
  slot : ∀ x l n, m.slot x = some l → Id.cln n ∈ l → ¬ K n

namespace Fr
variable {S : List Nat} {K : Nat → Prop} {m : Mem}

theorem len (h : Fr S K m) : S.length ≤ m.stack.length := by
  have := congrArg List.length h.old
  rw [List.length_take] at this
  omega

theorem push (h : Fr S K m) (n : Nat) : Fr S K (m.push n) := by
  refine ⟨?_, h.mark, fun i hi => ?_, h.kept, h.slot⟩
  · simp only [Mem.push]
    rw [List.take_append_of_le_length h.len]
    exact h.old
  · exact Nat.lt_of_lt_of_le (h.fresh i hi) (Nat.le_add_right _ _)

theorem put (h : Fr S K m) (x : Slot) {v : Option (List Id)} (hv : ∀ l n, v = some l → Id.cln n ∈ l → ¬ K n) : Fr S K (m.put x v) := by
  refine ⟨h.old, h.mark, h.fresh, h.kept, fun y l n hy hl => ?_⟩
  simp only [Mem.put] at hy
  split at hy
  · exact hv l n hy hl
  · exact h.slot y l n hy hl

theorem release (h : Fr S K m) (k : Nat) : Fr S K (m.release k) := by
  refine ⟨?_, h.mark, h.fresh, h.kept, h.slot⟩
  simp only [Mem.release]
  rw [List.take_take, Nat.min_eq_left (h.mark k)]
  exact h.old

theorem save (h : Fr S K m) (k : Nat) : Fr S K { m with mark := fun j => if j = k then m.stack.length else m.mark j } := by
  refine ⟨h.old, fun j => ?_, h.fresh, h.kept, h.slot⟩
  simp only
  split
  · exact h.len
  · exact h.mark j

theorem ids (h : Fr S K m) (x : Slot) {n : Nat} (hn : Id.cln n ∈ m.ids x) : ¬ K n := by
  simp only [Mem.ids, List.mem_append] at hn
  rcases hn with hn | hn
  · cases e : m.slot x with
    | none => rw [e] at hn; simp at hn
    | some l => rw [e] at hn; exact h.slot x l n e hn
  · split at hn
    · cases e : m.slot .card with
      | none => rw [e] at hn; simp at hn
      | some l => rw [e] at hn; exact h.slot .card l n e hn
    · simp at hn

theorem new_not {k n i : Nat} (h : Id.cln i ∈ newIds k n) : False := by
  simp [newIds] at h

theorem putNew (h : Fr S K m) (x : Slot) (k n : Nat) : Fr S K (m.put x (some (newIds k n))) := by
  refine h.put x fun l i hl hi => ?_
  cases hl
  exact (new_not hi).elim

theorem copies (h : Fr S K m) (xs : List Slot) : Fr S K (m.copies xs) := by
  induction xs generalizing m with
  | nil => exact h
  | cons x l ih => exact ih ((h.push 1).putNew x _ _)

theorem gather (h : Fr S K m) (xs : List Slot) : ∀ l n, gather m xs = some l → Id.cln n ∈ l → ¬ K n := by
  induction xs with
  | nil => intro l n e; cases e
  | cons x xs ih =>
    intro l n e hn
    simp only [Stack.gather] at e
    split at e
    · exact ih l n e hn
    · rename_i v he hg
      cases e
      exact h.slot x _ n he hn
    · rename_i v v' he hg
      cases e
      rcases List.mem_append.mp hn with hn | hn
      · exact h.slot x _ n he hn
      · exact ih _ n hg hn

theorem not_new (h : Fr S K m) {n : Nat} (hn : m.next ≤ n) : ¬ K n :=
  fun hk => absurd (h.fresh n (h.kept n hk)) (Nat.not_lt.mpr hn)

/-- a new clone -/
theorem clone (h : Fr S K m) (n : Nat) (hn : m.next ≤ n) : Fr S K { m with clones := m.clones ++ [n], next := n + 1 } := by
  refine ⟨h.old, h.mark, fun i hi => ?_, fun i hi => List.mem_append_left _ (h.kept i hi), h.slot⟩
  rcases List.mem_append.mp hi with hi | hi
  · exact Nat.lt_of_lt_of_le (h.fresh i hi) (Nat.le_succ_of_le hn)
  · simp only [List.mem_singleton] at hi
    subst hi
    exact Nat.lt_succ_self _

/-- the clones a variable refers to are released -/
theorem unclone (h : Fr S K m) (x : Slot) : Fr S K (m.unclone ((m.slot x).getD [])) := by
  refine ⟨h.old, h.mark, fun i hi => h.fresh i (List.mem_filter.mp hi).1, fun i hi => ?_, h.slot⟩
  refine List.mem_filter.mpr ⟨h.kept i hi, ?_⟩
  rw [Bool.not_eq_true', ← Bool.not_eq_true, List.contains_iff_mem]
  intro hc
  cases e : m.slot x with
  | none => rw [e] at hc; simp [clonesOf] at hc
  | some l =>
    rw [e] at hc
    simp only [Option.getD_some, clonesOf, List.mem_filterMap] at hc
    obtain ⟨j, hj, hij⟩ := hc
    cases j with
    | stk _ => cases hij
    | cln n =>
      cases hij
      exact h.slot x l _ e hj hi

theorem noted (h : Fr S K m) (k : Nat) : Fr S K (m.noted k) := h.save k

end Fr

variable {S : List Nat} {K : Nat → Prop}

theorem Op.frame {rel : Bool} {n : Nat} {m m' : Mem} {o : Op} (h : Fr S K m) (e : o.exec rel n m = some m') : Fr S K m' := by
  cases o <;> simp only [Op.exec] at e
  case call d args =>
    split at e <;> cases e
    refine (h.push _).put d fun l i hl hi => ?_
    cases hl
    rcases List.mem_append.mp hi with hi | hi
    · exact (Fr.new_not hi).elim
    · obtain ⟨x, _, hx⟩ := List.mem_flatMap.mp hi
      exact h.ids x hx
  case copy d x => split at e <;> cases e; exact (h.push 1).putNew d _ _
  case part d x => split at e <;> cases e; exact h.put d (h.slot x)
  case const d => cases e; exact h.put d fun l i hl hi => by cases hl; simp at hi
  case set d xs => cases e; exact h.put d (h.gather xs)
  case null d => cases e; exact h.put d fun l i hl => by cases hl
  case read xs => split at e <;> cases e; exact h.push n
  case readIf x => split at e <;> cases e; exact h.push n
  case save k => cases e; exact h.save k
  case restore k => cases e; exact h.release k
  case keep k xs => split at e <;> cases e; exact (h.release k).copies xs
  case card d =>
    split at e
    · have hc := (h.push n).clone (m.next + n) (Nat.le_refl _)
      have hv : ∀ l i, some [Id.cln (m.next + n)] = some l → Id.cln i ∈ l → ¬ K i := by
        intro l i hl hi
        cases hl
        simp only [List.mem_singleton, Id.cln.injEq] at hi
        subst hi
        exact h.not_new (Nat.le_add_right _ _)
      split at e <;> cases e
      · exact (hc.put .card hv).put d hv
      · rename_i v hv'
        exact h.put d fun l i hl hi => h.slot .card l i (by rw [hv']; exact hl) hi
    · cases e
  case cacheGens d =>
    split at e <;> cases e
    have hc := (h.push n).clone (m.next + n) (Nat.le_refl _)
    refine (hc.put .card ?_).put d ?_
    · intro l i hl hi
      cases hl
      rcases List.mem_cons.mp hi with hi | hi
      · cases hi; exact h.not_new (Nat.le_add_right _ _)
      · cases e : m.slot .card with
        | none => rw [e] at hi; simp at hi
        | some v => rw [e] at hi; exact h.slot .card v i e hi
    · intro l i hl hi
      cases hl
      simp only [List.mem_singleton, Id.cln.injEq] at hi
      subst hi
      exact h.not_new (Nat.le_add_right _ _)
  case insert x =>
    split at e <;> cases e
    cases rel
    · exact h.put .card (h.slot x)
    · exact (h.unclone .card).put .card (h.slot x)
  case insertClone x =>
    split at e <;> cases e
    refine ((h.unclone .card).clone m.next (Nat.le_refl _)).put .card ?_
    intro l i hl hi
    cases hl
    simp only [List.mem_singleton, Id.cln.injEq] at hi
    subst hi
    exact h.not_new (Nat.le_refl _)
  case objFree =>
    split at e <;> cases e
    exact ((h.unclone .card).put .crv fun l i hl => by cases hl).put .card fun l i hl => by cases hl
  case statNew => cases e; exact ⟨h.old, h.mark, h.fresh, h.kept, h.slot⟩
  case statDrop => split at e <;> cases e; exact ⟨h.old, h.mark, h.fresh, h.kept, h.slot⟩
  case statRead => split at e <;> cases e; exact h.push n

/-- for all the ways a function may end -/
def Out.All (P : Mem → Prop) : Out → Prop
  | .norm m => P m
  | .ret _ m => P m
  | .cut m => P m
  | .ub => True

theorem times_frame {f : Nat → Mem → Out × Nat} (hf : ∀ k m, Fr S K m → (f k m).1.All (Fr S K)) :
    ∀ n k m, Fr S K m → (times f n k m).1.All (Fr S K) := by
  intro n
  induction n with
  | zero => intro k m h; exact h
  | succ n ih =>
    intro k m h
    have := hf k m h
    simp only [times]
    split
    · rename_i m' k' e
      rw [e] at this
      exact ih k' m' this
    · exact this

theorem exec_frame (rel : Bool) (t : Nat → Cell) (timed : Bool) :
    ∀ (p : Stmt) (k : Nat) (m : Mem), Fr S K m → (exec rel t timed p k m).1.All (Fr S K) := by
  intro p
  induction p with
  | skip => intro k m h; exact h
  | op o =>
    intro k m h
    simp only [exec]
    split
    · exact h.push _
    · split
      · rename_i m' e; exact Op.frame h e
      · trivial
  | seq p q ihp ihq =>
    intro k m h
    have := ihp k m h
    simp only [exec]
    split
    · rename_i m' k' e
      rw [e] at this
      exact ihq k' m' this
    · exact this
  | choice p q ihp ihq =>
    intro k m h
    simp only [exec]
    split
    · exact ihp _ m h
    · exact ihq _ m h
  | loop p ih => intro k m h; exact times_frame (fun k m h => ih k m h) _ _ m h
  | again p ih => intro k m h; exact times_frame (fun k m h => ih k m h) _ _ m h
  | ifClone x p q ihp ihq =>
    intro k m h
    simp only [exec]
    split
    · split
      · exact ihq _ m h
      · exact ihp _ m h
    · trivial
  | ifNull x p q ihp ihq =>
    intro k m h
    simp only [exec]
    split
    · exact ihp _ m h
    · exact ihq _ m h
  | ifStat p q ihp ihq =>
    intro k m h
    simp only [exec]
    split
    · exact ihp _ m h
    · exact ihq _ m h
  | ret d => intro k m h; exact h

/-- the same of a world -/
def WFr (S : List Nat) (K : Nat → Prop) (w : W) : Prop := ∀ m, w.mem = some m → Fr S K m

theorem call_frame (rel : Bool) (p : Stmt) {w : W} (h : WFr S K w) : WFr S K (call rel p w).1 := by
  intro m' e
  unfold call at e
  split at e
  · rename_i e0; rw [e0] at e; cases e
  · rename_i m hm
    have := exec_frame rel w.tape false p w.pos m (h m hm)
    split at e <;> rename_i he <;> rw [he] at this <;> cases e <;> exact this

theorem giveBack_frame (k : Nat) {w : W} (h : WFr S K w) : WFr S K (giveBack k w) := by
  intro m' e
  simp only [giveBack, Option.map_eq_some_iff] at e
  obtain ⟨m, hm, rfl⟩ := e
  exact (h m hm).release k

theorem genStage_frame (rel : Bool) (F : Fns) (s : Nat) {w : W} (h : WFr S K w) : WFr S K (genStage rel F s w).1 := by
  intro m' e
  unfold genStage at e
  split at e
  · rename_i e0; rw [e0] at e; cases e
  · rename_i m hm
    have := exec_frame rel w.tape true (F.gen s) w.pos _ ((h m hm).noted s)
    split at e <;> rename_i he <;> rw [he] at this <;> cases e <;> exact this

theorem checkStage_frame (rel : Bool) (F : Fns) (s : Nat) {w : W} (h : WFr S K w) : WFr S K (checkStage rel F s w).1 :=
  giveBack_frame _ (call_frame rel _ h)

theorem cleaned_frame (rel : Bool) (F : Fns) (n : Nat) : ∀ (s : Nat) {w : W}, WFr S K w → WFr S K (cleaned (setup rel F) n s w) := by
  intro s
  induction s with
  | zero => intro w h; exact h
  | succ s ih =>
    intro w h
    simp only [cleaned]
    split
    · exact ih (call_frame rel _ h)
    · exact h

theorem fails_frame {rel : Bool} {F : Fns} {start s : Nat} {w w' : W} {d : Int} (h : WFr S K w) (hf : Fails (setup rel F) start s w d w') :
    WFr S K w' := by
  rcases hf with ⟨hg, hd⟩ | ⟨hg, hd⟩ | ⟨w1, g, hg, hgd, hr⟩
  · have hg' : genStage rel F s w = (w', .timeout) := hg
    have := genStage_frame rel F s h
    rw [hg'] at this; exact this
  · have hg' : genStage rel F s w = (w', .ret d) := hg
    have := genStage_frame rel F s h
    rw [hg'] at this; exact this
  · have hg' : genStage rel F s w = (w1, .ret g) := hg
    have h1 := genStage_frame rel F s h
    rw [hg'] at h1
    have hr' : Rejects [checkStage rel F s] w1 d w' := hr
    cases hr' with
    | here h5 => exact checkStage_frame rel F s h1
    | later _ h5 => cases h5

theorem step_frame (rel : Bool) (F : Fns) (start stop : Nat) (retry : Int) (st : St W) (hge : start ≤ st.state) (hlt : st.state < stop)
    (h : WFr S K st.w) :
    (∀ st', step rel F start retry st = .inl st' → start ≤ st'.state ∧ WFr S K st'.w) ∧
    (∀ st', step rel F start retry st = .inr st' → WFr S K st'.w) := by
  refine step_inv rel F start stop retry (fun _ w => WFr S K w) (fun w => WFr S K w) ?_ ?_ ?_ st hge hlt h
  · rintro s w d w' - - hw ⟨w1, hg, hd, hp⟩
    have hg' : genStage rel F s w = (w1, .ret d) := hg
    have h1 := genStage_frame rel F s hw
    rw [hg'] at h1
    have hp' : Passes [checkStage rel F s] w1 w' := hp
    cases hp' with
    | cons h2 h3 => cases h3; exact checkStage_frame rel F s h1
  · rintro s w d w' - - hw hf - - -
    exact giveBack_frame _ (cleaned_frame rel F _ _ (fails_frame hw hf))
  · rintro s w d w' - - hw hf -
    exact fails_frame hw hf

theorem reaches_frame {rel : Bool} {F : Fns} {start stop : Nat} {retry : Int} {st st' : St W} (hge : start ≤ st.state) (h : WFr S K st.w)
    (hr : Reaches rel F start stop retry st st') : start ≤ st'.state ∧ WFr S K st'.w := by
  induction hr with
  | refl => exact ⟨hge, h⟩
  | next _ hlt hst ih => exact (step_frame rel F start stop retry _ ih.1 hlt ih.2).1 _ hst

end Ecgen.Stack
