import Verif.Tables.Model

/-!
# Lemmas about the tables of a search on the heap
-/

namespace Ecgen.Tables

open Ecgen.Cli

/-! ## Heaps -/

theorem set_same (h : Heap) (a : Nat) (b : Option Block) : h.set a b a = b := by simp [Heap.set]

theorem set_other (h : Heap) {a x : Nat} (b : Option Block) (e : x ≠ a) : h.set a b x = h x := by simp [Heap.set, e]

theorem set_bounded {h : Heap} (hb : Bounded h) (a : Nat) (b : Option Block) : Bounded (h.set a b) := by
  obtain ⟨n, hn⟩ := hb
  refine ⟨n + a + 1, fun x hx => ?_⟩
  rw [set_other _ _ (by omega)]
  exact hn x (by omega)

theorem fresh_ne {A : Heap → Nat} (hA : Allocator A) {h : Heap} (hb : Bounded h) {x : Nat} (hx : h x ≠ none) : x ≠ A h := by
  intro e
  rw [e] at hx
  exact hx (hA h hb)

theorem Owns.frame {h h' : Heap} {w : Which} {e : Option Nat} {fp : List Nat} (ho : Owns h w e fp) (hf : ∀ x ∈ fp, h' x = h x) : Owns h' w e fp := by
  cases ho with
  | null => exact .null _
  | checks ha hk ne => exact .checks ((hf _ (by simp)).trans ha) ((hf _ (by simp)).trans hk) ne
  | plain hw ha => exact .plain hw ((hf _ (by simp)).trans ha)
  | both hw ha hk ne => exact .both hw ((hf _ (by simp)).trans ha) (by rw [hf _ (by simp)]; exact hk) ne

theorem Owns.used {h : Heap} {w : Which} {e : Option Nat} {fp : List Nat} (ho : Owns h w e fp) : ∀ x ∈ fp, h x ≠ none := by
  cases ho with
  | null => simp
  | checks ha hk ne =>
    intro x hx
    simp only [List.mem_cons, List.not_mem_nil, or_false] at hx
    rcases hx with rfl | rfl
    · rw [ha]; simp
    · rw [hk]; simp
  | plain hw ha =>
    intro x hx
    simp only [List.mem_cons, List.not_mem_nil, or_false] at hx
    rw [hx, ha]; simp
  | both hw ha hk ne =>
    intro x hx
    simp only [List.mem_cons, List.not_mem_nil, or_false] at hx
    rcases hx with rfl | rfl
    · rw [ha]; simp
    · exact hk

/-- `Held`, and apart from these blocks the heap is as it was -/
structure Inv (h0 h : Heap) (t : Tables) (fp : Which → Stage → List Nat) : Prop extends Held h t fp where
  fresh : ∀ w s x, x ∈ fp w s → h0 x = none
  rest : ∀ x, (∀ w s, x ∉ fp w s) → h x = h0 x
  bounded : Bounded h

theorem stages_all (s : Stage) : s ∈ stages := by cases s <;> simp [stages]

theorem mem_allOf {fp : Which → Stage → List Nat} {x : Nat} : x ∈ allOf fp ↔ ∃ w s, x ∈ fp w s := by
  simp only [allOf, List.mem_append, List.mem_flatMap]
  constructor
  · rintro (⟨s, -, h⟩ | ⟨s, -, h⟩ | ⟨s, -, h⟩)
    · exact ⟨_, s, h⟩
    · exact ⟨_, s, h⟩
    · exact ⟨_, s, h⟩
  · rintro ⟨w, s, h⟩
    cases w
    · exact .inl ⟨s, stages_all s, h⟩
    · exact .inr (.inl ⟨s, stages_all s, h⟩)
    · exact .inr (.inr ⟨s, stages_all s, h⟩)

/-- the blocks of an entry that is set -/
def place {α : Type} (t : Which → Stage → α) (w : Which) (s : Stage) (p : α) : Which → Stage → α := fun v u => if v = w ∧ u = s then p else t v u

theorem place_same {α : Type} (t : Which → Stage → α) (w : Which) (s : Stage) (p : α) : place t w s p w s = p := by simp [place]

theorem place_other {α : Type} (t : Which → Stage → α) {w v : Which} {s u : Stage} (p : α) (e : ¬ (v = w ∧ u = s)) : place t w s p v u = t v u := by simp [place, e]

theorem Inv.put {h0 h h' : Heap} {t : Tables} {fp : Which → Stage → List Nat} (hi : Inv h0 h t fp) {w : Which} {s : Stage} (hn : t w s = none) {a : Nat} {new : List Nat}
    (ho : Owns h' w (some a) new) (hnew : ∀ x ∈ new, h x = none) (hold : ∀ x, x ∉ new → h' x = h x) (hb : Bounded h') :
    Inv h0 h' (t.put w s (some a)) (place fp w s new) := by
  have hfree : ∀ x ∈ new, ∀ v u, x ∉ fp v u := fun x hx v u hu => (hi.owns v u).used x hu (hnew x hx)
  have hempty : fp w s = [] := by
    have := hi.owns w s
    rw [hn] at this
    generalize fp w s = l at this
    cases this
    rfl
  refine ⟨⟨fun v u => ?_, fun v u v' u' x h1 h2 => ?_⟩, fun v u x hx => ?_, fun x hx => ?_, hb⟩
  · by_cases e : v = w ∧ u = s
    · obtain ⟨rfl, rfl⟩ := e
      rw [place_same]
      simpa [Tables.put] using ho
    · rw [place_other _ _ e]
      have h1 : t.put w s (some a) v u = t v u := by simp [Tables.put, e]
      rw [h1]
      exact (hi.owns v u).frame fun x hx => hold x fun hx' => hfree x hx' v u hx
  · by_cases e : v = w ∧ u = s
    · by_cases e' : v' = w ∧ u' = s
      · exact ⟨e.1.trans e'.1.symm, e.2.trans e'.2.symm⟩
      · obtain ⟨rfl, rfl⟩ := e
        rw [place_same] at h1
        rw [place_other _ _ e'] at h2
        exact absurd h2 (hfree x h1 _ _)
    · rw [place_other _ _ e] at h1
      by_cases e' : v' = w ∧ u' = s
      · obtain ⟨rfl, rfl⟩ := e'
        rw [place_same] at h2
        exact absurd h1 (hfree x h2 _ _)
      · rw [place_other _ _ e'] at h2
        exact hi.apart _ _ _ _ x h1 h2
  · by_cases e : v = w ∧ u = s
    · obtain ⟨rfl, rfl⟩ := e
      rw [place_same] at hx
      rw [← hi.rest x (hfree x hx)]
      exact hnew x hx
    · rw [place_other _ _ e] at hx
      exact hi.fresh v u x hx
  · have h1 : x ∉ new := by
      have := hx w s
      rwa [place_same] at this
    rw [hold x h1]
    refine hi.rest x fun v u hu => ?_
    by_cases e : v = w ∧ u = s
    · obtain ⟨rfl, rfl⟩ := e
      rw [hempty] at hu
      cases hu
    · exact hx v u (by rw [place_other _ _ e]; exact hu)

/-! ## Reading in a heap that grew -/

/-- all that is in use is unchanged -/
def Le (h h' : Heap) : Prop := ∀ x, h x ≠ none → h' x = h x

theorem Le.refl (h : Heap) : Le h h := fun _ _ => rfl

theorem Le.trans {h h' h'' : Heap} (h1 : Le h h') (h2 : Le h' h'') : Le h h'' := fun x hx => by
  rw [h2 x (by rw [h1 x hx]; exact hx), h1 x hx]

theorem readChecks_mono {h h' : Heap} (hle : Le h h') {e : Option Nat} {l : List Check} (hr : readChecks h e = some l) : readChecks h' e = some l := by
  cases e with
  | none => exact hr
  | some a =>
    simp only [readChecks] at hr ⊢
    cases ha : h a with
    | none => rw [ha] at hr; cases hr
    | some b =>
      rw [hle a (by rw [ha]; simp), ha]
      rw [ha] at hr
      cases b with
      | check n k =>
        cases k with
        | none => cases hr
        | some k =>
          simp only at hr ⊢
          cases hk : h k with
          | none => rw [hk] at hr; cases hr
          | some b =>
            rw [hle k (by rw [hk]; simp), hk]
            rw [hk] at hr
            exact hr
      | checks l => cases hr
      | arg p n k => cases hr
      | text s => cases hr
      | counter n => cases hr

theorem follow_mono {c : Config} {h h' : Heap} (hle : Le h h') {p : Ptr} {v : Arg} (hr : follow c h p = some v) : follow c h' p = some v := by
  cases p with
  | heap a =>
    simp only [follow] at hr ⊢
    cases ha : h a with
    | none => rw [ha] at hr; cases hr
    | some b =>
      rw [hle a (by rw [ha]; simp), ha]
      rw [ha] at hr
      exact hr
  | null => exact hr
  | amount => exact hr
  | cofactor => exact hr
  | smooth => exact hr
  | hex => exact hr

theorem readArg_mono {c : Config} {h h' : Heap} (hle : Le h h') {e : Option Nat} {v : Option Arg} (hr : readArg c h e = some v) : readArg c h' e = some v := by
  cases e with
  | none => exact hr
  | some a =>
    simp only [readArg] at hr ⊢
    cases ha : h a with
    | none => rw [ha] at hr; cases hr
    | some b =>
      rw [hle a (by rw [ha]; simp), ha]
      rw [ha] at hr
      cases b with
      | arg p n k =>
        simp only [Option.map_eq_some_iff] at hr ⊢
        obtain ⟨x, h1, h2⟩ := hr
        exact ⟨x, follow_mono hle h1, h2⟩
      | checks l => cases hr
      | check n k => cases hr
      | text s => cases hr
      | counter n => cases hr

/-! ## The objects -/

theorem pushAll_spec {A : Heap → Nat} (hA : Allocator A) (h0 : Heap) (r : Nat) : ∀ (rest : List Check) (h : Heap) (k : Nat) (l : List Check), Bounded h →
    h r = some (.check l.length (some k)) → h k = some (.checks (l.map some)) → r ≠ k → h0 k = none → h0 r = none → (∀ x, x ≠ r → x ≠ k → h x = h0 x) →
    ∃ h' k', pushAll A r h rest = some h' ∧ Bounded h' ∧ h' r = some (.check (l ++ rest).length (some k')) ∧ h' k' = some (.checks ((l ++ rest).map some)) ∧ r ≠ k' ∧ h0 k' = none ∧
      ∀ x, x ≠ r → x ≠ k' → h' x = h0 x
  | [], h, k, l, hb, h1, h2, hne, h3, _, h4 => ⟨h, k, rfl, hb, by simpa using h1, by simpa using h2, hne, h3, h4⟩
  | c :: rest, h, k, l, hb, h1, h2, hne, h3, hr, h4 => by
    have hb1 := set_bounded hb k none
    have hk' := hA _ hb1
    have hrk : r ≠ A (h.set k none) := by
      intro e
      rw [← e, set_other _ _ hne, h1] at hk'
      cases hk'
    have h0k : h0 (A (h.set k none)) = none := by
      by_cases e : A (h.set k none) = k
      · rw [e]; exact h3
      · rw [set_other _ _ e] at hk'
        rw [← h4 _ (fun e' => hrk e'.symm) e]
        exact hk'
    have hl : (l.map some).take (l.length + 1) ++ List.replicate (l.length + 1 - (l.map some).length) (none : Option Check) = l.map some ++ [none] := by
      rw [List.take_of_length_le (by simp), List.length_map, Nat.add_sub_cancel_left]
      rfl
    have hpush : push A h r c = some (((((h.set k none).set (A (h.set k none)) (some (.checks (l.map some ++ [none])))).set (A (h.set k none))
        (some (.checks ((l ++ [c]).map some))))).set r (some (.check (l.length + 1) (some (A (h.set k none)))))) := by
      unfold push
      rw [h1]
      simp only [h2]
      rw [hl, if_pos (by simp)]
      congr 4
      rw [List.set_append_right _ _ (by simp)]
      simp
    obtain ⟨h', k', e1, e2, e3, e4, e5, e6, e7⟩ := pushAll_spec hA h0 r rest
      (((((h.set k none).set (A (h.set k none)) (some (.checks (l.map some ++ [none])))).set (A (h.set k none))
        (some (.checks ((l ++ [c]).map some))))).set r (some (.check (l.length + 1) (some (A (h.set k none))))))
      (A (h.set k none)) (l ++ [c]) (set_bounded (set_bounded (set_bounded hb1 _ _) _ _) _ _) (by rw [set_same]; simp)
      (by rw [set_other _ _ (fun e => hrk e.symm), set_same]) hrk h0k hr (by
        intro x hx1 hx2
        rw [set_other _ _ hx1, set_other _ _ hx2, set_other _ _ hx2]
        by_cases e : x = k
        · rw [e, set_same, h3]
        · rw [set_other _ _ e, h4 x hx1 e])
    refine ⟨h', k', ?_, e2, by rw [e3]; simp, by rw [e4]; simp, e5, e6, e7⟩
    rw [pushAll, hpush]
    exact e1

theorem checkNew_spec {A : Heap → Nat} (hA : Allocator A) {h : Heap} (hb : Bounded h) (one : Check) (rest : List Check) :
    ∃ h' a k, checkNew A h one rest = some (h', a) ∧ Bounded h' ∧ h' a = some (.check (rest.length + 1) (some k)) ∧ h' k = some (.checks ((one :: rest).map some)) ∧ a ≠ k ∧
      h a = none ∧ h k = none ∧ ∀ x, x ∉ [a, k] → h' x = h x := by
  have h1 := hA h hb
  have hb1 := set_bounded hb (A h) (some (.check 0 none))
  have h2 := hA _ hb1
  generalize hr : A h = r at h1 hb1 h2
  generalize hk : A (h.set r (some (.check 0 none))) = k at h2
  have hne : r ≠ k := by
    intro e
    rw [← e, set_same] at h2
    cases h2
  rw [set_other _ _ hne.symm] at h2
  obtain ⟨h', k', e1, e2, e3, e4, e5, e6, e7⟩ := pushAll_spec hA h r rest
    ((((h.set r (some (.check 0 none))).set k (some (.checks [none]))).set k (some (.checks [some one]))).set r (some (.check 1 (some k)))) k [one]
    (set_bounded (set_bounded (set_bounded hb1 _ _) _ _) _ _) (by rw [set_same]; rfl) (by rw [set_other _ _ hne.symm, set_same]; rfl) hne h2 h1 (by
      intro x hx1 hx2
      rw [set_other _ _ hx1, set_other _ _ hx2, set_other _ _ hx2, set_other _ _ hx1])
  refine ⟨h', r, k', ?_, e2, by simpa [Nat.add_comm] using e3, by simpa using e4, e5, h1, e6, fun x hx => ?_⟩
  · simp only [checkNew, alloc, hr, hk]
    rw [e1]
    rfl
  · simp only [List.mem_cons, List.not_mem_nil, or_false, not_or] at hx
    exact e7 x hx.1 hx.2

/-! ## The steps of the setup -/

/-- what the tables say -/
structure Says (c : Config) (h : Heap) (t : Tables) (ck : Stage → List Check) (ga ca : Stage → Option Arg) : Prop where
  checks : ∀ s, readChecks h (t .validators s) = some (ck s)
  genArgs : ∀ s, readArg c h (t .genArgs s) = some (ga s)
  checkArgs : ∀ s, readArg c h (t .checkArgs s) = some (ca s)

/-- a heap with nothing but some blocks -/
def only (h : Heap) (fp : Which → Stage → List Nat) : Heap := fun x => if x ∈ allOf fp then h x else none

theorem only_at (h : Heap) {fp : Which → Stage → List Nat} {w : Which} {s : Stage} {x : Nat} (hx : x ∈ fp w s) : only h fp x = h x := by
  rw [only, if_pos (mem_allOf.2 ⟨w, s, hx⟩)]

theorem Inv.le {h0 h h' : Heap} {t : Tables} {fp : Which → Stage → List Nat} {w : Which} {s : Stage} {new : List Nat} (hi : Inv h0 h t fp) (hn : t w s = none)
    (hnew : ∀ x ∈ new, h x = none) (hold : ∀ x, x ∉ new → h' x = h x) : Le (only h fp) (only h' (place fp w s new)) := by
  intro x hx
  have hm : x ∈ allOf fp := by
    by_contra hm
    exact hx (if_neg hm)
  obtain ⟨v, u, hm⟩ := mem_allOf.1 hm
  have e : ¬ (v = w ∧ u = s) := by
    rintro ⟨rfl, rfl⟩
    have := hi.owns v u
    rw [hn] at this
    generalize fp v u = l at this hm
    cases this
    cases hm
  rw [only_at h hm, only_at h' (w := v) (s := u) (by rw [place_other _ _ e]; exact hm)]
  exact hold x fun hx' => (hi.owns v u).used x hm (hnew x hx')

theorem Says.mono {c : Config} {h h' : Heap} {t : Tables} {ck : Stage → List Check} {ga ca : Stage → Option Arg} (hs : Says c h t ck ga ca) (hle : Le h h') : Says c h' t ck ga ca :=
  ⟨fun s => readChecks_mono hle (hs.checks s), fun s => readArg_mono hle (hs.genArgs s), fun s => readArg_mono hle (hs.checkArgs s)⟩

/-- a function with one value changed -/
def upd {α : Type} (f : Stage → α) (s : Stage) (v : α) : Stage → α := fun u => if u = s then v else f u

theorem mapM_some (l : List Check) : (l.map some).mapM id = some l := by
  induction l with
  | nil => rfl
  | cons c l ih => simp [List.mapM_cons, ih]

/-- the state after some steps of the setup -/
def Ready (c : Config) (h0 : Heap) (x : St) (ck : Stage → List Check) (ga ca : Stage → Option Arg) : Prop :=
  ∃ fp, Inv h0 x.1 x.2 fp ∧ Says c (only x.1 fp) x.2 ck ga ca

theorem addCheck_ready {A : Heap → Nat} (hA : Allocator A) {c : Config} {h0 : Heap} {x : St} {ck : Stage → List Check} {ga ca : Stage → Option Arg} (hx : Ready c h0 x ck ga ca)
    (s : Stage) (hn : x.2 .validators s = none) (one : Check) (rest : List Check) :
    ∃ y, addCheck A s one rest x = some y ∧ Ready c h0 y (upd ck s (one :: rest)) ga ca ∧ (∀ w u, ¬ (w = .validators ∧ u = s) → y.2 w u = x.2 w u) := by
  obtain ⟨fp, hi, hs⟩ := hx
  obtain ⟨h', a, k, e1, e2, e3, e4, e5, e6, e7, e8⟩ := checkNew_spec hA hi.bounded one rest
  have hnew : ∀ y ∈ [a, k], x.1 y = none := by
    intro y hy
    simp only [List.mem_cons, List.not_mem_nil, or_false] at hy
    rcases hy with rfl | rfl
    · exact e6
    · exact e7
  have hs' := hs.mono (hi.le hn hnew e8)
  have e3' : only h' (place fp .validators s [a, k]) a = some (.check (rest.length + 1) (some k)) := by rw [only_at h' (w := .validators) (s := s) (by simp [place_same]), e3]
  have e4' : only h' (place fp .validators s [a, k]) k = some (.checks ((one :: rest).map some)) := by rw [only_at h' (w := .validators) (s := s) (by simp [place_same]), e4]
  refine ⟨(h', x.2.put .validators s (some a)), by rw [addCheck, e1]; rfl, ⟨_, hi.put hn (.checks e3 e4 e5) hnew e8 e2, fun u => ?_, fun u => ?_, fun u => ?_⟩, fun w u hwu => ?_⟩
  · by_cases e : u = s
    · rw [e]
      simp only [Tables.put, upd, and_self, if_true, readChecks, e3', e4']
      rw [if_pos (by simp), List.take_of_length_le (by simp)]
      exact mapM_some (one :: rest)
    · have h1 : x.2.put .validators s (some a) .validators u = x.2 .validators u := by simp [Tables.put, e]
      have h2 : upd ck s (one :: rest) u = ck u := by simp [upd, e]
      dsimp only
      rw [h1, h2]
      exact hs'.checks u
  · exact hs'.genArgs u
  · exact hs'.checkArgs u
  · simp [Tables.put, hwu]

theorem addArg_inv {A : Heap → Nat} (hA : Allocator A) {h0 : Heap} {x : St} {fp : Which → Stage → List Nat} (hi : Inv h0 x.1 x.2 fp) {w : Which} (hw : w ≠ .validators) (s : Stage)
    (hn : x.2 w s = none) (p : Ptr) : ∃ fp', Inv h0 (addArg A w s p x).1 (addArg A w s p x).2 fp' ∧ Le (only x.1 fp) (only (addArg A w s p x).1 fp') ∧
      ∃ a, (addArg A w s p x).2 = x.2.put w s (some a) ∧ only (addArg A w s p x).1 fp' a = some (.arg p 1 none) := by
  have h1 := hA _ hi.bounded
  have hnew : ∀ y ∈ [A x.1], x.1 y = none := by simpa using h1
  have hold : ∀ y, y ∉ [A x.1] → (addArg A w s p x).1 y = x.1 y := by
    intro y hy
    simp only [List.mem_cons, List.not_mem_nil, or_false] at hy
    simp only [addArg, argNew, alloc]
    rw [set_other _ _ hy, set_other _ _ hy]
  have hat : (addArg A w s p x).1 (A x.1) = some (.arg p 1 none) := by
    simp only [addArg, argNew, alloc]
    rw [set_same]
  refine ⟨_, hi.put hn (.plain hw hat) hnew hold ?_, hi.le hn hnew hold, A x.1, rfl, by rw [only_at _ (w := w) (s := s) (by simp [place_same]), hat]⟩
  simp only [addArg, argNew, alloc]
  exact set_bounded (set_bounded hi.bounded _ _) _ _

theorem addArg_gen {A : Heap → Nat} (hA : Allocator A) {c : Config} {h0 : Heap} {x : St} {ck : Stage → List Check} {ga ca : Stage → Option Arg} (hx : Ready c h0 x ck ga ca) (s : Stage)
    (hn : x.2 .genArgs s = none) (p : Ptr) {v : Arg} (hv : ∀ h, follow c h p = some v) : Ready c h0 (addArg A .genArgs s p x) ck (upd ga s (some v)) ca ∧
      ∀ w u, ¬ (w = .genArgs ∧ u = s) → (addArg A .genArgs s p x).2 w u = x.2 w u := by
  obtain ⟨fp, hi, hs⟩ := hx
  obtain ⟨fp', h1, h2, a, h3, h4⟩ := addArg_inv hA hi (w := .genArgs) (by simp) s hn p
  have hs' := hs.mono h2
  refine ⟨⟨fp', h1, fun u => ?_, fun u => ?_, fun u => ?_⟩, fun w u hwu => ?_⟩
  · rw [h3]; exact hs'.checks u
  · by_cases e : u = s
    · rw [e, h3]
      simp only [Tables.put, upd, and_self, if_true, readArg, h4, hv]
      rfl
    · have e1 : x.2.put .genArgs s (some a) .genArgs u = x.2 .genArgs u := by simp [Tables.put, e]
      have e2 : upd ga s (some v) u = ga u := by simp [upd, e]
      rw [h3, e1, e2]
      exact hs'.genArgs u
  · rw [h3]; exact hs'.checkArgs u
  · rw [h3]; simp [Tables.put, hwu]

theorem addArg_check {A : Heap → Nat} (hA : Allocator A) {c : Config} {h0 : Heap} {x : St} {ck : Stage → List Check} {ga ca : Stage → Option Arg} (hx : Ready c h0 x ck ga ca) (s : Stage)
    (hn : x.2 .checkArgs s = none) (p : Ptr) {v : Arg} (hv : ∀ h, follow c h p = some v) : Ready c h0 (addArg A .checkArgs s p x) ck ga (upd ca s (some v)) ∧
      ∀ w u, ¬ (w = .checkArgs ∧ u = s) → (addArg A .checkArgs s p x).2 w u = x.2 w u := by
  obtain ⟨fp, hi, hs⟩ := hx
  obtain ⟨fp', h1, h2, a, h3, h4⟩ := addArg_inv hA hi (w := .checkArgs) (by simp) s hn p
  have hs' := hs.mono h2
  refine ⟨⟨fp', h1, fun u => ?_, fun u => ?_, fun u => ?_⟩, fun w u hwu => ?_⟩
  · rw [h3]; exact hs'.checks u
  · rw [h3]; exact hs'.genArgs u
  · by_cases e : u = s
    · rw [e, h3]
      simp only [Tables.put, upd, and_self, if_true, readArg, h4, hv]
      rfl
    · have e1 : x.2.put .checkArgs s (some a) .checkArgs u = x.2 .checkArgs u := by simp [Tables.put, e]
      have e2 : upd ca s (some v) u = ca u := by simp [upd, e]
      rw [h3, e1, e2]
      exact hs'.checkArgs u
  · rw [h3]; simp [Tables.put, hwu]

/-- two arguments that are made before they are filled are two arguments -/
theorem cofactor_eq {A : Heap → Nat} (hA : Allocator A) {c : Config} {x : St} (hb : Bounded x.1) (hc : c.cofactor = true) :
    ∃ o g, o ≠ g ∧ x.1 o = none ∧ x.1 g = none ∧ cofactorArgs A c x =
      ((x.1.set o (some (.arg .cofactor 1 none))).set g (some (.arg .cofactor 1 none)), (x.2.put .genArgs .order (some o)).put .genArgs .gens (some g)) := by
  have h1 := hA _ hb
  have h2 := hA _ (set_bounded hb (A x.1) (some (.arg .null 0 none)))
  generalize ho : A x.1 = o at h1 h2
  generalize hg : A (x.1.set o (some (.arg .null 0 none))) = g at h2
  have hne : o ≠ g := by
    intro e
    rw [← e, set_same] at h2
    cases h2
  rw [set_other _ _ hne.symm] at h2
  refine ⟨o, g, hne, h1, h2, ?_⟩
  simp only [cofactorArgs, hc, if_true, argNew, alloc, ho, hg]
  congr 1
  funext y
  simp only [Heap.set]
  split
  · rfl
  · split <;> rfl

theorem shared_eq {A : Heap → Nat} (hA : Allocator A) {x : St} (hb : Bounded x.1) (s t : Stage) (b : Block) :
    ∃ p q k, p ≠ q ∧ p ≠ k ∧ q ≠ k ∧ x.1 p = none ∧ x.1 q = none ∧ x.1 k = none ∧ shared A s t b x =
      (((x.1.set p (some (.arg (.heap k) 1 none))).set k (some b)).set q (some (.arg (.heap k) 1 (some k))), (x.2.put .genArgs s (some p)).put .genArgs t (some q)) := by
  have h1 := hA _ hb
  have hb1 := set_bounded hb (A x.1) (some (.arg .null 0 none))
  have h2 := hA _ hb1
  generalize hp : A x.1 = p at h1 hb1 h2
  have h3 := hA _ (set_bounded hb1 (A (x.1.set p (some (.arg .null 0 none)))) (some (.arg .null 0 none)))
  generalize hq : A (x.1.set p (some (.arg .null 0 none))) = q at h2 h3
  generalize hk : A ((x.1.set p (some (.arg .null 0 none))).set q (some (.arg .null 0 none))) = k at h3
  have hpq : p ≠ q := by
    intro e
    rw [← e, set_same] at h2
    cases h2
  have hqk : q ≠ k := by
    intro e
    rw [← e, set_same] at h3
    cases h3
  rw [set_other _ _ hqk.symm] at h3
  have hpk : p ≠ k := by
    intro e
    rw [← e, set_same] at h3
    cases h3
  rw [set_other _ _ hpk.symm] at h3
  rw [set_other _ _ hpq.symm] at h2
  refine ⟨p, q, k, hpq, hpk, hqk, h1, h2, h3, ?_⟩
  simp only [shared, argNew, alloc, hp, hq, hk]
  congr 1
  funext y
  simp only [Heap.set]
  split
  · rfl
  · split
    · rename_i e
      rw [if_neg (by rw [e]; exact hpk)]
    · split <;> rfl

theorem cofactor_ready {A : Heap → Nat} (hA : Allocator A) {c : Config} {h0 : Heap} {x : St} {ck : Stage → List Check} {ga ca : Stage → Option Arg} (hx : Ready c h0 x ck ga ca)
    (hc : c.cofactor = true) (h1 : x.2 .genArgs .order = none) (h2 : x.2 .genArgs .gens = none) :
    Ready c h0 (cofactorArgs A c x) ck (upd (upd ga .order (some (.long c.cofactorValue))) .gens (some (.long c.cofactorValue))) ca ∧
      ∀ w u, ¬ (w = .genArgs ∧ (u = .order ∨ u = .gens)) → (cofactorArgs A c x).2 w u = x.2 w u := by
  obtain ⟨fp, hi, hs⟩ := hx
  obtain ⟨o, g, hne, e1, e2, e3⟩ := cofactor_eq hA hi.bounded hc
  rw [e3]
  have i1 := hi.put (w := .genArgs) (s := .order) h1 (a := o) (new := [o]) (h' := x.1.set o (some (.arg .cofactor 1 none))) (.plain (by simp) (set_same _ _ _)) (by simpa using e1)
    (fun y hy => set_other _ _ (by simpa using hy)) (set_bounded hi.bounded _ _)
  have i2 := i1.put (w := .genArgs) (s := .gens) (by simp [Tables.put, h2]) (a := g) (new := [g])
    (h' := (x.1.set o (some (.arg .cofactor 1 none))).set g (some (.arg .cofactor 1 none))) (.plain (by simp) (set_same _ _ _)) (by simp [set_other _ _ hne.symm, e2])
    (fun y hy => set_other _ _ (by simpa using hy)) (set_bounded i1.bounded _ _)
  have hle := (hi.le (w := .genArgs) (s := .order) (new := [o]) (h' := x.1.set o (some (.arg .cofactor 1 none))) h1 (by simpa using e1) (fun y hy => set_other _ _ (by simpa using hy))).trans
    (i1.le (w := .genArgs) (s := .gens) (new := [g]) (h' := (x.1.set o (some (.arg .cofactor 1 none))).set g (some (.arg .cofactor 1 none))) (by simp [Tables.put, h2])
      (by simp [set_other _ _ hne.symm, e2]) (fun y hy => set_other _ _ (by simpa using hy)))
  have hg : only ((x.1.set o (some (.arg .cofactor 1 none))).set g (some (.arg .cofactor 1 none))) (place (place fp .genArgs .order [o]) .genArgs .gens [g]) g = some (.arg .cofactor 1 none) := by
    rw [only_at _ (w := .genArgs) (s := .gens) (by simp [place_same]), set_same]
  have ho : only ((x.1.set o (some (.arg .cofactor 1 none))).set g (some (.arg .cofactor 1 none))) (place (place fp .genArgs .order [o]) .genArgs .gens [g]) o = some (.arg .cofactor 1 none) := by
    rw [only_at _ (w := .genArgs) (s := .order) (by simp [place]), set_other _ _ hne, set_same]
  have hs' := hs.mono hle
  refine ⟨⟨_, i2, fun u => ?_, fun u => ?_, fun u => ?_⟩, fun w u hwu => ?_⟩
  · exact hs'.checks u
  · by_cases eg : u = .gens
    · rw [eg]
      simp only [Tables.put, upd, and_self, if_true, readArg, hg, follow]
      rfl
    · by_cases eo : u = .order
      · rw [eo]
        simp only [Tables.put, upd, and_self, if_true, readArg, reduceCtorEq, and_false, if_false]
        rw [ho]
        rfl
      · have k1 : ((x.2.put .genArgs .order (some o)).put .genArgs .gens (some g)) .genArgs u = x.2 .genArgs u := by simp [Tables.put, eg, eo]
        have k2 : upd (upd ga .order (some (.long c.cofactorValue))) .gens (some (.long c.cofactorValue)) u = ga u := by simp [upd, eg, eo]
        dsimp only
        rw [k1, k2]
        exact hs'.genArgs u
  · exact hs'.checkArgs u
  · have k1 : ¬ (w = .genArgs ∧ u = .order) := fun e => hwu ⟨e.1, .inl e.2⟩
    have k2 : ¬ (w = .genArgs ∧ u = .gens) := fun e => hwu ⟨e.1, .inr e.2⟩
    simp [Tables.put, k1, k2]

theorem shared_ready {A : Heap → Nat} (hA : Allocator A) {c : Config} {h0 : Heap} {x : St} {ck : Stage → List Check} {ga ca : Stage → Option Arg} (hx : Ready c h0 x ck ga ca)
    {s t : Stage} (hst : s ≠ t) (h1 : x.2 .genArgs s = none) (h2 : x.2 .genArgs t = none) {b : Block} {v : Arg}
    (hv : ∀ h k, h k = some b → follow c h (.heap k) = some v) :
    Ready c h0 (shared A s t b x) ck (upd (upd ga s (some v)) t (some v)) ca ∧
      ∀ w u, ¬ (w = .genArgs ∧ (u = s ∨ u = t)) → (shared A s t b x).2 w u = x.2 w u := by
  obtain ⟨fp, hi, hs⟩ := hx
  obtain ⟨p, q, k, npq, npk, nqk, e1, e2, e3, e4⟩ := shared_eq hA hi.bounded s t b
  rw [e4]
  have i1 := hi.put (w := .genArgs) (s := s) h1 (a := p) (new := [p]) (h' := x.1.set p (some (.arg (.heap k) 1 none))) (.plain (by simp) (set_same _ _ _)) (by simpa using e1)
    (fun y hy => set_other _ _ (by simpa using hy)) (set_bounded hi.bounded _ _)
  have hk : (((x.1.set p (some (.arg (.heap k) 1 none))).set k (some b)).set q (some (.arg (.heap k) 1 (some k)))) k = some b := by
    rw [set_other _ _ nqk.symm, set_same]
  have i2 := i1.put (w := .genArgs) (s := t) (by simp [Tables.put, h2, hst.symm]) (a := q) (new := [q, k])
    (h' := ((x.1.set p (some (.arg (.heap k) 1 none))).set k (some b)).set q (some (.arg (.heap k) 1 (some k))))
    (.both (by simp) (set_same _ _ _) (by rw [hk]; simp) nqk) (by
      intro y hy
      simp only [List.mem_cons, List.not_mem_nil, or_false] at hy
      rcases hy with rfl | rfl
      · rw [set_other _ _ npq.symm, e2]
      · rw [set_other _ _ npk.symm, e3])
    (fun y hy => by
      simp only [List.mem_cons, List.not_mem_nil, or_false, not_or] at hy
      rw [set_other _ _ hy.1, set_other _ _ hy.2]) (set_bounded (set_bounded i1.bounded _ _) _ _)
  have hle := (hi.le (w := .genArgs) (s := s) (new := [p]) (h' := x.1.set p (some (.arg (.heap k) 1 none))) h1 (by simpa using e1) (fun y hy => set_other _ _ (by simpa using hy))).trans
    (i1.le (w := .genArgs) (s := t) (new := [q, k]) (h' := ((x.1.set p (some (.arg (.heap k) 1 none))).set k (some b)).set q (some (.arg (.heap k) 1 (some k))))
      (by simp [Tables.put, h2, hst.symm]) (by
        intro y hy
        simp only [List.mem_cons, List.not_mem_nil, or_false] at hy
        rcases hy with rfl | rfl
        · rw [set_other _ _ npq.symm, e2]
        · rw [set_other _ _ npk.symm, e3])
      (fun y hy => by
        simp only [List.mem_cons, List.not_mem_nil, or_false, not_or] at hy
        rw [set_other _ _ hy.1, set_other _ _ hy.2]))
  have ok : only (((x.1.set p (some (.arg (.heap k) 1 none))).set k (some b)).set q (some (.arg (.heap k) 1 (some k)))) (place (place fp .genArgs s [p]) .genArgs t [q, k]) k = some b := by
    rw [only_at _ (w := .genArgs) (s := t) (by simp [place_same]), hk]
  have oq : only (((x.1.set p (some (.arg (.heap k) 1 none))).set k (some b)).set q (some (.arg (.heap k) 1 (some k)))) (place (place fp .genArgs s [p]) .genArgs t [q, k]) q =
      some (.arg (.heap k) 1 (some k)) := by
    rw [only_at _ (w := .genArgs) (s := t) (by simp [place_same]), set_same]
  have op : only (((x.1.set p (some (.arg (.heap k) 1 none))).set k (some b)).set q (some (.arg (.heap k) 1 (some k)))) (place (place fp .genArgs s [p]) .genArgs t [q, k]) p =
      some (.arg (.heap k) 1 none) := by
    rw [only_at _ (w := .genArgs) (s := s) (by simp [place, hst]), set_other _ _ npq, set_other _ _ npk, set_same]
  have hs' := hs.mono hle
  refine ⟨⟨_, i2, fun u => ?_, fun u => ?_, fun u => ?_⟩, fun w u hwu => ?_⟩
  · exact hs'.checks u
  · by_cases et : u = t
    · rw [et]
      simp only [Tables.put, upd, and_self, if_true, readArg, oq, hv _ _ ok]
      rfl
    · by_cases es : u = s
      · rw [es]
        simp only [Tables.put, upd, and_self, if_true, readArg, hst, and_false, if_false]
        rw [op]
        simp only [hv _ _ ok]
        rfl
      · have k1 : ((x.2.put .genArgs s (some p)).put .genArgs t (some q)) .genArgs u = x.2 .genArgs u := by simp [Tables.put, et, es]
        have k2 : upd (upd ga s (some v)) t (some v) u = ga u := by simp [upd, et, es]
        dsimp only
        rw [k1, k2]
        exact hs'.genArgs u
  · exact hs'.checkArgs u
  · have k1 : ¬ (w = .genArgs ∧ u = s) := fun e => hwu ⟨e.1, .inl e.2⟩
    have k2 : ¬ (w = .genArgs ∧ u = t) := fun e => hwu ⟨e.1, .inr e.2⟩
    simp [Tables.put, k1, k2]

theorem start_ready {c : Config} {h : Heap} (hb : Bounded h) : Ready c h (h, empty) (fun _ => []) (fun _ => none) (fun _ => none) := by
  refine ⟨fun _ _ => [], ⟨⟨fun w _ => .null w, ?_⟩, ?_, fun _ _ => rfl, hb⟩, fun _ => rfl, fun _ => rfl, fun _ => rfl⟩
  · intro _ _ _ _ _ hx
    cases hx
  · intro _ _ _ hx
    cases hx

end Ecgen.Tables
