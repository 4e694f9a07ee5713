import Verif.Own.Points

/-!
# The blocks during a whole search
-/

namespace Ecgen.Own
open Ecgen.Engine Ecgen.Engine.Spec

/-- what the generator of a stage returns when it fails: family.c:101, 106, 152, 170; ansi.c:154; nums.c:70; cm_any.c:262;
supersingular.c:9; order.c, gens.c:44, 92, 100, 127; curve.c:30, 49; metadata.c:22, 37 -/
def failures : Nat → List Int
  | 0 => [0]
  | 1 => [0, -1, INT_MIN]
  | 2 => [0, INT_MIN]
  | 3 => [0, -2, -3, INT_MIN]
  | 4 => [-3, INT_MIN]
  | 5 => [-4, -2, INT_MIN]
  | 6 => [-5, INT_MIN]
  | 7 => [INT_MIN]
  | 8 => [-7]
  | _ => []

/-- what the validators of a stage return when they refuse: curve.c:49 and check.c (`1 - state`), brainpool.c:263, 273 -/
def refusals : Nat → List Int
  | 4 => [-3]
  | 5 => [-4]
  | 6 => [-5]
  | 7 => [-6]
  | _ => []

/-- a call as the generators of the program behave: one or two generators (the group of an elliptic curve over a finite field) -/
structure Pick.Ok (p : Pick) : Prop where
  pos : 1 ≤ p.len
  two : p.len ≤ 2
  fail : ∀ s d, p.fail s = some d → d ∈ failures s
  check : ∀ s d, p.check s = some d → d ∈ refusals s

/-- the timer never cuts off a generator and no failure leads back to the seeds, if there are seeds -/
def Calm (C : Cfg) (t : Nat → Pick) : Prop :=
  (∀ k, (t k).cut = none) ∧ (C.seed = .none ∨ ∀ k s, 1 ≤ s → (t k).fail s ≠ some (-(s : Int)))

/-- the blocks at the beginning of stage `s` -/
structure Stage (C : Cfg) (E : Prop) (B : Nat → Bool) (s : Nat) (m : M) : Prop where
  inv : Inv E B m
  gens : s ≤ 6 → m.cur.gens = none
  crv : s ≤ 4 → m.cur.crv = none
  seed : s = 0 → E → m.cur.seed = none
  noseed : C.seed = .none → m.cur.seed = none
  full : 7 ≤ s → Full m
  fresh : s = 7 → From E B m.cur.ngens 0 m

/-- the blocks when stage `s` was cut off -/
structure Broken (C : Cfg) (E : Prop) (B : Nat → Bool) (s : Nat) (m : M) : Prop where
  inv : Inv E B m
  gens : s ≤ 5 → m.cur.gens = none
  crv : s ≤ 3 → m.cur.crv = none
  noseed : C.seed = .none → m.cur.seed = none
  full : 7 ≤ s → Full m

theorem Stage.broken {C : Cfg} {E : Prop} {B : Nat → Bool} {s : Nat} {m : M} (h : Stage C E B s m) : Broken C E B s m :=
  ⟨h.inv, fun hs => h.gens (by omega), fun hs => h.crv (by omega), h.noseed, fun hs => h.full hs⟩

theorem Stage.broken' {C : Cfg} {E : Prop} {B : Nat → Bool} {s : Nat} {m : M} (h : Stage C E B (s + 1) m) : Broken C E B s m :=
  ⟨h.inv, fun hs => h.gens (by omega), fun hs => h.crv (by omega), h.noseed, fun hs => h.full (by omega)⟩

/-- the assignments of a list keep a predicate -/
theorem runProg_keep (F : M → Prop) (l : List (M → Option M)) (hl : ∀ f ∈ l, ∀ m m', F m → f m = some m' → F m') (m m' : M) (h : F m)
    (hr : runProg l m = some m') : F m' := by
  induction l generalizing m with
  | nil => simp only [runProg, Option.some.injEq] at hr; rwa [← hr]
  | cons f l ih =>
    simp only [runProg] at hr
    cases hf : f m with
    | none => rw [hf] at hr; cases hr
    | some m1 =>
      rw [hf, Option.bind_some] at hr
      exact ih (fun g hg => hl g (List.mem_cons_of_mem _ hg)) m1 (hl f List.mem_cons_self m m1 h hf) hr

theorem setSub_seed {i : Nat} {s : Sub} {m m' : M} (h : setSub i s m = some m') : m'.cur.seed = m.cur.seed := by
  unfold setSub at h
  split at h
  · cases h
  · split at h
    · cases h; rfl
    · cases h

/-- no generator after the seeds makes a seed -/
theorem prog_seed (C : Cfg) (s : Nat) (p : Pick) (n : Nat) (hC : C.seed = .none) (f : M → Option M) (hf : f ∈ prog C s p n) (m m' : M)
    (h : m.cur.seed = none) (e : f m = some m') : m'.cur.seed = none := by
  have hset : ∀ (i : Nat) (t : Sub → M → Sub × M), (∀ u m, (t u m).2.cur.seed = m.cur.seed) →
      ((getSub i m).bind fun u => setSub i (t u m).1 (t u m).2) = some m' → m'.cur.seed = none := by
    intro i t ht e
    cases hg : getSub i m with
    | none => rw [hg] at e; cases e
    | some u =>
      rw [hg, Option.bind_some] at e
      rw [setSub_seed e, ht, h]
  have h1 : ∀ i, putSub i m = some m' → m'.cur.seed = none := fun i e => by
    unfold putSub at e
    rw [setSub_seed e]; exact h
  have h2 : ∀ i k, putNpoints i k m = some m' → m'.cur.seed = none := fun i k e =>
    hset i (fun u m => ({ u with npoints := k }, m)) (fun _ _ => rfl) e
  have h3 : ∀ i k, putPoints i k m = some m' → m'.cur.seed = none := fun i k e =>
    hset i (fun u m => ({ u with points := some ((alloc m).1, List.replicate (3 * k) none) }, (alloc m).2)) (fun _ _ => rfl) e
  have h4 : ∀ i j, putPoint i j m = some m' → m'.cur.seed = none := by
    intro i j e
    unfold putPoint at e
    cases hg : getSub i m with
    | none => rw [hg] at e; cases e
    | some u =>
      rw [hg, Option.bind_some] at e
      split at e
      · cases e
      · split at e
        · rw [setSub_seed e]; exact h
        · cases e
  have h5 : ∀ i w, putFilled i w m = some m' → m'.cur.seed = none := by
    intro i w e
    unfold putFilled at e
    cases hg : getSub i m with
    | none => rw [hg] at e; cases e
    | some u =>
      rw [hg, Option.bind_some] at e
      rw [setSub_seed e]; exact h
  unfold prog at hf
  split at hf
  · rw [hC] at hf; cases hf
  · split at hf
    · rcases List.mem_singleton.1 hf with rfl
      cases e; exact h
    · simp only [List.mem_cons, List.not_mem_nil, or_false] at hf
      rcases hf with rfl | rfl
      · cases e; exact h
      · unfold dropForTwist at e
        cases hs : seedFree m.cur.seed m with
        | none => rw [hs] at e; cases e
        | some m1 =>
          rw [hs, Option.bind_some] at e
          cases hs2 : subgroupsFreeDeep m1.cur.gens m1.cur.ngens m1 with
          | none => rw [hs2] at e; cases e
          | some m2 => rw [hs2, Option.bind_some] at e; cases e; rfl
  · split at hf
    · simp only [List.mem_cons, List.mem_map, List.mem_range] at hf
      rcases hf with rfl | rfl | ⟨i, _, rfl⟩
      · cases e; exact h
      · cases e; exact h
      · exact h1 _ e
    · simp only [List.cons_append, List.mem_cons, List.mem_append, List.mem_map, List.mem_range, List.not_mem_nil, or_false] at hf
      rcases hf with rfl | rfl | ⟨i, _, rfl⟩ | rfl
      · cases e; exact h
      · cases e; exact h
      · exact h1 _ e
      · exact h1 _ e
    · simp only [List.mem_cons, List.not_mem_nil, or_false] at hf
      rcases hf with rfl | rfl | rfl | rfl
      · cases e; exact h
      · cases e; exact h
      · unfold putBareSub at e; rw [setSub_seed e]; exact h
      · exact hset 0 (fun u m => ({ u with gen := some (alloc m).1 }, (alloc m).2)) (fun _ _ => rfl) e
  · split at hf
    · cases hf
    · simp only [List.mem_cons, List.not_mem_nil, or_false] at hf
      rcases hf with rfl | rfl | rfl
      · exact h2 _ _ e
      · exact h3 _ _ e
      · exact h4 _ _ e
    · simp only [List.mem_flatMap, List.mem_range] at hf
      obtain ⟨i, _, hf⟩ := hf
      unfold randomFor at hf
      split at hf
      · rcases List.mem_singleton.1 hf with rfl
        exact h2 _ _ e
      · simp only [List.mem_cons, List.mem_map, List.mem_range] at hf
        rcases hf with rfl | rfl | ⟨j, _, rfl⟩
        · exact h2 _ _ e
        · exact h3 _ _ e
        · exact h4 _ _ e
    · simp only [List.mem_flatMap, List.mem_range] at hf
      obtain ⟨i, _, hf⟩ := hf
      unfold ordersFor at hf
      split at hf
      · cases hf
      · simp only [List.mem_cons, List.not_mem_nil, or_false] at hf
        rcases hf with rfl | rfl
        · exact h2 _ _ e
        · exact h5 _ _ e
  · cases hf

theorem stage_seed {E : Prop} {B : Nat → Bool} (C : Cfg) (p : Pick) (n : Nat) :
    Trip (fun m => Inv False B m ∧ m.cur.gens = none ∧ m.cur.crv = none)
      (fun m => Inv E B m ∧ m.cur.gens = none ∧ m.cur.crv = none ∧ (E → m.cur.seed = none)) (prog C 0 p n)
      (fun m => Inv E B m ∧ m.cur.gens = none ∧ m.cur.crv = none) := by
  have hput : ∀ k : Nat, Trip (fun m => Inv False B m ∧ m.cur.gens = none ∧ m.cur.crv = none)
      (fun m => Inv E B m ∧ m.cur.gens = none ∧ m.cur.crv = none ∧ (E → m.cur.seed = none)) [putSeed k]
      (fun m => Inv E B m ∧ m.cur.gens = none ∧ m.cur.crv = none) := by
    intro k
    refine Trip.cons (P1 := fun m => Inv E B m ∧ m.cur.gens = none ∧ m.cur.crv = none) (fun m h => ⟨h.1.weak, h.2.1, h.2.2.1⟩) (fun m h => ?_)
      (Trip.nil (fun m h => ⟨h.1.weak, h.2⟩) fun m h => h)
    obtain ⟨m', e, h1, _, h2, h3⟩ := putSeed_spec k h.1 h.2.2.2
    exact ⟨m', e, h1, by rw [h2, h.2.1], by rw [h3, h.2.2.1]⟩
  cases hC : C.seed with
  | none => simp only [prog, hC]; exact Trip.nil (fun m h => ⟨h.1.weak, h.2.1, h.2.2.1⟩) fun m h => ⟨h.1, h.2.1, h.2.2.1⟩
  | hashed => simp only [prog, hC]; exact hput 2
  | bare => simp only [prog, hC]; exact hput 1
  | family =>
    simp only [prog, hC]
    refine Trip.cons (P1 := fun m => Inv E B m ∧ m.cur.gens = none ∧ m.cur.crv = none ∧ ∃ s, m.cur.seed = some s)
      (fun m h => ⟨h.1.weak, h.2.1, h.2.2.1⟩) (fun m h => ?_) ?_
    · obtain ⟨m', e, h1, hs, h2, h3⟩ := putSeed_spec 0 h.1 h.2.2.2
      exact ⟨m', e, h1, by rw [h2, h.2.1], by rw [h3, h.2.2.1], hs⟩
    · refine Trip.cons (P1 := fun m => Inv E B m ∧ m.cur.gens = none ∧ m.cur.crv = none) (fun m h => ⟨h.1.weak, h.2.1, h.2.2.1⟩) (fun m h => ?_)
        (Trip.nil (fun m h => ⟨h.1.weak, h.2⟩) fun m h => h)
      obtain ⟨h0, h1, h2, s, hs⟩ := h
      obtain ⟨m', e, j1, j2, j3⟩ := addPart_spec h0 s hs
      exact ⟨m', e, j1, by rw [j2, h1], by rw [j3, h2]⟩

theorem stage_curve {E : Prop} {B : Nat → Bool} (C : Cfg) (p : Pick) (n : Nat) :
    Trip (fun m => Inv False B m ∧ m.cur.gens = none) (fun m => Inv E B m ∧ m.cur.gens = none ∧ m.cur.crv = none) (prog C 4 p n)
      (fun m => Inv E B m ∧ m.cur.gens = none) := by
  have h1 : ∀ m, (Inv E B m ∧ m.cur.gens = none ∧ m.cur.crv = none) → ∃ m', putCrv m = some m' ∧ (Inv E B m' ∧ m'.cur.gens = none) := by
    intro m h
    obtain ⟨m', e, j1, j2, _⟩ := putCrv_spec h.1 h.2.2
    exact ⟨m', e, j1, by rw [j2, h.2.1]⟩
  cases hC : C.curve with
  | any =>
    simp only [prog, hC]
    exact Trip.cons (fun m h => ⟨h.1.weak, h.2.1⟩) h1 (Trip.nil (fun m h => ⟨h.1.weak, h.2⟩) fun m h => h)
  | twist =>
    simp only [prog, hC]
    refine Trip.cons (fun m h => ⟨h.1.weak, h.2.1⟩) h1 (Trip.cons (fun m h => ⟨h.1.weak, h.2⟩) (fun m h => dropForTwist_spec h.1)
      (Trip.nil (fun m h => ⟨h.1.weak, h.2⟩) fun m h => h))

/-- every stage, run to its end or cut off anywhere -/
theorem stage_run (C : Cfg) (E : Prop) (B : Nat → Bool) (s : Nat) (hs : s < 9) (p : Pick) (hp : p.Ok) (m : M) (h : Stage C E B s m) :
    (∃ m', runProg (prog C s p m.cur.ngens) m = some m' ∧ Stage C E B (s + 1) m') ∧
    ∀ k, ∃ m', runProg ((prog C s p m.cur.ngens).take k) m = some m' ∧ Broken C False B s m' := by
  have hno : ∀ l m', (∀ f ∈ l, f ∈ prog C s p m.cur.ngens) → runProg l m = some m' → C.seed = .none → m'.cur.seed = none :=
    fun l m' hl e hC => runProg_keep (fun m => m.cur.seed = none) l
      (fun f hf m1 m2 h1 e => prog_seed C s p _ hC f (hl f hf) m1 m2 h1 e) m m' (h.noseed hC) e
  have hno1 : ∀ m', runProg (prog C s p m.cur.ngens) m = some m' → C.seed = .none → m'.cur.seed = none :=
    fun m' => hno _ m' fun f hf => hf
  have hno2 : ∀ k m', runProg ((prog C s p m.cur.ngens).take k) m = some m' → C.seed = .none → m'.cur.seed = none :=
    fun k m' => hno _ m' fun f hf => List.mem_of_mem_take hf
  have hskip : prog C s p m.cur.ngens = [] → (Stage C E B s m → Stage C E B (s + 1) m) →
      (∃ m', runProg (prog C s p m.cur.ngens) m = some m' ∧ Stage C E B (s + 1) m') ∧
      ∀ k, ∃ m', runProg ((prog C s p m.cur.ngens).take k) m = some m' ∧ Broken C False B s m' := by
    intro e f
    rw [e]
    refine ⟨⟨m, rfl, f h⟩, fun k => ⟨m, by simp [runProg], h.inv.weak, h.broken.gens, h.broken.crv, h.noseed, h.broken.full⟩⟩
  have hcases : s = 0 ∨ s = 1 ∨ s = 2 ∨ s = 3 ∨ s = 4 ∨ s = 5 ∨ s = 6 ∨ s = 7 ∨ s = 8 := by omega
  rcases hcases with rfl | rfl | rfl | rfl | rfl | rfl | rfl | rfl | rfl
  · obtain ⟨⟨m', e, j1, j2, j3⟩, r⟩ := stage_seed (E := E) (B := B) C p m.cur.ngens m
      ⟨h.inv, h.gens (by omega), h.crv (by omega), h.seed rfl⟩
    refine ⟨⟨m', e, j1, fun _ => j2, fun _ => j3, fun h0 => by omega, hno1 m' e, fun h0 => by omega, fun h0 => by omega⟩, fun k => ?_⟩
    obtain ⟨m', e, j1, j2, j3⟩ := r k
    exact ⟨m', e, j1, fun _ => j2, fun _ => j3, hno2 k m' e, fun h0 => by omega⟩
  · exact hskip rfl fun h => ⟨h.inv, fun _ => h.gens (by omega), fun _ => h.crv (by omega), fun h0 => by omega, h.noseed, fun h0 => by omega, fun h0 => by omega⟩
  · exact hskip rfl fun h => ⟨h.inv, fun _ => h.gens (by omega), fun _ => h.crv (by omega), fun h0 => by omega, h.noseed, fun h0 => by omega, fun h0 => by omega⟩
  · exact hskip rfl fun h => ⟨h.inv, fun _ => h.gens (by omega), fun _ => h.crv (by omega), fun h0 => by omega, h.noseed, fun h0 => by omega, fun h0 => by omega⟩
  · obtain ⟨⟨m', e, j1, j2⟩, r⟩ := stage_curve (E := E) (B := B) C p m.cur.ngens m ⟨h.inv, h.gens (by omega), h.crv (by omega)⟩
    refine ⟨⟨m', e, j1, fun _ => j2, fun h0 => by omega, fun h0 => by omega, hno1 m' e, fun h0 => by omega, fun h0 => by omega⟩, fun k => ?_⟩
    obtain ⟨m', e, j1, j2⟩ := r k
    exact ⟨m', e, j1, fun _ => j2, fun h0 => by omega, hno2 k m' e, fun h0 => by omega⟩
  · exact hskip rfl fun h => ⟨h.inv, fun _ => h.gens (by omega), fun h0 => by omega, fun h0 => by omega, h.noseed, fun h0 => by omega, fun h0 => by omega⟩
  · obtain ⟨⟨m', e, N, hN, j⟩, r⟩ := gens_trip (E := E) (B := B) C p m.cur.ngens hp.pos hp.two m ⟨h.inv, h.gens (by omega)⟩
    obtain ⟨f1, f2⟩ := j.full hN
    refine ⟨⟨m', e, j.1, fun h0 => by omega, fun h0 => by omega, fun h0 => by omega, hno1 m' e, fun _ => f1, fun _ => ?_⟩, fun k => ?_⟩
    · exact ⟨j.1, f1, rfl, fun i _ hi t ht => f2 i t ht hi⟩
    · obtain ⟨m', e, j1⟩ := r k
      exact ⟨m', e, j1, fun h0 => by omega, fun h0 => by omega, hno2 k m' e, fun h0 => by omega⟩
  · obtain ⟨⟨m', e, j1, j2⟩, r⟩ := points_trip (E := E) (B := B) C p (h.full (by omega)).1 m (h.fresh rfl)
    refine ⟨⟨m', e, j1, fun h0 => by omega, fun h0 => by omega, fun h0 => by omega, hno1 m' e, fun _ => j2, fun h0 => by omega⟩, fun k => ?_⟩
    obtain ⟨m', e, j1, j2⟩ := r k
    exact ⟨m', e, j1, fun h0 => by omega, fun h0 => by omega, hno2 k m' e, fun _ => j2⟩
  · exact hskip rfl fun h => ⟨h.inv, fun h0 => by omega, fun h0 => by omega, fun h0 => by omega, h.noseed, fun _ => h.full (by omega), fun h0 => by omega⟩

/-! ### the cleanup -/

theorem cleaned_step (C : Cfg) (lo i : Nat) (w : W) (h : lo < i + 1) :
    cleaned (setup C) lo (i + 1) w = cleaned (setup C) lo i (((setup C).unroll (i + 1)).getD id w) := by
  rw [cleaned, if_pos h]

/-- below the curve nothing is released -/
theorem cleaned_low (C : Cfg) (lo s : Nat) (h : s ≤ 3) (w : W) : cleaned (setup C) lo s w = w := by
  induction s with
  | zero => rfl
  | succ s ih =>
    rw [cleaned]
    split
    · have e : ((setup C).unroll (s + 1)).getD id w = w := by
        have : s = 0 ∨ s = 1 ∨ s = 2 := by omega
        rcases this with rfl | rfl | rfl <;> rfl
      rw [e]
      exact ih (by omega)
    · rfl

theorem cleaned_spec (C : Cfg) (E : Prop) (B : Nat → Bool) (s lo : Nat) (hs : s < 9) (hlo : lo ≤ 3) (m : M) (h : Broken C E B s m)
    (t : Nat → Pick) (k : Nat) :
    ∃ m', cleaned (setup C) lo s { mem := some m, tape := t, pos := k } = { mem := some m', tape := t, pos := k } ∧
      Inv E B m' ∧ m'.cur.gens = none ∧ m'.cur.crv = none ∧ m'.cur.seed = m.cur.seed := by
  have h4 : ∀ m : M, Inv E B m → m.cur.gens = none → ∃ m', cleaned (setup C) lo 4 { mem := some m, tape := t, pos := k } = { mem := some m', tape := t, pos := k } ∧
      Inv E B m' ∧ m'.cur.gens = none ∧ m'.cur.crv = none ∧ m'.cur.seed = m.cur.seed := by
    intro m i g
    obtain ⟨m', e, i', c⟩ := i.curveUnroll
    refine ⟨m', ?_, i', by rw [c]; exact g, by rw [c], by rw [c]⟩
    rw [cleaned_step _ _ _ _ (by omega), cleaned_low _ _ _ (by omega)]
    simp only [setup, Option.getD_some, onMem, Option.bind_some, e]
  have h6 : ∀ m : M, Inv E B m → ∃ m', cleaned (setup C) lo 6 { mem := some m, tape := t, pos := k } = { mem := some m', tape := t, pos := k } ∧
      Inv E B m' ∧ m'.cur.gens = none ∧ m'.cur.crv = none ∧ m'.cur.seed = m.cur.seed := by
    intro m i
    obtain ⟨m1, e, i1, c⟩ := i.gensUnroll
    obtain ⟨m', e', j1, j2, j3, j4⟩ := h4 m1 i1 (by rw [c])
    refine ⟨m', ?_, j1, j2, j3, by rw [j4, c]⟩
    rw [cleaned_step _ _ _ _ (by omega), cleaned_step _ _ _ _ (by omega)]
    simp only [setup, Option.getD_some, onMem, Option.bind_some, e, id]
    exact e'
  have h7 : ∀ m : M, Inv E B m → Full m → ∃ m', cleaned (setup C) lo 7 { mem := some m, tape := t, pos := k } = { mem := some m', tape := t, pos := k } ∧
      Inv E B m' ∧ m'.cur.gens = none ∧ m'.cur.crv = none ∧ m'.cur.seed = m.cur.seed := by
    intro m i f
    obtain ⟨m1, e, i1, _, c2⟩ := pointsUnroll_spec i f
    obtain ⟨m', e', j1, j2, j3, j4⟩ := h6 m1 i1
    refine ⟨m', ?_, j1, j2, j3, by rw [j4, c2]⟩
    rw [cleaned_step _ _ _ _ (by omega)]
    simp only [setup, Option.getD_some, onMem, Option.bind_some, e]
    exact e'
  have hcases : s ≤ 3 ∨ s = 4 ∨ s = 5 ∨ s = 6 ∨ s = 7 ∨ s = 8 := by omega
  rcases hcases with h0 | rfl | rfl | rfl | rfl | rfl
  · exact ⟨m, cleaned_low _ _ _ h0 _, h.inv, h.gens (by omega), h.crv (by omega), rfl⟩
  · exact h4 m h.inv (h.gens (by omega))
  · obtain ⟨m', e', j⟩ := h4 m h.inv (h.gens (by omega))
    refine ⟨m', ?_, j⟩
    rw [cleaned_step _ _ _ _ (by omega)]
    simp only [setup, Option.getD_some, id]
    exact e'
  · exact h6 m h.inv
  · exact h7 m h.inv (h.full (by omega))
  · obtain ⟨m', e', j⟩ := h7 m h.inv (h.full (by omega))
    refine ⟨m', ?_, j⟩
    rw [cleaned_step _ _ _ _ (by omega)]
    simp only [setup, Option.getD_none, id]
    exact e'

/-! ### the search -/

/-- the invariant of the search -/
def Good (C : Cfg) (E : Prop) (B : Nat → Bool) (t : Nat → Pick) (s : Nat) (w : W) : Prop :=
  w.tape = t ∧ ∃ m, w.mem = some m ∧ Stage C E B s m

theorem Inv.strong {E : Prop} {B : Nat → Bool} {m : M} (h : Inv False B m) (he : ¬ E) : Inv E B m :=
  ⟨h.one, h.live, h.lt, h.base, fun e => absurd e he, h.ok, h.few⟩

theorem genStage_ok (C : Cfg) (E : Prop) (B : Nat → Bool) (t : Nat → Pick) (ht : ∀ k, (t k).Ok) (s : Nat) (hs : s < 9) (w w1 : W) (d : Int)
    (h : Good C E B t s w) (e : (setup C).gen s w = (w1, .ret d)) (hd : 0 < d) : d = 1 ∧ Good C E B t (s + 1) w1 := by
  obtain ⟨rfl, m, hm, h⟩ := h
  simp only [setup, genStage, hm] at e
  cases hf : (w.tape w.pos).fail s with
  | some d' =>
    rw [hf] at e
    simp only [Prod.mk.injEq, GenRes.ret.injEq] at e
    have := (ht w.pos).fail s d' hf
    have hle : ∀ d ∈ failures s, d ≤ 0 := by
      unfold failures
      split <;> decide
    have := hle d' this
    omega
  | none =>
    rw [hf] at e
    cases hc : (w.tape w.pos).cut with
    | some q => rw [hc] at e; simp at e
    | none =>
      rw [hc] at e
      simp only [Prod.mk.injEq, GenRes.ret.injEq] at e
      obtain ⟨⟨m', e', h'⟩, _⟩ := stage_run C E B s hs (w.tape w.pos) (ht w.pos) m h
      refine ⟨e.2.symm, ?_⟩
      rw [← e.1]
      exact ⟨rfl, m', e', h'⟩

/-- a stage that fails leaves blocks that can be cleaned up, and leads to one of the first four stages -/
theorem fails_spec (C : Cfg) (B : Nat → Bool) (t : Nat → Pick) (ht : ∀ k, (t k).Ok) (s : Nat) (hs : s < 9) (w w' : W) (d : Int)
    (h : Good C (Calm C t) B t s w) (hf : Fails (setup C) 0 s w d w') :
    w'.tape = t ∧ ∃ m, w'.mem = some m ∧ Broken C (Calm C t) B s m ∧
      (0 ≤ (s : Int) + d → (s : Int) + d ≤ 3 ∧ ((s : Int) + d = 0 → Calm C t → m.cur.seed = none)) := by
  have hG := h
  obtain ⟨rfl, m, hm, h⟩ := h
  rcases hf with ⟨e, rfl⟩ | ⟨e, hd⟩ | ⟨w1, g, e, hg, hr⟩
  · simp only [setup, genStage, hm] at e
    cases hfl : (w.tape w.pos).fail s with
    | some d' => rw [hfl] at e; simp at e
    | none =>
      rw [hfl] at e
      cases hc : (w.tape w.pos).cut with
      | none => rw [hc] at e; simp at e
      | some q =>
        obtain ⟨k, l⟩ := q
        rw [hc] at e
        simp only [Prod.mk.injEq, and_true] at e
        have hE : ¬ Calm C w.tape := fun hE => by rw [hE.1 w.pos] at hc; cases hc
        obtain ⟨_, r⟩ := stage_run C _ B s hs (w.tape w.pos) (ht w.pos) m h
        obtain ⟨m', e', h'⟩ := r k
        rw [e'] at e
        rw [← e]
        refine ⟨rfl, lose l m', rfl, ⟨(h'.inv.lose l).strong hE, h'.gens, h'.crv, h'.noseed, h'.full⟩, fun _ => ⟨by omega, fun _ hE' => absurd hE' hE⟩⟩
  · simp only [setup, genStage, hm] at e
    cases hfl : (w.tape w.pos).fail s with
    | some d' =>
      rw [hfl] at e
      simp only [Prod.mk.injEq, GenRes.ret.injEq] at e
      obtain ⟨rfl, rfl⟩ := e
      refine ⟨rfl, m, rfl, h.broken, fun h0 => ⟨?_, fun h1 hE => ?_⟩⟩
      · have h2 := (ht w.pos).fail s d' hfl
        have hle : ∀ d ∈ failures s, 0 ≤ (s : Int) + d → (s : Int) + d ≤ 3 := by
          unfold failures
          split <;> first | decide | exact fun d hd => by cases hd
        exact hle d' h2 h0
      · rcases hE.2 with hC | hC
        · exact h.noseed hC
        · by_cases h2 : s = 0
          · exact h.seed h2 hE
          · exact absurd (by rw [hfl]; congr 1; omega) (hC w.pos s (by omega))
    | none =>
      rw [hfl] at e
      cases hc : (w.tape w.pos).cut with
      | some q => rw [hc] at e; simp at e
      | none =>
        rw [hc] at e
        simp only [Prod.mk.injEq, GenRes.ret.injEq] at e
        omega
  · obtain ⟨_, ht1, m1, hm1, h1⟩ := genStage_ok C _ B w.tape ht s hs w w1 g hG e hg
    simp only [setup] at hr
    cases hr with
    | here hle =>
      simp only at hle ⊢
      refine ⟨ht1, m1, hm1, h1.broken', ?_⟩
      cases hc : (w1.tape w1.pos).check s with
      | none => rw [hc] at hle; simp at hle
      | some d' =>
        simp only [Option.getD_some]
        have h2 := (ht w1.pos).check s d' (by rw [← ht1]; exact hc)
        have hle2 : ∀ d ∈ refusals s, (s : Int) + d = 1 := by
          unfold refusals
          split <;> first | decide | exact fun d hd => by cases hd
        have := hle2 d' h2
        exact fun _ => ⟨by omega, fun _ _ => by omega⟩
    | later _ hr => cases hr

theorem good_ok (C : Cfg) (B : Nat → Bool) (t : Nat → Pick) (ht : ∀ k, (t k).Ok) (s : Nat) (w : W) (d : Int) (w' : W) (hs : s < 9)
    (h : Good C (Calm C t) B t s w) (hS : Succeeds (setup C) s w d w') : Good C (Calm C t) B t (s + d.toNat) w' := by
  obtain ⟨w1, e, hd, hp⟩ := hS
  obtain ⟨rfl, h1⟩ := genStage_ok C _ B t ht s hs w w1 d h e hd
  simp only [setup] at hp
  cases hp with
  | cons _ hp =>
    cases hp
    exact h1

theorem good_back (C : Cfg) (B : Nat → Bool) (t : Nat → Pick) (ht : ∀ k, (t k).Ok) (s : Nat) (w : W) (d : Int) (w' : W) (hs : s < 9)
    (h : Good C (Calm C t) B t s w) (hF : Fails (setup C) 0 s w d w') (h0 : 0 ≤ (s : Int) + d) :
    Good C (Calm C t) B t (max ((s : Int) + d).toNat 0) (cleaned (setup C) (max ((s : Int) + d).toNat 0) s w') := by
  obtain ⟨h1, m, h2, h3, h4⟩ := fails_spec C B t ht s hs w w' d h hF
  obtain ⟨h5, h6⟩ := h4 h0
  have e : w' = { mem := some m, tape := t, pos := w'.pos } := by
    cases w'
    simp only at h1 h2 ⊢
    rw [h1, h2]
  obtain ⟨m', e', j1, j2, j3, j4⟩ := cleaned_spec C _ B s (max ((s : Int) + d).toNat 0) hs (by omega) m h3 t w'.pos
  rw [e, e']
  refine ⟨rfl, m', rfl, j1, fun _ => j2, fun _ => j3, fun h7 hE => ?_, fun hC => by rw [j4, h3.noseed hC], fun h7 => by omega, fun h7 => by omega⟩
  rw [j4]
  exact h6 (by omega) hE

theorem good_start (C : Cfg) (E : Prop) (t : Nat → Pick) (k : Nat) (m : M) (hm : ∀ x, m.live x = true → x < m.next) :
    Good C E m.live t 0 { mem := some (curveNew m), tape := t, pos := k } := by
  have hown : own (curveNew m).cur = [m.next] := rfl
  have hlive : ∀ x, (curveNew m).live x = if x = m.next then true else m.live x := fun x => rfl
  refine ⟨rfl, _, rfl, ⟨?_, ?_, ?_, ?_, ?_, fun a l hl => (by cases hl), by simp [curveNew, alloc]⟩, fun _ => rfl, fun _ => rfl, fun _ _ => rfl, fun _ => rfl,
    fun h => by omega, fun h => by omega⟩
  · intro x; rw [hown]; simp [List.count_cons]; split <;> simp
  · intro x hx
    rw [hown, List.mem_singleton] at hx
    rw [hlive, if_pos hx]
  · intro x hx
    rw [hlive] at hx
    show x < m.next + 1
    split at hx
    · omega
    · have := hm x hx; omega
  · intro x hx
    rw [hlive, hown, List.mem_singleton]
    have := hm x hx
    exact ⟨by simp [hx], by omega⟩
  · intro _ x hx
    rw [hlive] at hx
    rw [hown, List.mem_singleton]
    split at hx
    · left; assumption
    · exact Or.inr hx

end Ecgen.Own
