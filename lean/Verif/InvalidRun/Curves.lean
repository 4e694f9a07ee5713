import Verif.InvalidRun.Phases
import Verif.Group.Props
import Mathlib.GroupTheory.Perm.Cycle.Type

/-!
# The curves of a run, when they are printed
-/

namespace Ecgen.InvalidRun

open Output Output.Spec Cli Whole

/-! ## Generators and primes -/

/-- if elements generate a group, every prime that divides the order of the group divides that of one of them -/
theorem prime_of_generators {A : Type} [AddCommGroup A] [Finite A] (l : List A) (hl : AddSubgroup.closure {P | P ∈ l} = ⊤) {q : Nat} (hq : q.Prime)
    (hd : q ∣ Nat.card A) : ∃ P ∈ l, q ∣ addOrderOf P := by
  have : Fact q.Prime := ⟨hq⟩
  obtain ⟨x, hx⟩ := exists_prime_addOrderOf_dvd_card' q hd
  have hk : ∀ P ∈ l, (l.map addOrderOf).prod • P = 0 := fun P hP => by
    rw [← addOrderOf_dvd_iff_nsmul_eq_zero]
    exact List.dvd_prod (List.mem_map_of_mem hP)
  have hx0 : (l.map addOrderOf).prod • x = 0 := by
    have hm : x ∈ AddSubgroup.closure {P | P ∈ l} := hl ▸ AddSubgroup.mem_top x
    refine AddSubgroup.closure_induction (p := fun x _ => (l.map addOrderOf).prod • x = 0) (fun P hP => hk P hP) (smul_zero _) ?_ ?_ hm
    · intro a b _ _ ha hb
      rw [smul_add, ha, hb, add_zero]
    · intro a _ ha
      rw [smul_neg, ha, neg_zero]
  rw [← addOrderOf_dvd_iff_nsmul_eq_zero, hx] at hx0
  obtain ⟨n, hn, hqn⟩ := (Nat.Prime.prime hq).dvd_prod_iff.1 hx0
  obtain ⟨P, hP, rfl⟩ := List.mem_map.1 hn
  exact ⟨P, hP, hqn⟩

/-! ## The curves are complete -/

theorem original_complete {c : Config} {T : Nat → Pick} {x : Cur} (h : Inv (original c) T 7 x) : Inv (original c) T 9 x where
  quiet := h.quiet
  noseed := h.noseed
  seed _ := h.seed (by omega)
  field _ := h.field (by omega)
  a _ := h.a (by omega)
  ab _ := h.ab (by omega)
  derived _ := h.derived (by omega)
  crv _ := h.crv (by omega)
  order _ := h.order (by omega)
  gens _ := by
    obtain ⟨E, l, h1, h2, h3, -⟩ := h.gens (by omega)
    exact ⟨E, l, h1, h2, h3, fun h => absurd h (by omega)⟩
  points _ := by
    obtain ⟨E, l, h1, h2, h3, h4⟩ := h.gens (by omega)
    refine ⟨E, l, h2, fun _ => ⟨fun s hs => ⟨[], by rw [h4 rfl s hs]; rfl, (fun p hp => nomatch hp), fun Q hQ => ?_⟩, (fun h => nomatch h), (fun h => nomatch h)⟩⟩
    have e : (fun _ => False) = Q := Option.some.inj hQ
    subst e
    exact ⟨List.Pairwise.nil, fun d => ⟨(fun h => nomatch h), fun h => h.elim⟩⟩
  info _ := by
    rw [h.quiet rfl]
    exact ⟨(fun i hi => nomatch hi), List.nodup_nil⟩

theorem known_positive {A : Type} [AddCommGroup A] [Finite A] {c : Config} {l : List (Group.Pt A)} (h : GensKnown A c l) :
    ∀ g ∈ l, g.order = addOrderOf g.point ∧ 0 < g.order := fun g hg => ⟨h.order g hg, by rw [h.order g hg]; exact addOrderOf_pos _⟩

theorem invalid_complete {c : Config} {T : Nat → Pick} {x : Cur} (h : Inv (invalid c) T 7 x) {E : Crv} {l : List (Group.Sub E.Pt)}
    (hl : x.gens = some ⟨E, l⟩) (primes : List Nat) : Inv (invalid c) T 9 (withTrial primes x E l) where
  quiet := h.quiet
  noseed := h.noseed
  seed _ := h.seed (by omega)
  field _ := h.field (by omega)
  a _ := h.a (by omega)
  ab _ := h.ab (by omega)
  derived _ := h.derived (by omega)
  crv _ := h.crv (by omega)
  order _ := h.order (by omega)
  gens _ := by
    obtain ⟨E', l', h1, h2, h3, -⟩ := h.gens (by omega)
    rw [hl] at h2
    cases h2
    exact ⟨E, _, h1, rfl, by rw [trial_gens]; exact h3, fun h => absurd h (by omega)⟩
  points _ := by
    obtain ⟨E', l', h1, h2, h3, -⟩ := h.gens (by omega)
    rw [hl] at h2
    cases h2
    refine ⟨E, _, rfl, fun _ => ⟨fun s hs => ?_, fun _ h => absurd rfl h, fun _ h => absurd rfl h⟩⟩
    rcases (Group.points_trial_partial primes _ (known_positive h3)).2 s hs with ⟨h4, -⟩ | ⟨_, q, _, p, -, -, -, h4, h5, h6, h7⟩
    · exact ⟨[], h4, (fun p hp => nomatch hp), (fun Q hQ => nomatch hQ)⟩
    · refine ⟨[p], h4, fun p' hp => ?_, (fun Q hQ => nomatch hQ)⟩
      rw [List.mem_singleton] at hp
      subst hp
      exact ⟨h5.trans h6.symm, h7⟩
  info _ := by
    have : (withTrial primes x E l).info = [] := h.quiet rfl
    rw [this]
    exact ⟨(fun i hi => nomatch hi), List.nodup_nil⟩

/-- at most one point is listed for a generator -/
def OnePoint (x : Cur) : Prop := ∀ E l, x.gens = some ⟨E, l⟩ → ∀ s ∈ l, s.points.length ≤ 1

theorem invalid_one {c : Config} {T : Nat → Pick} {x : Cur} (h : Inv (invalid c) T 7 x) {E : Crv} {l : List (Group.Sub E.Pt)}
    (hl : x.gens = some ⟨E, l⟩) (primes : List Nat) : OnePoint (withTrial primes x E l) := by
  intro E' l' hl' s hs
  cases hl'
  obtain ⟨E', l', h1, h2, h3, -⟩ := h.gens (by omega)
  rw [hl] at h2
  cases h2
  rcases (Group.points_trial_partial primes _ (known_positive h3)).2 s hs with ⟨h4, -⟩ | ⟨_, q, _, p, -, -, -, h4, -⟩
  · rw [h4]; exact Nat.zero_le _
  · rw [h4]; exact Nat.le_refl _

/-! ## They can be printed -/

theorem original_printed {c : Config} {T : Nat → Pick} {x : Cur} (h : Inv (original c) T 7 x) : ∃ v, outCurve x = some v :=
  printed_defined _ _ _ (original_complete h) (fun _ _ => Or.inr (Or.inl rfl)) (fun h => nomatch h)

theorem invalid_printed {c : Config} {T : Nat → Pick} {x : Cur} (h : Inv (invalid c) T 7 x) {E : Crv} {l : List (Group.Sub E.Pt)}
    (hl : x.gens = some ⟨E, l⟩) (primes : List Nat) (hp : ∀ q ∈ primes, q.Prime) : ∃ v, outCurve (withTrial primes x E l) = some v := by
  obtain ⟨f, a, b, h1, h2, h3, h4, -⟩ := h.crv (by omega)
  obtain ⟨E0, ho1, ho, -⟩ := h.order (by omega)
  obtain ⟨E', l', hE, hl', hk, -⟩ := h.gens (by omega)
  rw [hl] at hl'
  cases hl'
  have : ∃ gs, allSome ((Group.pointsTrial primes (l.map Group.Sub.gen)).map (outSub E)) = some gs := by
    refine allSome_some _ _ fun s hs => ?_
    have hg0 : s.gen.point ≠ 0 := by
      refine hk.nonzero (Or.inr (Or.inl rfl)) s.gen ?_
      rw [← trial_gens primes (l.map Group.Sub.gen)]
      exact List.mem_map_of_mem hs
    obtain ⟨g, hg⟩ := outPoint_some E (some s.gen.cofactor) s.gen hg0
    rcases (Group.points_trial_partial primes _ (known_positive hk)).2 s hs with ⟨h5, -⟩ | ⟨_, q, _, p, e, -, -, h5, h6, h7, -⟩
    · exact ⟨⟨g, []⟩, by simp [outSub, hg, h5, allSome]⟩
    · have hq : q.Prime := hp q (by rw [e]; simp)
      have hp0 : p.point ≠ 0 := by
        intro h0
        rw [h0, addOrderOf_zero] at h7
        exact hq.one_lt.ne h7
      obtain ⟨p', hp'⟩ := outPoint_some E none p hp0
      exact ⟨⟨g, [p']⟩, by simp [outSub, hg, h5, hp', allSome]⟩
  obtain ⟨gs, hgs⟩ := this
  exact ⟨_, by simp only [withTrial, outCurve, h1, h2, h3, ho, hgs, Option.map_some]; rfl⟩

/-- what is printed of it -/
theorem printed_values {x : Cur} {v : Output.Curve} (h : outCurve x = some v) : ∃ f a b n E l gs, x.field = some f ∧ x.a = some a ∧ x.b = some b ∧
    x.order = some n ∧ x.gens = some ⟨E, l⟩ ∧ allSome (l.map (outSub E)) = some gs ∧ v = ⟨x.seed, out f.1, a, b, n, gs, x.info⟩ := by
  unfold outCurve at h
  split at h
  · rename_i f a b n E l e1 e2 e3 e4 e5
    rw [Option.map_eq_some_iff] at h
    obtain ⟨gs, h1, h2⟩ := h
    exact ⟨f, a, b, n, E, l, gs, e1, e2, e3, e4, e5, h1, h2.symm⟩
  · cases h

/-- a point is listed whose order is the prime or one that comes before it -/
theorem trial_first {c : Config} {T : Nat → Pick} {x : Cur} (h : Inv (invalid c) T 7 x) {E : Crv} {l : List (Group.Sub E.Pt)}
    (hl : x.gens = some ⟨E, l⟩) (primes : List Nat) {v : Output.Curve}
    (hv : outCurve (withTrial primes x E l) = some v) {q : Nat} (hq : q ∈ primes) (hqp : q.Prime) (hd : q ∣ Nat.card E.Pt) :
    ∃ pre r post, primes = pre ++ r :: post ∧ q ∈ r :: post ∧ HasPoint (curveV v) r := by
  obtain ⟨E', l', hE, hl', hk, -⟩ := h.gens (by omega)
  rw [hl] at hl'
  cases hl'
  obtain ⟨f, a, b, n, E', l', gs, e1, e2, e3, e4, e5, hgs, rfl⟩ := printed_values hv
  cases e5
  obtain ⟨P, hP, hqP⟩ := prime_of_generators _ (hk.all (Or.inr rfl)) hqp hd
  obtain ⟨g, hg, rfl⟩ := List.mem_map.1 hP
  have hg' := hg
  rw [← trial_gens primes (l.map Group.Sub.gen)] at hg'
  obtain ⟨s, hsm, rfl⟩ := List.mem_map.1 hg'
  rw [← hk.order _ hg] at hqP
  rcases (Group.points_trial_partial primes _ (known_positive hk)).2 s hsm with ⟨-, h5⟩ | ⟨pre, r, post, p, e, h4, -, h5, h6, h7, -⟩
  · exact absurd hqP (h5 q hq)
  · refine ⟨pre, r, post, e, ?_, ?_⟩
    · rw [e] at hq
      exact (List.mem_append.1 hq).resolve_left fun hq => h4 q hq hqP
    · have hgs := allSome_eq _ _ hgs
      have hm : outSub E s ∈ gs.map some := hgs ▸ List.mem_map_of_mem hsm
      obtain ⟨sub, hsub, he⟩ := List.mem_map.1 hm
      have he := he.symm
      unfold outSub at he
      simp only [h5, List.map_cons, List.map_nil, Option.bind_some, Option.bind_eq_some_iff, Option.map_eq_some_iff] at he
      obtain ⟨g', -, ps, hps, rfl⟩ := he
      have hps := allSome_eq _ _ hps
      obtain ⟨p', rfl⟩ : ∃ p', ps = [p'] := by
        have := congrArg List.length hps
        simp only [List.length_cons, List.length_nil, List.length_map] at this
        exact List.length_eq_one_iff.1 this.symm
      simp only [List.map_cons, List.map_nil, List.cons.injEq, and_true] at hps
      refine ⟨_, List.mem_map_of_mem hsub, pointV p', by simp, ?_⟩
      rw [(point_printed E none p p' hps).2.2.1, h6]

theorem trial_listed {c : Config} {T : Nat → Pick} {x : Cur} (h : Inv (invalid c) T 7 x) {E : Crv} {l : List (Group.Sub E.Pt)}
    (hl : x.gens = some ⟨E, l⟩) (primes : List Nat) (hs : primes.Pairwise (· < ·)) {v : Output.Curve}
    (hv : outCurve (withTrial primes x E l) = some v) {q : Nat} (hq : q ∈ primes) (hqp : q.Prime) (hd : q ∣ Nat.card E.Pt) :
    ∃ r ∈ primes, r ≤ q ∧ HasPoint (curveV v) r := by
  obtain ⟨pre, r, post, e, hm, hp⟩ := trial_first h hl primes hv hq hqp hd
  refine ⟨r, by rw [e]; simp, ?_, hp⟩
  rw [e] at hs
  rcases List.mem_cons.1 hm with rfl | hm
  · exact Nat.le_refl _
  · exact Nat.le_of_lt ((List.pairwise_cons.1 (List.pairwise_append.1 hs).2.1).1 q hm)

end Ecgen.InvalidRun
