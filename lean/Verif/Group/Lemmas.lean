import Verif.Group.Model
import Verif.Group.Spec

/-!
# Lemmas on groups with two generators
-/

namespace Ecgen.Group

open AddSubgroup

variable {A : Type} [AddCommGroup A]

theorem card_one (g : A) (h : ∀ x : A, x ∈ zmultiples g) : Nat.card A = addOrderOf g := by
  rw [← Nat.card_zmultiples, (eq_top_iff' _).2 h, AddSubgroup.card_top]

theorem card_two (g h : A) (hd : Disjoint (zmultiples g) (zmultiples h))
    (hs : ∀ x : A, ∃ a b : ℤ, x = a • g + b • h) : Nat.card A = addOrderOf g * addOrderOf h := by
  let f : zmultiples g × zmultiples h → A := fun p => (p.1 : A) + p.2
  have hf : Function.Bijective f := by
    constructor
    · rintro ⟨⟨a, ha⟩, ⟨b, hb⟩⟩ ⟨⟨c, hc⟩, ⟨d, hd'⟩⟩ e
      have e' : a + b = c + d := e
      have e2 : a - c = d - b := by
        rw [sub_eq_sub_iff_add_eq_add, e', add_comm]
      have h1 : a - c ∈ zmultiples g := sub_mem ha hc
      have h2 : a - c ∈ zmultiples h := e2 ▸ sub_mem hd' hb
      have h3 : a - c = 0 := by
        have := (disjoint_iff_inf_le.1 hd) (show a - c ∈ zmultiples g ⊓ zmultiples h from ⟨h1, h2⟩)
        exact (mem_bot).1 this
      have h4 : a = c := sub_eq_zero.1 h3
      have h5 : b = d := by rw [h3] at e2; exact (sub_eq_zero.1 e2.symm).symm
      subst h4 h5; rfl
    · intro x
      obtain ⟨a, b, e⟩ := hs x
      exact ⟨(⟨a • g, zsmul_mem (mem_zmultiples g) a⟩, ⟨b • h, zsmul_mem (mem_zmultiples h) b⟩), e.symm⟩
  rw [← Nat.card_congr (Equiv.ofBijective f hf), Nat.card_prod, Nat.card_zmultiples, Nat.card_zmultiples]

/-- two generators: the order of the first one kills the group -/
theorem exponent_two (g h : A) (hdvd : addOrderOf h ∣ addOrderOf g)
    (hs : ∀ x : A, ∃ a b : ℤ, x = a • g + b • h) (x : A) : addOrderOf g • x = 0 := by
  obtain ⟨a, b, rfl⟩ := hs x
  rw [smul_add, smul_comm, addOrderOf_nsmul_eq_zero, smul_zero, zero_add, smul_comm,
    addOrderOf_dvd_iff_nsmul_eq_zero.1 hdvd, smul_zero]

/-- such a finite group is not cyclic -/
theorem not_cyclic [Finite A] (g h : A) (hh : h ≠ 0) (hdvd : addOrderOf h ∣ addOrderOf g)
    (hd : Disjoint (zmultiples g) (zmultiples h)) (hs : ∀ x : A, ∃ a b : ℤ, x = a • g + b • h) : ¬ IsAddCyclic A := by
  intro hc
  have h1 : AddMonoid.exponent A ∣ addOrderOf g :=
    AddMonoid.exponent_dvd_of_forall_nsmul_eq_zero (exponent_two g h hdvd hs)
  rw [IsAddCyclic.exponent_eq_card, card_two g h hd hs] at h1
  have h2 : 0 < addOrderOf g := addOrderOf_pos g
  have h3 := Nat.le_of_dvd h2 h1
  have h4 : 2 ≤ addOrderOf h := by
    have : addOrderOf h ≠ 1 := fun e => hh (AddMonoid.addOrderOf_eq_one_iff.1 e)
    have := addOrderOf_pos h
    omega
  have : addOrderOf g * 2 ≤ addOrderOf g * addOrderOf h := Nat.mul_le_mul_left _ h4
  omega

omit [AddCommGroup A] in
theorem mapM_spec {P : Sub A → Prop} (f : Pt A → Option (Sub A)) (gens : List (Pt A))
    (h : ∀ g ∈ gens, ∃ s, f g = some s ∧ s.gen = g ∧ P s) :
    ∃ subs, gens.mapM f = some subs ∧ subs.map Sub.gen = gens ∧ ∀ s ∈ subs, P s := by
  induction gens with
  | nil => exact ⟨[], rfl, rfl, by simp⟩
  | cons g gens ih =>
    obtain ⟨subs, e, h1, h2⟩ := ih (fun g hg => h g (List.mem_cons_of_mem _ hg))
    obtain ⟨s, es, hs1, hs2⟩ := h g (List.mem_cons_self ..)
    refine ⟨s :: subs, by simp [List.mapM_cons, es, e], by simp [hs1, h1], ?_⟩
    intro t ht
    rcases List.mem_cons.1 ht with rfl | ht
    · exact hs2
    · exact h2 t ht

omit [AddCommGroup A] in
theorem trialOrders_some (g : Pt A) (l : List Nat) : ∀ primes, trialOrders g primes (some l) = some l := by
  intro primes
  induction primes with
  | nil => rfl
  | cons a primes ih => rw [trialOrders]; split <;> exact ih

omit [AddCommGroup A] in
theorem trialOrders_spec (g : Pt A) (primes : List Nat) :
    (trialOrders g primes none = none ∧ ∀ l ∈ primes, ¬ l ∣ g.order) ∨
    ∃ pre l post, primes = pre ++ l :: post ∧ (∀ l' ∈ pre, ¬ l' ∣ g.order) ∧ l ∣ g.order ∧
      trialOrders g primes none = some [l] := by
  induction primes with
  | nil => exact Or.inl ⟨rfl, by simp⟩
  | cons a primes ih =>
    rw [trialOrders]
    by_cases h : g.order = a ∨ a ∣ g.order
    · right
      rw [if_pos h]
      refine ⟨[], a, primes, rfl, by simp, ?_, trialOrders_some g [a] primes⟩
      rcases h with h | h
      · rw [h]
      · exact h
    · rw [if_neg h]
      have ha : ¬ a ∣ g.order := fun hh => h (Or.inr hh)
      rcases ih with ⟨e, hn⟩ | ⟨pre, l, post, e1, hpre, hl, e⟩
      · left
        refine ⟨e, fun l hl => ?_⟩
        rcases List.mem_cons.1 hl with rfl | hl
        · exact ha
        · exact hn l hl
      · right
        refine ⟨a :: pre, l, post, by rw [e1]; rfl, fun l' hl' => ?_, hl, e⟩
        rcases List.mem_cons.1 hl' with rfl | hl'
        · exact ha
        · exact hpre l' hl'

theorem sum_set (l : List Nat) (i : Nat) (hi : i < l.length) : (l.set i (l.getD i 0 + 1)).sum = l.sum + 1 := by
  induction l generalizing i with
  | nil => simp at hi
  | cons a l ih =>
    cases i with
    | zero => simp; omega
    | succ i =>
      simp only [List.set_cons_succ, List.sum_cons, List.getD_cons_succ]
      rw [ih i (by simpa using hi)]; omega

theorem distribute_spec (which : Nat → Nat) (ngens npoints : Nat) (hw : ∀ i < npoints, which i < ngens) :
    ∃ counts, distribute which ngens npoints = some counts ∧ counts.length = ngens ∧ counts.sum = npoints := by
  unfold distribute
  refine forN_inv (fun k (c : List Nat) => c.length = ngens ∧ c.sum = k) ⟨by simp, by simp⟩ ?_
  intro k c hk hc
  have hlt : which k < c.length := by rw [hc.1]; exact hw k hk
  rw [if_pos hlt]
  exact ⟨_, rfl, by rw [List.length_set, hc.1], by rw [sum_set _ _ hlt, hc.2]⟩

end Ecgen.Group
