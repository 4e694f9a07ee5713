import Verif.Poly.Model
import Mathlib.Tactic.Tauto

/-!
# Lemmas about the polynomial tables
-/

namespace Ecgen.Poly

/-- degrees strictly increase, starting above `k`, and satisfy `p` -/
def checkRows (p : Row → Bool) : Nat → List Row → Bool
  | _, [] => true
  | k, r :: t => Nat.blt k r.m && (p r && checkRows p r.m t)

/-- every degree `m, …, m+n-1` is the head of one of the two lists in turn -/
def cover : Nat → Nat → List Row → List Row → Bool
  | 0, _, _, _ => true
  | n + 1, m, [], [] => m == 1060 && cover n (m + 1) [] []
  | n + 1, m, a :: s, [] =>
    bif a.m == m then cover n (m + 1) s [] else m == 1060 && cover n (m + 1) (a :: s) []
  | n + 1, m, [], b :: t =>
    bif b.m == m then cover n (m + 1) [] t else m == 1060 && cover n (m + 1) [] (b :: t)
  | n + 1, m, a :: s, b :: t =>
    bif a.m == m then cover n (m + 1) s (b :: t)
    else bif b.m == m then cover n (m + 1) (a :: s) t
    else m == 1060 && cover n (m + 1) (a :: s) (b :: t)

def triOk (r : Row) : Bool :=
  Nat.ble r.m 10000 && (Nat.blt 0 r.e1 && (Nat.blt r.e1 r.m && (r.e2 == 0 && r.e3 == 0)))

def pentaOk (r : Row) : Bool :=
  Nat.ble r.m 10000 && (Nat.blt 0 r.e1 && (Nat.blt r.e1 r.m && (Nat.blt 0 r.e2 && (Nat.blt r.e2 r.m &&
    (Nat.blt 0 r.e3 && (Nat.blt r.e3 r.m && (r.e1 != r.e2 && (r.e1 != r.e3 && r.e2 != r.e3))))))))

theorem hpTri_ok : checkRows triOk 1 hpTrinomials = true := by decide +kernel
theorem hpPenta_ok : checkRows pentaOk 1 hpPentanomials = true := by decide +kernel
theorem ansiTri_ok : checkRows triOk 1 ansiTrinomials = true := by decide +kernel
theorem ansiPenta_ok : checkRows pentaOk 1 ansiPentanomials = true := by decide +kernel
theorem ansi_cover : cover 1841 160 ansiTrinomials ansiPentanomials = true := by decide +kernel
theorem hp_cover_lo : cover 158 2 hpTrinomials hpPentanomials = true := by decide +kernel
theorem hp_cover_hi : cover 8000 2001 (hpTrinomials.drop 97) (hpPentanomials.drop 61) = true := by
  decide +kernel

theorem checkRows_mem (p : Row → Bool) (k : Nat) (l : List Row) (h : checkRows p k l = true) :
    ∀ r ∈ l, k < r.m ∧ p r = true := by
  induction l generalizing k with
  | nil => intro r hr; cases hr
  | cons a t ih =>
    simp only [checkRows, Bool.and_eq_true, Nat.blt_eq] at h
    intro r hr
    rcases List.mem_cons.1 hr with rfl | hr
    · exact ⟨h.1, h.2.1⟩
    · have := ih _ h.2.2 r hr
      exact ⟨by omega, this.2⟩

theorem checkRows_pairwise (p : Row → Bool) (k : Nat) (l : List Row) (h : checkRows p k l = true) :
    l.Pairwise fun a b => a.m < b.m := by
  induction l generalizing k with
  | nil => exact List.Pairwise.nil
  | cons a t ih =>
    simp only [checkRows, Bool.and_eq_true, Nat.blt_eq] at h
    exact List.Pairwise.cons (fun r hr => (checkRows_mem p _ t h.2.2 r hr).1) (ih _ h.2.2)

theorem cover_mem (n m : Nat) (s t : List Row) (h : cover n m s t = true) (j : Nat) (hj : m ≤ j ∧ j < m + n)
    (hne : j ≠ 1060) : (∃ r ∈ s, r.m = j) ∨ (∃ r ∈ t, r.m = j) := by
  fun_induction cover n m s t with
  | case1 => omega
  | case2 n m  ih =>
    simp only [Bool.and_eq_true, beq_iff_eq] at h
    exact ih h.2 (by omega)
  | case3 n m a s e ih =>
    by_cases hjm : j = m
    · exact Or.inl ⟨a, List.mem_cons_self, by rw [hjm]; simpa using e⟩
    · rcases ih h (by omega) with ⟨r, hr, e⟩ | ⟨r, hr, e⟩
      · exact Or.inl ⟨r, List.mem_cons_of_mem _ hr, e⟩
      · exact Or.inr ⟨r, hr, e⟩
  | case4 n m a s e ih =>
    simp only [Bool.and_eq_true, beq_iff_eq] at h
    exact ih h.2 (by omega)
  | case5 n m b t e ih =>
    by_cases hjm : j = m
    · exact Or.inr ⟨b, List.mem_cons_self, by rw [hjm]; simpa using e⟩
    · rcases ih h (by omega) with ⟨r, hr, e⟩ | ⟨r, hr, e⟩
      · exact Or.inl ⟨r, hr, e⟩
      · exact Or.inr ⟨r, List.mem_cons_of_mem _ hr, e⟩
  | case6 n m b t e ih =>
    simp only [Bool.and_eq_true, beq_iff_eq] at h
    exact ih h.2 (by omega)
  | case7 n m a s b t e ih =>
    by_cases hjm : j = m
    · exact Or.inl ⟨a, List.mem_cons_self, by rw [hjm]; simpa using e⟩
    · rcases ih h (by omega) with ⟨r, hr, e⟩ | ⟨r, hr, e⟩
      · exact Or.inl ⟨r, List.mem_cons_of_mem _ hr, e⟩
      · exact Or.inr ⟨r, hr, e⟩
  | case8 n m a s b t e1 e ih =>
    by_cases hjm : j = m
    · exact Or.inr ⟨b, List.mem_cons_self, by rw [hjm]; simpa using e⟩
    · rcases ih h (by omega) with ⟨r, hr, e⟩ | ⟨r, hr, e⟩
      · exact Or.inl ⟨r, hr, e⟩
      · exact Or.inr ⟨r, List.mem_cons_of_mem _ hr, e⟩
  | case9 n m a s b t e1 e2 ih =>
    simp only [Bool.and_eq_true, beq_iff_eq] at h
    exact ih h.2 (by omega)

theorem compare_small (m : Nat) (r : Row) (hm : m ≤ 10000) (hr : r.m ≤ 10000) :
    compare m r = (m : Int) - r.m := by
  unfold compare
  rw [Int.bmod_def]
  split <;> omega

theorem find_in (m : Nat) (hm : m ≤ 10000) (l : List Row) (hb : ∀ r ∈ l, r.m ≤ 10000)
    (hp : l.Pairwise fun a b => a.m < b.m) (r : Row) (hr : r ∈ l) (e : r.m = m) :
    bsearch (compare m) l = some r := by
  apply bsearch_complete _ _ _ hr
  · rw [compare_small m r hm (hb r hr)]; omega
  · refine List.Pairwise.imp_of_mem ?_ hp
    intro a b ha hb' hab
    rw [compare_small m a hm (hb a ha), compare_small m b hm (hb b hb')]
    omega

/-- the rows of the tables chosen for `m`: sorted, bounded and well-formed -/
theorem chosen_ok (m : Nat) :
    (∀ r ∈ (chosen m).1, 1 < r.m ∧ triOk r = true) ∧ (∀ r ∈ (chosen m).2, 1 < r.m ∧ pentaOk r = true) ∧
    ((chosen m).1.Pairwise fun a b => a.m < b.m) ∧ ((chosen m).2.Pairwise fun a b => a.m < b.m) := by
  unfold chosen
  split
  · exact ⟨checkRows_mem _ _ _ hpTri_ok, checkRows_mem _ _ _ hpPenta_ok, checkRows_pairwise _ _ _ hpTri_ok,
      checkRows_pairwise _ _ _ hpPenta_ok⟩
  · exact ⟨checkRows_mem _ _ _ ansiTri_ok, checkRows_mem _ _ _ ansiPenta_ok, checkRows_pairwise _ _ _ ansiTri_ok,
      checkRows_pairwise _ _ _ ansiPenta_ok⟩

theorem chosen_cover (m : Nat) (h : 2 ≤ m) (h' : m ≤ 10000) (hne : m ≠ 1060) :
    (∃ r ∈ (chosen m).1, r.m = m) ∨ (∃ r ∈ (chosen m).2, r.m = m) := by
  unfold chosen
  split
  · by_cases hlo : m < 160
    · exact cover_mem _ _ _ _ hp_cover_lo m (by omega) hne
    · rcases cover_mem _ _ _ _ hp_cover_hi m (by omega) hne with ⟨r, hr, e⟩ | ⟨r, hr, e⟩
      · exact Or.inl ⟨r, List.mem_of_mem_drop hr, e⟩
      · exact Or.inr ⟨r, List.mem_of_mem_drop hr, e⟩
  · exact cover_mem _ _ _ _ ansi_cover m (by omega) hne

theorem triOk_bound (r : Row) (h : triOk r = true) : r.m ≤ 10000 ∧ 0 < r.e1 ∧ r.e1 < r.m ∧ r.e2 = 0 ∧ r.e3 = 0 := by
  simp [triOk] at h
  have h1 := h.1
  have h2 := h.2.2.1
  exact ⟨h1, h.2.1, h2, h.2.2.2.1, h.2.2.2.2⟩

theorem pentaOk_bound (r : Row) (h : pentaOk r = true) : r.m ≤ 10000 ∧ 0 < r.e1 ∧ r.e1 < r.m ∧ 0 < r.e2 ∧
    r.e2 < r.m ∧ 0 < r.e3 ∧ r.e3 < r.m ∧ r.e1 ≠ r.e2 ∧ r.e1 ≠ r.e3 ∧ r.e2 ≠ r.e3 := by
  simp [pentaOk] at h
  tauto

end Ecgen.Poly
