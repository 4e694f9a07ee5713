import Mathlib.Tactic.Ring
import Mathlib.Algebra.Order.Ring.Int

/-!
# Integer polynomials as coefficient lists (constant term first), for kernel-checked identities
-/

namespace Ecgen.LP

/-- value at `x` -/
def ev : List Int → Int → Int
  | [], _ => 0
  | c :: p, x => c + x * ev p x

def add : List Int → List Int → List Int
  | [], q => q
  | p, [] => p
  | a :: p, b :: q => (a + b) :: add p q

def scale (c : Int) (p : List Int) : List Int := p.map (c * ·)

def mul : List Int → List Int → List Int
  | [], _ => []
  | a :: p, q => add (scale a q) (0 :: mul p q)

def comp : List Int → List Int → List Int
  | [], _ => []
  | a :: p, q => add [a] (mul q (comp p q))

/-- drop the zero coefficients at the end -/
def trim (p : List Int) : List Int := (p.reverse.dropWhile (· == 0)).reverse

/-- exact division, leading coefficients first (only used to find a cofactor, which is then checked) -/
def divRev (b : List Int) : Nat → List Int → List Int
  | 0, _ => []
  | n + 1, a =>
    match a, b with
    | x :: _, y :: _ =>
      let c := x / y
      c :: divRev b n (add a (scale (-c) b)).tail
    | _, _ => []

def div (a b : List Int) : List Int :=
  (divRev b.reverse (a.length + 1 - b.length) a.reverse).reverse

@[simp] theorem ev_nil (x : Int) : ev [] x = 0 := rfl
@[simp] theorem ev_cons (c : Int) (p : List Int) (x : Int) : ev (c :: p) x = c + x * ev p x := rfl

theorem ev_add (p q : List Int) (x : Int) : ev (add p q) x = ev p x + ev q x := by
  fun_induction add p q with
  | case1 => simp
  | case2 => simp
  | case3 a p b q ih => simp only [ev_cons, ih]; ring

theorem ev_scale (c : Int) (p : List Int) (x : Int) : ev (scale c p) x = c * ev p x := by
  induction p with
  | nil => simp [scale]
  | cons a p ih =>
    simp only [scale, List.map_cons, ev_cons] at ih ⊢
    rw [ih]; ring

theorem ev_mul (p q : List Int) (x : Int) : ev (mul p q) x = ev p x * ev q x := by
  induction p with
  | nil => simp [mul]
  | cons a p ih => rw [mul, ev_add, ev_scale, ev_cons, ih, ev_cons]; ring

theorem ev_comp (p q : List Int) (x : Int) : ev (comp p q) x = ev p (ev q x) := by
  induction p with
  | nil => simp [comp]
  | cons a p ih => rw [comp, ev_add, ev_mul, ih]; simp

theorem ev_append_zeros (p : List Int) (n : Nat) (x : Int) : ev (p ++ List.replicate n 0) x = ev p x := by
  induction p with
  | nil =>
    induction n with
    | zero => rfl
    | succ n ih => rw [List.replicate_succ]; simp only [List.nil_append, ev_cons] at ih ⊢; rw [ih]; simp
  | cons a p ih => simp only [List.cons_append, ev_cons, ih]

/-- equality up to trailing zeros -/
def eqv : List Int → List Int → Bool
  | [], q => q.all (· == 0)
  | p, [] => p.all (· == 0)
  | a :: p, b :: q => a == b && eqv p q

theorem ev_zero (p : List Int) (h : p.all (· == 0) = true) (x : Int) : ev p x = 0 := by
  induction p with
  | nil => rfl
  | cons a p ih =>
    simp only [List.all_cons, Bool.and_eq_true, beq_iff_eq] at h
    simp only [ev_cons, h.1, ih h.2]; simp

theorem ev_eqv (p q : List Int) (h : eqv p q = true) (x : Int) : ev p x = ev q x := by
  fun_induction eqv p q with
  | case1 q => rw [ev_zero q h]; rfl
  | case2 p => rw [ev_zero p h]; rfl
  | case3 a p b q ih =>
    simp only [Bool.and_eq_true, beq_iff_eq] at h
    simp only [ev_cons, h.1, ih h.2]

/-- nonnegative coefficients and argument -/
theorem ev_nonneg (p : List Int) (h : p.all (0 ≤ ·) = true) (x : Int) (hx : 0 ≤ x) : 0 ≤ ev p x := by
  induction p with
  | nil => simp
  | cons a p ih =>
    simp only [List.all_cons, Bool.and_eq_true, decide_eq_true_eq] at h
    simp only [ev_cons]
    have := ih h.2
    have := Int.mul_nonneg hx this
    omega

/-- positive constant term -/
theorem ev_pos (a : Int) (p : List Int) (ha : 0 < a) (h : p.all (0 ≤ ·) = true) (x : Int) (hx : 0 ≤ x) :
    0 < ev (a :: p) x := by
  have := Int.mul_nonneg hx (ev_nonneg p h x hx)
  simp only [ev_cons]
  omega

/-- all coefficients nonnegative and the constant term positive -/
def posL : List Int → Bool
  | [] => false
  | a :: p => decide (0 < a) && p.all (0 ≤ ·)

theorem ev_posL (p : List Int) (h : posL p = true) (x : Int) (hx : 0 ≤ x) : 0 < ev p x := by
  cases p with
  | nil => cases h
  | cons a p =>
    simp only [posL, Bool.and_eq_true, decide_eq_true_eq] at h
    exact ev_pos a p h.1 h.2 x hx

end Ecgen.LP
