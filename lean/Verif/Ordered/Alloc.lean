import Verif.Ordered.Examples
import Mathlib.Analysis.Complex.ExponentialBounds
import Mathlib.Analysis.SpecialFunctions.Log.Basic

/-!
# Prime orders for which the search for a discriminant never begins (C106)

The search of `--order` for a prime order collects the primes modulo which the order is a square, at first those up to the rounded logarithm of the
order. When there are none, the array that would hold them is reallocated to the size 0, which ends the program with the GNU C library.
-/

namespace Ecgen.Ordered

open Whole Output Output.Spec Cli Cm.Construct

/-- the order is a square modulo the prime `q` that the search takes: for 2, it is 1 or 7 modulo 8 -/
def Taken (N q : Nat) : Prop := if q = 2 then N % 8 = 1 ∨ N % 8 = 7 else (N : ZMod q) ≠ 0 ∧ IsSquare (N : ZMod q)

/-- PARI's rounded logarithm -/
def LogSpec (logN : Nat → Nat) : Prop := ∀ n, 1 ≤ n → |(logN n : ℝ) - Real.log n| ≤ 1 / 2

theorem kronecker_one {N q : Nat} (hq : q.Prime) : kronecker N q = 1 ↔ Taken N q := by
  unfold kronecker Taken
  split
  · have h8 : ∀ z : ZMod 8, ZMod.χ₈ z = 1 ↔ z = 1 ∨ z = 7 := by decide
    rw [h8]
    have : ∀ k : Nat, k < 8 → ((N : ZMod 8) = (k : Nat) ↔ N % 8 = k) := by
      intro k hk
      rw [ZMod.natCast_eq_natCast_iff]
      unfold Nat.ModEq
      rw [Nat.mod_eq_of_lt hk]
    have h1 := this 1 (by decide)
    have h7 := this 7 (by decide)
    push_cast at h1 h7
    rw [h1, h7]
  · letI : Fact q.Prime := ⟨hq⟩
    rw [← jacobiSym.legendreSym.to_jacobiSym]
    constructor
    · intro h
      have h0 : ((N : Int) : ZMod q) ≠ 0 := by
        intro h0
        rw [(legendreSym.eq_zero_iff q N).2 h0] at h
        cases h
      have := (legendreSym.eq_one_iff q h0).1 h
      push_cast at h0 this
      exact ⟨h0, this⟩
    · rintro ⟨h0, hs⟩
      exact (legendreSym.eq_one_iff q (by push_cast; exact h0)).2 (by push_cast; exact hs)

/-- **C106**: the array is reallocated to the size 0 exactly when it was empty and no prime of the interval is taken -/
theorem empty_array {isprime : Int → Bool} (hip : PrimeSpec isprime) (logN N r : Nat) (Sp : List Int) :
    addPrimes isprime logN N r Sp = none ↔ Sp = [] ∧ ∀ q : Nat, q.Prime → r * logN ≤ q → q ≤ (r + 1) * logN → ¬ Taken N q := by
  unfold addPrimes
  simp only [List.length_eq_zero_iff, ite_eq_left_iff, reduceCtorEq, imp_false, not_not, List.append_eq_nil_iff, List.map_eq_nil_iff, List.filter_eq_nil_iff]
  refine and_congr_right fun _ => ⟨fun h q hq h1 h2 ht => ?_, fun h q hq hk => ?_⟩
  · refine h q (List.mem_range'_1.2 ⟨h1, by rw [Nat.succ_mul] at h2; omega⟩) ?_
    rw [Bool.and_eq_true, beq_iff_eq]
    exact ⟨(hip q).2 ⟨q, rfl, hq⟩, (kronecker_one hq).2 ht⟩
  · obtain ⟨h1, h2⟩ := List.mem_range'_1.1 hq
    rw [Bool.and_eq_true, beq_iff_eq] at hk
    obtain ⟨m, hm, hmp⟩ := (hip q).1 hk.1
    have : q = m := by exact_mod_cast hm
    subst this
    exact h q hmp h1 (by rw [Nat.succ_mul]; omega) ((kronecker_one hmp).1 hk.2)

/-- **C106**: only the first call can do so: whatever the search has found, the array then holds something -/
theorem later_array {isprime : Int → Bool} {cornacchia2 : Nat → Nat → Option (Int × Int)} {logN N fuel : Nat} {s s' : QState} {f : Found}
    (h : qdiscNext isprime cornacchia2 logN N fuel s = some (f, s')) : s'.Sp ≠ [] := by
  have hadd : ∀ r Sp Sp', addPrimes isprime logN N r Sp = some Sp' → Sp' ≠ [] := by
    intro r Sp Sp' h0 h1
    subst h1
    unfold addPrimes at h0
    simp only at h0
    split at h0
    · cases h0
    · rename_i hl
      injection h0 with h0
      rw [h0] at hl
      exact hl rfl
  unfold qdiscNext at h
  obtain ⟨s0, hs0, h'⟩ := Option.bind_eq_some_iff.1 h
  clear h
  have h0 : s0.Sp ≠ [] := by
    split at hs0
    · obtain ⟨Sp, hSp, rfl⟩ := Option.map_eq_some_iff.1 hs0
      exact hadd _ _ _ hSp
    · rename_i hn
      cases hs0
      intro e
      exact hn (Or.inr (by rw [e]; rfl))
  clear hs0
  induction fuel generalizing s0 with
  | zero => cases h'
  | succ fuel ih =>
    unfold nextLoop at h'
    split at h'
    · split at h'
      · cases h'
        exact h0
      · exact ih _ h' h0
    · obtain ⟨Sp, hSp, h'⟩ := Option.bind_eq_some_iff.1 h'
      exact ih _ h' (hadd _ _ _ hSp)

/-- no curve is constructed when the first call ends the program -/
theorem dead_prime {C : Cm.Construct.Calls} {isprime : Int → Bool} {cornacchia2 : Nat → Nat → Option (Int × Int)} {logN N fuel n : Nat}
    (h : addPrimes isprime logN N 0 [] = none) : cmGenPrime C isprime cornacchia2 logN N fuel n = none := by
  unfold cmGenPrime
  cases n with
  | zero => rfl
  | succ n =>
    have e : qdiscNext isprime cornacchia2 logN N fuel ⟨0, 0, []⟩ = none := by
      unfold qdiscNext
      rw [if_pos (Or.inr (show ([] : List Int).length = 0 from rfl))]
      dsimp only
      rw [h]
      rfl
    unfold genPrime
    rw [e]

/-- **C106**: when the order asked for is prime and no prime up to its rounded logarithm is taken, no curve is printed, whatever the run does -/
theorem order_dead (P : Pari) (hP : P.Ok) (c : Config) (h : c.method = METHOD_CM) (N : Nat) (hacc : accepted P c = some (N, true))
    (hN : ∀ q : Nat, q.Prime → q ≤ P.logN N → ¬ Taken N q) (T : Nat → Pick) (hT : TapeOk P c true N T) (fuel count : Nat) (w : W) (hw : Behaves T w) :
    Json.generated (one P c fuel) count w = [] := by
  cases hg : Json.generated (one P c fuel) count w with
  | nil => rfl
  | cons v l =>
    obtain ⟨x, hx, hv⟩ := generated_complete P hP c h hacc T hT fuel count w hw v (by rw [hg]; exact List.mem_cons_self)
    obtain ⟨-, -, i, r, hb, -⟩ := curve_sound x hx v hv
    unfold built at hb
    rw [if_pos rfl, dead_prime ((empty_array (isprimeI_spec hP) _ _ _ _).2 ⟨rfl, fun q hq _ h2 => hN q hq (by omega)⟩)] at hb
    cases hb

/-! ## The order 53 -/

theorem log53 (logN : Nat → Nat) (h : LogSpec logN) : logN 53 = 4 := by
  have h1 := h 53 (by decide)
  rw [abs_le] at h1
  have e1 := Real.exp_one_gt_d9
  have e2 := Real.exp_one_lt_d9
  have l1 : (7 / 2 : ℝ) < Real.log 53 := by
    rw [Real.lt_log_iff_exp_lt (by norm_num)]
    have : Real.exp (7 / 2) ^ 2 = Real.exp 1 ^ 7 := by
      rw [← Real.exp_nat_mul, ← Real.exp_nat_mul]
      norm_num
    have h7 : Real.exp 1 ^ 7 < 2.7182818286 ^ 7 := pow_lt_pow_left₀ e2 (Real.exp_pos 1).le (by decide)
    refine lt_of_pow_lt_pow_left₀ 2 (by norm_num) ?_
    rw [this]
    refine h7.trans ?_
    norm_num
  have l2 : Real.log 53 < (9 / 2 : ℝ) := by
    rw [Real.log_lt_iff_lt_exp (by norm_num)]
    have : Real.exp (9 / 2) ^ 2 = Real.exp 1 ^ 9 := by
      rw [← Real.exp_nat_mul, ← Real.exp_nat_mul]
      norm_num
    have h9 : (2.7182818283 : ℝ) ^ 9 < Real.exp 1 ^ 9 := pow_lt_pow_left₀ e1 (by norm_num) (by decide)
    refine lt_of_pow_lt_pow_left₀ 2 (Real.exp_pos _).le ?_
    rw [this]
    refine lt_trans ?_ h9
    norm_num
  push_cast at h1
  have a1 : (3 : ℝ) < logN 53 := by linarith [h1.1, h1.2]
  have a2 : (logN 53 : ℝ) < 5 := by linarith [h1.1, h1.2]
  have b1 : 3 < logN 53 := by exact_mod_cast a1
  have b2 : logN 53 < 5 := by exact_mod_cast a2
  omega

/-- 53 is a square modulo neither 2 (in the sense above) nor 3 -/
theorem taken53 : ∀ q : Nat, q.Prime → q ≤ 4 → ¬ Taken 53 q := by
  intro q hq hl
  have := hq.two_le
  have : q = 2 ∨ q = 3 ∨ q = 4 := by omega
  rcases this with rfl | rfl | rfl
  · unfold Taken
    decide
  · unfold Taken
    rw [if_neg (by decide)]
    decide +kernel
  · exact absurd hq (by decide)

/-- `--fp --order=53 6` -/
def cD : Config := (commandLine 3 [.fp, .order "53".toList, .arg "6".toList]).get (by decide +kernel)

local instance : Fact (Nat.Prime 43) := ⟨by norm_num⟩

/-- **C106**: a run of `ecgen --fp --order=53 6` prints no curve, with any PARI that rounds logarithms; there is such a curve: `y² = x³ + 35x + 24` over
the field of 43 elements has 53 points -/
theorem order_53_dead (P : Pari) (hP : P.Ok) (hl : LogSpec P.logN) (T : Nat → Pick) (hT : TapeOk P cD true 53 T)
    (hacc : accepted P cD = some (53, true)) (fuel count : Nat) (w : W) (hw : Behaves T w) :
    commandLine 3 [.fp, .order "53".toList, .arg "6".toList] = some cD ∧ Json.generated (one P cD fuel) count w = [] ∧
    Count.card (35 : ZMod 43) 24 = 53 :=
  ⟨(Option.some_get _).symm,
    order_dead P hP cD (by decide +kernel) 53 hacc (by rw [log53 _ hl]; exact taken53) T hT fuel count w hw, by decide +kernel⟩

/-- PARI with rounded logarithms -/
noncomputable def pariD : Pari := { pari (fun _ _ => none) (fun _ _ => []) with logN := fun n => (round (Real.log n)).toNat }

theorem pariD_log : LogSpec pariD.logN := by
  intro n hn
  have h0 : (0 : ℤ) ≤ round (Real.log n) := by
    have : (0 : ℝ) ≤ Real.log n := Real.log_nonneg (by exact_mod_cast hn)
    rw [round_eq]
    exact Int.floor_nonneg.2 (by linarith)
  have e : ((pariD.logN n : ℕ) : ℝ) = (round (Real.log n) : ℤ) := by
    have : ((pariD.logN n : ℕ) : ℤ) = round (Real.log n) := Int.toNat_of_nonneg h0
    exact_mod_cast this
  rw [e, abs_sub_comm]
  exact abs_sub_round _

/-- **C106, met**: such runs exist; and the order 71 is not concerned, `order_run_met` is a run that prints a curve of this order -/
theorem order_dead_met : pariD.Ok ∧ LogSpec pariD.logN ∧ accepted pariD cD = some (53, true) ∧ TapeOk pariD cD true 53 (fun _ => pickR) ∧
    Behaves (fun _ => pickR) ⟨{}, fun _ => pickR, 0, false⟩ ∧ Taken 71 2 := by
  have hok : pariD.Ok := ⟨(pari_ok (fun _ _ => none) (fun _ _ => [])).base, (pari_ok (fun _ _ => none) (fun _ _ => [])).strtoi⟩
  refine ⟨hok, pariD_log, ?_, ⟨fun _ => pick_behaves cD 2 59 (8, 55) (1, 8) 44, fun i j r hp hb _ => ?_⟩, ?_, ?_⟩
  · unfold accepted
    rw [Option.join_eq_some_iff, order_accepted, show pariD.isprimeI = exactPrime from pari_prime (fun _ _ => none) (fun _ _ => [])]
    decide +kernel
  · exfalso
    unfold built at hb
    rw [if_pos rfl, dead_prime ((empty_array (isprimeI_spec hok) _ _ _ _).2 ⟨rfl, fun q hq _ h2 => taken53 q hq ?_⟩)] at hb
    · cases hb
    · rw [log53 _ pariD_log] at h2
      omega
  · exact rfl
  · unfold Taken
    decide

end Ecgen.Ordered
