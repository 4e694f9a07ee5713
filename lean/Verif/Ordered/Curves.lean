import Verif.Ordered.Lemmas

/-!
# The curves that `--order` constructs have the order asked for
-/

namespace Ecgen.Ordered

open Whole Output Output.Spec Cli Cm.Construct
open Special (obj)

/-- what PARI promises of the calls of the constructions, and the theorem on complex multiplication (cited, `RootsSpec`) -/
structure Calls.Ok (P : Pari) (T : Nat → Pick) : Prop where
  cornacchia2 : CornacchiaSpec P.cornacchia2
  traces : TracesSpec P.traces
  roots : RootsSpec P.roots
  twist : ∀ i, TwistSpec (T i).T
  rand : ∀ i, RandSpec (T i).rand
  rands : ∀ i, RandsSpec (calls P (T i))

variable {P : Pari} {c : Config} {prime : Bool} {N : Nat} {T : Nat → Pick}

/-- discriminant and field of a curve for a prime order -/
theorem prime_found {C : Cm.Construct.Calls} {isprime : Int → Bool} (hip : PrimeSpec isprime) {cornacchia2 : Nat → Nat → Option (Int × Int)}
    (hco : CornacchiaSpec cornacchia2) {logN N fuel n : Nat} {r : Result} (h : cmGenPrime C isprime cornacchia2 logN N fuel n = some r) :
    r.D < 0 ∧ r.p.Prime ∧ ∃ v : Int, 4 * (r.p : Int) = (r.p + 1 - (N : Int)) ^ 2 + (-r.D) * v ^ 2 := by
  unfold cmGenPrime at h
  generalize (⟨0, 0, []⟩ : QState) = s at h
  induction n generalizing s with
  | zero => cases h
  | succ n ih =>
    unfold genPrime at h
    split at h
    case h_1 => cases h
    case h_2 f s' hf =>
      split at h
      case isFalse => cases h
      case isTrue hp =>
        split at h
        case h_2 => exact ih _ h
        case h_1 r' hr =>
          cases h
          obtain ⟨hneg, h8, p, hfp, hpr, v, hv⟩ := qdiscNext_spec hip hco hf
          have hpp : f.p.toNat = p := by rw [hfp]; rfl
          unfold constructAt at hr
          obtain ⟨e, he, rfl⟩ := Option.map_eq_some_iff.1 hr
          exact ⟨hneg, hp, v, by simpa only [hpp] using hv⟩

/-- the same for a composite order -/
theorem any_found {C : Cm.Construct.Calls} {isprime : Int → Bool} (hip : PrimeSpec isprime) {issquarefree : Nat → Bool}
    {traces : Int → Nat → List Int} (htr : TracesSpec traces) {N fuel : Nat} {r : Result}
    (h : cmGenAny C isprime issquarefree traces N fuel = some (some r)) :
    r.D < 0 ∧ r.p.Prime ∧ ∃ v : Int, 4 * (r.p : Int) = (r.p + 1 - (N : Int)) ^ 2 + (-r.D) * v ^ 2 := by
  unfold cmGenAny at h
  split at h
  case h_1 => cases h
  case h_2 D p hmin =>
    split at h
    case isFalse => cases h
    case isTrue hp =>
      obtain ⟨r', hr', hr⟩ := Option.map_eq_some_iff.1 h
      obtain ⟨e, rfl, rfl⟩ := Option.map_eq_some_iff.1 hr
      obtain ⟨hD, q, rfl, hq, v, hv⟩ := qdiscMinimal_spec hip htr le_rfl hmin
      exact ⟨by change D < 0; omega, hp, v, hv⟩

theorem built_found (hP : P.Ok) (hC : Calls.Ok P T) {i : Nat} {r : Result} (h : built P (T i) prime N = some r) :
    r.D < 0 ∧ r.p.Prime ∧ ∃ v : Int, 4 * (r.p : Int) = (r.p + 1 - (N : Int)) ^ 2 + (-r.D) * v ^ 2 := by
  unfold built at h
  cases prime with
  | true => exact prime_found (isprimeI_spec hP) hC.cornacchia2 h
  | false =>
    rw [if_neg (by decide), Option.join_eq_some_iff] at h
    exact any_found (isprimeI_spec hP) hC.traces h

/-- the field is as large as the order, up to twice the root: for every curve that is constructed, right or wrong -/
theorem built_hasse (hP : P.Ok) (hC : Calls.Ok P T) {i : Nat} {r : Result} (h : built P (T i) prime N = some r) :
    ((r.p : Int) + 1 - N) ^ 2 ≤ 4 * r.p := by
  obtain ⟨h1, -, v, h2⟩ := built_found hP hC h
  nlinarith [mul_nonneg (show 0 ≤ -r.D by omega) (sq_nonneg v)]

/-- an order that leaves the remainder 2 modulo 3 is not `(x² + 3 y²) / 4` -/
theorem disc_ne (N p : Nat) (D v : Int) (h3 : N % 3 = 2) (h : 4 * (p : Int) = (p + 1 - (N : Int)) ^ 2 + (-D) * v ^ 2) : D ≠ -3 := by
  rintro rfl
  have e : 4 * (N : Int) = ((p : Int) - 1 - N) ^ 2 + 3 * v ^ 2 := by linear_combination h
  have hN : (N : Int) % 3 = 2 := by omega
  generalize (p : Int) - 1 - N = x at e
  have : x % 3 = 0 ∨ x % 3 = 1 ∨ x % 3 = 2 := by omega
  have hx : x ^ 2 % 3 = 0 ∨ x ^ 2 % 3 = 1 := by
    rcases this with h | h | h <;> simp [pow_two, Int.mul_emod, h]
  omega

/-- what decides between a curve and its twist for a composite order: no factor of the order is left in that of the twist and no point of the twist comes
first -/
def Decided (P : Pari) (N : Nat) (T : Nat → Pick) : Prop := ∀ i r, built P (T i) false N = some r →
  (Nat.Coprime (N / Nat.gcd N (2 * r.p + 2 - N)) (2 * r.p + 2 - N) ∧ Nat.Coprime ((2 * r.p + 2 - N) / Nat.gcd N (2 * r.p + 2 - N)) N) ∧
  ∀ (_ : Fact r.p.Prime) (e : ZMod r.p × ZMod r.p) q, q ∈ (T i).rands r.p e →
    ellmul e.1 ((2 * r.p + 2 - N) / Nat.gcd N (2 * r.p + 2 - N)) q.2 ≠ none ∧ ellmul e.1 (N / Nat.gcd N (2 * r.p + 2 - N)) q.2 ≠ none

/-- every curve has the order, if it does not belong to the discriminant -3 -/
theorem right (hP : P.Ok) (hC : Calls.Ok P T) (h50 : 50 ≤ N) (hN : prime = true → N.Prime) (h3 : ∀ i r, built P (T i) prime N = some r → r.D ≠ -3)
    (hd : prime = false → Decided P N T) : Right P prime N T := by
  intro i r h
  refine ⟨?_, built_hasse hP hC h⟩
  have h3' := h3 i r h
  cases prime with
  | true =>
    exact prime_order_partial (calls P (T i)) P.isprimeI (isprimeI_spec hP) P.cornacchia2 hC.cornacchia2 hC.roots (hC.rand i) (hC.twist i) (P.logN N) N
      (T i).rounds (T i).tries (hN rfl) h50 r h h3'
  | false =>
    obtain ⟨d1, d2⟩ := hd rfl i r h
    unfold built at h
    rw [if_neg (by decide), Option.join_eq_some_iff] at h
    exact any_order_partial (calls P (T i)) P.isprimeI (isprimeI_spec hP) P.issquarefree P.traces hC.traces hC.roots (hC.twist i) N (T i).rounds h50
      (hC.rands i) r h h3' d1 d2

/-! ## The order as typed -/

theorem factors_split (P : Pari) (hP : P.Ok) (s : List Char) (ns : List Nat) (h : Factors s ns) :
    ((s.splitOn ',').map P.strtoi) = ns ∧ (',' ∉ s ↔ ns.length = 1) := by
  obtain ⟨hne, rfl⟩ := h
  have hc : ∀ l ∈ ns.map (Nat.toDigits 10), ',' ∉ l := by
    intro l hl hm
    obtain ⟨n, -, rfl⟩ := List.mem_map.1 hl
    have := Nat.isDigit_of_mem_toDigits (by decide) (by decide) hm
    exact absurd this (by decide)
  have e := List.splitOn_intercalate ',' hc (by simpa using hne)
  refine ⟨?_, ?_⟩
  · rw [e, List.map_map]
    conv_rhs => rw [← List.map_id ns]
    apply List.map_congr_left
    intro n _
    exact hP.strtoi n
  · constructor
    · intro h
      have : ([','].intercalate (ns.map (Nat.toDigits 10))).splitOn ',' = [[','].intercalate (ns.map (Nat.toDigits 10))] :=
        by simpa [List.intercalate] using List.splitOn_intercalate (ls := [[','].intercalate (ns.map (Nat.toDigits 10))]) ',' (by simpa using h) (by simp)
      rw [e] at this
      have := congrArg List.length this
      simpa using this
    · intro h
      obtain ⟨n, rfl⟩ := List.length_eq_one_iff.1 h
      simpa [List.intercalate] using hc (Nat.toDigits 10 n) (by simp)

/-- the order accepted for numbers that were typed -/
theorem accepted_factors (hP : P.Ok) (ns : List Nat) (h : Factors (c.cmOrder.getD []) ns) (ha : accepted P c = some (N, prime)) :
    N = ns.prod ∧ 0 < N ∧ N < 2 ^ (c.bits + 1) ∧ (prime = true ↔ ns.length = 1 ∧ ns.prod.Prime) := by
  unfold accepted at ha
  rw [Option.join_eq_some_iff, order_accepted] at ha
  obtain ⟨h1, h2, h3, h4⟩ := ha
  obtain ⟨f1, f2⟩ := factors_split P hP _ ns h
  rw [f1] at h1
  subst h1
  refine ⟨rfl, h2, h3, ?_⟩
  rw [h4, Bool.and_eq_true, decide_eq_true_iff, f2, isprimeI_spec hP]
  constructor
  · rintro ⟨e1, m, e2, e3⟩
    have : ns.prod = m := by exact_mod_cast e2
    exact ⟨e1, this ▸ e3⟩
  · rintro ⟨e1, e2⟩
    exact ⟨e1, _, rfl, e2⟩

/-- exactly the products from 1 below `2 ^ (bits + 1)` are accepted -/
theorem accepted_iff (hP : P.Ok) (ns : List Nat) (h : Factors (c.cmOrder.getD []) ns) :
    (∃ x, accepted P c = some x) ↔ 0 < ns.prod ∧ ns.prod < 2 ^ (c.bits + 1) := by
  obtain ⟨f1, -⟩ := factors_split P hP _ ns h
  constructor
  · rintro ⟨⟨N, b⟩, hx⟩
    obtain ⟨rfl, h2, h3, -⟩ := accepted_factors hP ns h hx
    exact ⟨h2, h3⟩
  · rintro ⟨h1, h2⟩
    refine ⟨(ns.prod, decide (',' ∉ c.cmOrder.getD []) && P.isprimeI ns.prod), ?_⟩
    unfold accepted
    rw [Option.join_eq_some_iff, order_accepted]
    exact ⟨by rw [f1], h1, h2, rfl⟩

end Ecgen.Ordered
