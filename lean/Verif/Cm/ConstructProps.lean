import Verif.Cm.ConstructLemmas

/-!
# Curves of a requested order (C66, C67)

`cm --order=N` is meant to give a curve with exactly `N` points; the program reports `N` without counting. For prime `N` this is proved below
for every discriminant but -3, from the classical theorem on complex multiplication (`RootsSpec`, not in Mathlib, part of the trusted base).
For discriminant -3 and odd orders the result is always wrong. For composite orders the decision between the curve and its twist is
unsound in two ways, and is proved where neither shows up.
-/

namespace Ecgen.Cm.Construct

open Ecgen.Count (card)

/-! ## Specification -/

/-- PARI's `isprime` -/
def PrimeSpec (isprime : Int → Bool) : Prop := ∀ n : Int, isprime n = true ↔ ∃ m : Nat, n = m ∧ m.Prime

/-- PARI's `cornacchia2`: what it returns is a solution -/
def CornacchiaSpec (cornacchia2 : Nat → Nat → Option (Int × Int)) : Prop :=
  ∀ d n x y, cornacchia2 d n = some (x, y) → x ^ 2 + d * y ^ 2 = 4 * n

/-- PARI's `bnfisintnorm`: traces `t` of elements `(t + u √D) / 2` of norm `n` -/
def TracesSpec (traces : Int → Nat → List Int) : Prop :=
  ∀ D n t, t ∈ traces D n → ∃ u : Int, t ^ 2 - D * u ^ 2 = 4 * n

/-- the theorem on complex multiplication for discriminants below -4: if `4 p = s² - D v²`, the curves whose j-invariant is a root of the
class polynomial of `D` modulo `p` have `p + 1 - s` or `p + 1 + s` points -/
def RootsSpec (roots : (D : Int) → (p : Nat) → List (ZMod p)) : Prop :=
  ∀ (D : Int) (p : Nat) [Fact p.Prime], D < -4 → 3 < p → ∀ s v : Int, 4 * (p : Int) = s ^ 2 + (-D) * v ^ 2 →
    ∀ j ∈ roots D p, (card (fromJ j).1 (fromJ j).2 : Int) = p + 1 - s ∨ (card (fromJ j).1 (fromJ j).2 : Int) = p + 1 + s

/-- `x, y` is an affine point of the curve `e` -/
def On {K : Type} [Field K] (e : K × K) (q : Option (K × K)) : Prop := ∃ x y, q = some (x, y) ∧ y ^ 2 = x ^ 3 + e.1 * x + e.2

/-- `genrand` gives an affine point of the curve, if there is one -/
def RandSpec (rand : (p : Nat) → ZMod p × ZMod p → Option (ZMod p × ZMod p)) : Prop :=
  ∀ (p : Nat) [Fact p.Prime] (e : ZMod p × ZMod p), (∃ q, On e q) → On e (rand p e)

/-- the same for the pairs of random points of a curve and its twist -/
def RandsSpec (C : Calls) : Prop :=
  ∀ (p : Nat) [Fact p.Prime] (e : ZMod p × ZMod p) q, q ∈ C.rands p e → On e q.1 ∧ On (twist (C.T p) e) q.2

/-- `elltwist` chooses a non-square -/
def TwistSpec (T : (p : Nat) → ZMod p) : Prop := ∀ (p : Nat) [Fact p.Prime], 2 < p → ¬ IsSquare (T p)

/-! ## The requested order (C67) -/

/-- C67: the order is the product of the numbers between the commas; nothing is written outside of the vector of factors. -/
theorem order_product (strtoi : List Char → Nat) (s : List Char) :
    requestedOrder strtoi s = some ((s.splitOn ',').map strtoi).prod := by
  unfold requestedOrder
  by_cases h : s.count ',' = 0
  · have hf : fields s = [s] := by
      rw [fields_eq]
      unfold List.splitOn
      refine List.splitOnP_eq_singleton fun c hc => ?_
      have : ',' ∉ s := List.count_eq_zero.1 h
      simp only [beq_eq_false_iff_ne]
      rintro rfl
      exact this hc
    simp only [if_pos h]
    rw [← fields_eq, hf]
    simp
  · simp only [if_neg h]
    have hl := fields_length s
    rw [fillFactors_spec strtoi _ _ [] (by simp [hl])]
    simp only [List.nil_append, Option.map_some, List.length_map, hl, Nat.sub_self, List.replicate_zero, List.append_nil]
    rw [fields_eq, List.prod_eq_foldl]

/-- C67: exactly the orders from 1 below `2 ^ (bits + 1)` are accepted, and the branch for prime orders is taken exactly for a single
number that is prime. -/
theorem order_accepted (strtoi : List Char → Nat) (isprime : Int → Bool) (bits : Nat) (s : List Char) (n : Nat) (b : Bool) :
    cmInit strtoi isprime bits s = some (some (n, b)) ↔
      n = ((s.splitOn ',').map strtoi).prod ∧ 0 < n ∧ n < 2 ^ (bits + 1) ∧ b = (decide (',' ∉ s) && isprime n) := by
  unfold cmInit
  rw [order_product, Option.map_some]
  generalize ((s.splitOn ',').map strtoi).prod = m
  have hc : s.count ',' = 0 ↔ ',' ∉ s := List.count_eq_zero
  by_cases h0 : m = 0
  · rw [if_pos h0]
    constructor
    · intro h; cases h
    · rintro ⟨h1, h2, -⟩; omega
  · rw [if_neg h0]
    by_cases h1 : Nat.log2 m > bits
    · rw [if_pos h1]
      constructor
      · intro h; cases h
      · rintro ⟨rfl, -, h3, -⟩
        have := (Nat.log2_lt h0).2 h3
        omega
    · rw [if_neg h1]
      have hlt : m < 2 ^ (bits + 1) := (Nat.log2_lt h0).1 (by omega)
      simp only [Option.some.injEq, Prod.mk.injEq]
      constructor
      · rintro ⟨rfl, rfl⟩
        refine ⟨rfl, by omega, hlt, ?_⟩
        by_cases hs : ',' ∈ s
        · rw [if_neg (by rw [hc]; simpa using hs)]; simp [hs]
        · rw [if_pos (hc.2 hs)]; simp [hs]
      · rintro ⟨rfl, -, -, rfl⟩
        refine ⟨rfl, ?_⟩
        by_cases hs : ',' ∈ s
        · rw [if_neg (by rw [hc]; simpa using hs)]; simp [hs]
        · rw [if_pos (hc.2 hs)]; simp [hs]

/-- C67 fails as announced in the error message: an order of `bits + 1` bits does not fit into the bit size, but it is accepted. -/
theorem order_fits_false (isprime : Int → Bool) (bits : Nat) :
    ∃ strtoi s b, cmInit strtoi isprime bits s = some (some (2 ^ bits, b)) := by
  refine ⟨fun _ => 2 ^ bits, ['1'], _, (order_accepted _ isprime bits ['1'] (2 ^ bits) _).2 ⟨?_, by positivity, ?_, rfl⟩⟩
  · rw [show ['1'].splitOn ',' = [['1']] by decide]; simp
  · exact Nat.pow_lt_pow_right (by norm_num) (by omega)

/-- three factors -/
example : requestedOrder (fun s => s.length) "aa,bbb,c".toList = some 6 := by
  rw [order_product]; decide

/-! ## The discriminants -/

theorem tryDisc_spec {isprime : Int → Bool} (hip : PrimeSpec isprime) {cornacchia2 : Nat → Nat → Option (Int × Int)}
    (hco : CornacchiaSpec cornacchia2) {logN N r : Nat} {D : Int} {f : Found} (h : tryDisc isprime cornacchia2 logN N r D = some f) :
    f.D < 0 ∧ f.D % 8 = 5 ∧ ∃ p : Nat, f.p = p ∧ p.Prime ∧ ∃ v : Int, 4 * (p : Int) = (p + 1 - (N : Int)) ^ 2 + (-f.D) * v ^ 2 := by
  unfold tryDisc at h
  split at h
  case isFalse => cases h
  case isTrue hc =>
    obtain ⟨-, h8, h4, -⟩ := hc
    have hneg : D < 0 := by omega
    have habs : (D.natAbs : Int) = -D := by omega
    split at h
    case h_1 => cases h
    case h_2 x y hx =>
      have hsol := hco _ _ _ _ hx
      rw [habs] at hsol
      split at h
      case isTrue h1 =>
        cases h
        obtain ⟨p, hp, hpr⟩ := (hip _).1 h1
        refine ⟨hneg, h8, p, hp, hpr, y, ?_⟩
        rw [← hp]
        linear_combination -hsol
      case isFalse =>
        split at h
        case isTrue h2 =>
          cases h
          obtain ⟨p, hp, hpr⟩ := (hip _).1 h2
          refine ⟨hneg, h8, p, hp, hpr, y, ?_⟩
          rw [← hp]
          linear_combination -hsol
        case isFalse => cases h

/-- The discriminant and the field found for a prime order fit together: `4 p = s² + |D| v²` with `s = p + 1 - N`, and `p` is prime. -/
theorem qdiscNext_spec {isprime : Int → Bool} (hip : PrimeSpec isprime) {cornacchia2 : Nat → Nat → Option (Int × Int)}
    (hco : CornacchiaSpec cornacchia2) {logN N fuel : Nat} {s s' : QState} {f : Found}
    (h : qdiscNext isprime cornacchia2 logN N fuel s = some (f, s')) :
    f.D < 0 ∧ f.D % 8 = 5 ∧ ∃ p : Nat, f.p = p ∧ p.Prime ∧ ∃ v : Int, 4 * (p : Int) = (p + 1 - (N : Int)) ^ 2 + (-f.D) * v ^ 2 := by
  unfold qdiscNext at h
  obtain ⟨s0, -, h'⟩ := Option.bind_eq_some_iff.1 h
  clear h
  rename' h' => h
  induction fuel generalizing s0 with
  | zero => cases h
  | succ fuel ih =>
    unfold nextLoop at h
    split at h
    · split at h
      case h_1 f' hf =>
        cases h
        obtain ⟨D, -, hD⟩ := Option.bind_eq_some_iff.1 hf
        exact tryDisc_spec hip hco hD
      case h_2 => exact ih _ h
    · obtain ⟨Sp, -, h⟩ := Option.bind_eq_some_iff.1 h
      exact ih _ h

/-- the same for composite orders -/
theorem qdiscMinimal_spec {isprime : Int → Bool} (hip : PrimeSpec isprime) {issquarefree : Nat → Bool} {traces : Int → Nat → List Int}
    (htr : TracesSpec traces) {N fuel d : Nat} (hd : 2 ≤ d) {D p : Int} (h : qdiscMinimal isprime issquarefree traces N fuel d = some (D, p)) :
    (D = -3 ∨ D < -4) ∧ ∃ q : Nat, p = q ∧ q.Prime ∧ ∃ v : Int, 4 * (q : Int) = (q + 1 - (N : Int)) ^ 2 + (-D) * v ^ 2 := by
  induction fuel generalizing d with
  | zero => cases h
  | succ fuel ih =>
    unfold qdiscMinimal at h
    split at h
    · split at h
      case h_1 t ht =>
        simp only [Option.some.injEq, Prod.mk.injEq] at h
        obtain ⟨rfl, rfl⟩ := h
        have hpr := List.find?_some ht
        obtain ⟨q, hq, hqp⟩ := (hip _).1 hpr
        obtain ⟨u, hu⟩ := htr _ _ _ (List.mem_of_find?_eq_some ht)
        refine ⟨?_, q, hq, hqp, u, ?_⟩
        · unfold quaddisc
          split <;> omega
        · rw [← hq]
          linear_combination -hu
      case h_2 => exact ih (by omega) h
    · exact ih (by omega) h

/-! ## The curve, prime order (C66) -/

/-- The choice between a curve and its twist for a prime order. -/
theorem choosePrime_card (p : Nat) [Fact p.Prime] (hp : 2 < p) (N : Nat) (hN : N.Prime) (hlarge : 2 * (p + 1) < 3 * N) (T : ZMod p)
    (hT : ¬ IsSquare T) (e : ZMod p × ZMod p) (he : Regular e) (hc : card e.1 e.2 = N ∨ card e.1 e.2 + N = 2 * p + 2)
    (g : Option (ZMod p × ZMod p)) (hg : On e g) : card (choosePrime N T e g).1 (choosePrime N T e g).2 = N := by
  obtain ⟨x, y, rfl, hxy⟩ := hg
  unfold choosePrime
  by_cases hz : ellmul e.1 N (some (x, y)) = none
  · rw [if_pos hz]
    rcases hc with hc | hc
    · exact hc
    · obtain ⟨d, h1, h2, h3⟩ := vanishing (two_ne p hp) e.1 e.2 he x y hxy N hz
      have hdN : d = N := (hN.eq_one_or_self_of_dvd d h2).resolve_left (by omega)
      subst hdN
      have hdvd : d ∣ 2 * p + 2 := by rw [← hc]; exact Dvd.dvd.add h3 dvd_rfl
      obtain ⟨k, hk⟩ := hdvd
      have hpos : 0 < card e.1 e.2 := Nat.succ_pos _
      have hk2 : k = 2 := by
        have a1 : k < 3 := by
          by_contra hge
          have : d * 3 ≤ d * k := Nat.mul_le_mul_left d (by omega)
          omega
        have a2 : 1 < k := by
          by_contra hle
          have : d * k ≤ d * 1 := Nat.mul_le_mul_left d (by omega)
          omega
        omega
      subst hk2
      omega
  · rw [if_neg hz]
    rcases hc with hc | hc
    · exfalso
      apply hz
      rw [← hc]
      exact vanishes (two_ne p hp) e.1 e.2 he x y hxy
    · have ht := Count.card_twist (ringChar_ne p hp) e.1 e.2 T hT
      rw [ZMod.card] at ht
      show card (e.1 * T ^ 2) (e.2 * T ^ 3) = N
      omega

/-- C66, prime orders. Full statement: the curve returned for the order `N` has exactly `N` points. Proved for orders of at least 50 when
the curve was not constructed from the discriminant -3; missing are the discriminant -3 (where it is false, `disc3_wrong`) and orders below 50. -/
theorem prime_order_partial (C : Calls) (isprime : Int → Bool) (hip : PrimeSpec isprime)
    (cornacchia2 : Nat → Nat → Option (Int × Int)) (hco : CornacchiaSpec cornacchia2) (hroots : RootsSpec C.roots)
    (hrand : RandSpec C.rand) (hT : TwistSpec C.T) (logN N fuel n : Nat) (hN : N.Prime) (h50 : 50 ≤ N)
    (r : Result) (h : cmGenPrime C isprime cornacchia2 logN N fuel n = some r) (h3 : r.D ≠ -3) :
    ∃ _ : Fact r.p.Prime, card r.a r.b = cmGenOrder N := by
  unfold cmGenPrime at h
  generalize (⟨0, 0, []⟩ : QState) = s at h
  induction n generalizing s with
  | zero => cases h
  | succ n ih =>
    unfold genPrime at h
    split at h
    case h_1 => cases h
    case h_2 f s' hf =>
      split at h
      case isFalse => cases h
      case isTrue hp =>
        split at h
        case h_2 => exact ih _ h
        case h_1 r' hr =>
          cases h
          obtain ⟨hneg, h8, p, hfp, hpr, v, hv⟩ := qdiscNext_spec hip hco hf
          have hpp : f.p.toNat = p := by rw [hfp]; rfl
          obtain ⟨h37, hlarge, h2p⟩ := interval N p h50 (bounds N p f.D v _ rfl hneg hv)
          unfold constructAt constructPrime at hr
          have : Fact f.p.toNat.Prime := ⟨hp⟩
          obtain ⟨e, he, rfl⟩ := Option.map_eq_some_iff.1 hr
          obtain ⟨j, hj, rfl⟩ := Option.map_eq_some_iff.1 he
          refine ⟨⟨hp⟩, ?_⟩
          have hD3 : f.D ≠ -3 := h3
          have hreg : Regular (fromJ j) := by simpa using List.find?_some hj
          have hcard := hroots f.D f.p.toNat (by omega) (by omega) (f.p.toNat + 1 - N) v (by rw [hpp]; exact hv) j
            (List.mem_of_find?_eq_some hj)
          have hc : card (fromJ j).1 (fromJ j).2 = N ∨ card (fromJ j).1 (fromJ j).2 + N = 2 * f.p.toNat + 2 := by
            rcases hcard with hcard | hcard
            · left; omega
            · right; omega
          have hN2 := hN.two_le
          refine choosePrime_card f.p.toNat (by omega) N hN (by omega) (C.T _) (hT _ (by omega)) (fromJ j) hreg hc _ (hrand _ _ ?_)
          obtain ⟨x, y, hxy⟩ := exists_affine (fromJ j).1 (fromJ j).2 (by omega)
          exact ⟨_, x, y, rfl, hxy⟩

/-- C66 fails for discriminant -3, always: the only root of the class polynomial is 0, `ellfromj` gives `y² = x³ + 1`, and this curve and
its quadratic twist have an even number of points. Whatever odd order was requested, the curve does not have it, for every random point. -/
theorem disc3_wrong (p : Nat) [Fact p.Prime] (hp : 3 < p) (N : Nat) (hodd : N % 2 = 1) (T : ZMod p) (hT : ¬ IsSquare T)
    (g : ZMod p × ZMod p → Option (ZMod p × ZMod p)) (e : ZMod p × ZMod p) (h : constructPrime N T g [0] = some e) :
    card e.1 e.2 ≠ N := by
  unfold constructPrime at h
  obtain ⟨j, hj, rfl⟩ := Option.map_eq_some_iff.1 h
  have hj0 : j = 0 := by simpa using List.mem_of_find?_eq_some hj
  subst hj0
  have hreg : Regular (fromJ (0 : ZMod p)) := by simpa using List.find?_some hj
  have h01 : fromJ (0 : ZMod p) = (0, 1) := by unfold fromJ; rw [if_pos rfl]
  rw [h01] at hreg ⊢
  have hT0 : T ≠ 0 := fun h => hT (h ▸ IsSquare.zero)
  have e1 : 2 ∣ card (0 : ZMod p) 1 := by
    have := card_cube_even p (by omega) 1 (by simpa using hreg)
    simpa using this
  have e2 : 2 ∣ card (0 : ZMod p) (T ^ 3) := by
    refine card_cube_even p (by omega) T ?_
    unfold Regular at hreg ⊢
    have h27 : (27 : ZMod p) ≠ 0 := by
      intro h0
      apply hreg
      simp [h0]
    simpa using ⟨h27, hT0⟩
  unfold choosePrime
  split
  · show card (0 : ZMod p) 1 ≠ N
    omega
  · show card (0 * T ^ 2) (1 * T ^ 3) ≠ N
    rw [zero_mul, one_mul]
    omega

/-- the same for composite odd orders -/
theorem disc3_wrong_any (p : Nat) [Fact p.Prime] (hp : 3 < p) (N : Nat) (hodd : N % 2 = 1) (T : ZMod p) (hT : ¬ IsSquare T)
    (pts : ZMod p × ZMod p → List (Option (ZMod p × ZMod p) × Option (ZMod p × ZMod p))) (e : ZMod p × ZMod p)
    (h : constructAny N p T pts [0] = some (some e)) : card e.1 e.2 ≠ N := by
  unfold constructAny at h
  split at h
  case h_1 => cases h
  case h_2 j hj =>
    have hj0 : j = 0 := by simpa using List.mem_of_find?_eq_some hj
    subst hj0
    have hreg : Regular (fromJ (0 : ZMod p)) := by simpa using List.find?_some hj
    have h01 : fromJ (0 : ZMod p) = (0, 1) := by unfold fromJ; rw [if_pos rfl]
    have hT0 : T ≠ 0 := fun h => hT (h ▸ IsSquare.zero)
    rw [h01] at hreg h
    have e1 : 2 ∣ card (0 : ZMod p) 1 := by
      have := card_cube_even p (by omega) 1 (by simpa using hreg)
      simpa using this
    have e2 : 2 ∣ card (0 : ZMod p) (T ^ 3) := by
      refine card_cube_even p (by omega) T ?_
      unfold Regular at hreg ⊢
      have h27 : (27 : ZMod p) ≠ 0 := by
        intro h0
        apply hreg
        simp [h0]
      simpa using ⟨h27, hT0⟩
    obtain ⟨e', he, hee⟩ := Option.map_eq_some_iff.1 h
    cases hee
    generalize N / _ = m1 at he
    generalize (2 * p + 2 - N) / _ = m2 at he
    have key : ∀ l, chooseAny m1 m2 T ((0 : ZMod p), (1 : ZMod p)) l = some e → e = (0, 1) ∨ e = twist T (0, 1) := by
      intro l
      induction l with
      | nil => intro h; cases h
      | cons q l ih =>
        intro h
        unfold chooseAny at h
        split at h
        · cases h; exact Or.inl rfl
        split at h
        · cases h; exact Or.inr rfl
        split at h
        · cases h; exact Or.inl rfl
        split at h
        · cases h; exact Or.inr rfl
        exact ih h
    rcases key _ he with rfl | rfl
    · show card (0 : ZMod p) 1 ≠ N
      omega
    · show card (0 * T ^ 2) (1 * T ^ 3) ≠ N
      rw [zero_mul, one_mul]
      omega

/-! ## The curve, composite order -/

/-- The choice between a curve and its twist for a composite order, decided by points of the curve. -/
theorem chooseAny_card (p : Nat) [Fact p.Prime] (hp : 2 < p) (N N' : Nat) (hN : N + N' = 2 * p + 2) (m m' : Nat) (hm : Nat.Coprime m N')
    (hm' : Nat.Coprime m' N) (T : ZMod p) (hT : ¬ IsSquare T) (e : ZMod p × ZMod p) (he : Regular e)
    (hc : card e.1 e.2 = N ∨ card e.1 e.2 = N') (l : List (Option (ZMod p × ZMod p) × Option (ZMod p × ZMod p)))
    (h1 : ∀ q ∈ l, On e q.1) (h2 : ∀ q ∈ l, ellmul e.1 m' q.2 ≠ none ∧ ellmul e.1 m q.2 ≠ none) (r : ZMod p × ZMod p)
    (h : chooseAny m m' T e l = some r) : card r.1 r.2 = N := by
  have ht := Count.card_twist (ringChar_ne p hp) e.1 e.2 T hT
  rw [ZMod.card] at ht
  induction l with
  | nil => cases h
  | cons q l ih =>
    obtain ⟨P, Q⟩ := q
    obtain ⟨x, y, hP, hxy⟩ := h1 (P, Q) List.mem_cons_self
    change P = some (x, y) at hP
    subst hP
    obtain ⟨b1, b2⟩ := h2 (some (x, y), Q) List.mem_cons_self
    unfold chooseAny at h
    split at h
    case isTrue hz =>
      cases h
      obtain ⟨d, d1, d2, d3⟩ := vanishing (two_ne p hp) e.1 e.2 he x y hxy _ hz
      rcases hc with hc | hc
      · exact hc
      · rw [hc] at d3
        have := Nat.dvd_gcd d2 d3
        rw [hm] at this
        have := Nat.le_of_dvd (by norm_num) this
        omega
    case isFalse =>
      split at h
      case isTrue hz =>
        cases h
        obtain ⟨d, d1, d2, d3⟩ := vanishing (two_ne p hp) e.1 e.2 he x y hxy _ hz
        rcases hc with hc | hc
        · rw [hc] at d3
          have := Nat.dvd_gcd d2 d3
          rw [hm'] at this
          have := Nat.le_of_dvd (by norm_num) this
          omega
        · show card (e.1 * T ^ 2) (e.2 * T ^ 3) = N
          omega
      case isFalse =>
        exact ih (fun r hr => h1 r (List.mem_cons_of_mem _ hr)) (fun r hr => h2 r (List.mem_cons_of_mem _ hr)) h

/-- C66, composite orders. Full statement as above. Proved for orders of at least 50 when the discriminant is not -3, the order and the order
of the twist have no common factor left after division by their greatest common divisor, and no random point of the twist is decisive. -/
theorem any_order_partial (C : Calls) (isprime : Int → Bool) (hip : PrimeSpec isprime) (issquarefree : Nat → Bool)
    (traces : Int → Nat → List Int) (htr : TracesSpec traces) (hroots : RootsSpec C.roots) (hT : TwistSpec C.T) (N fuel : Nat)
    (h50 : 50 ≤ N) (hrands : RandsSpec C)
    (r : Result) (h : cmGenAny C isprime issquarefree traces N fuel = some (some r)) (h3 : r.D ≠ -3)
    (hcop : Nat.Coprime (N / Nat.gcd N (2 * r.p + 2 - N)) (2 * r.p + 2 - N) ∧
      Nat.Coprime ((2 * r.p + 2 - N) / Nat.gcd N (2 * r.p + 2 - N)) N)
    (htw : ∀ (_ : Fact r.p.Prime) (e : ZMod r.p × ZMod r.p) q, q ∈ C.rands r.p e →
      ellmul e.1 ((2 * r.p + 2 - N) / Nat.gcd N (2 * r.p + 2 - N)) q.2 ≠ none ∧
        ellmul e.1 (N / Nat.gcd N (2 * r.p + 2 - N)) q.2 ≠ none) :
    ∃ _ : Fact r.p.Prime, card r.a r.b = cmGenOrder N := by
  unfold cmGenAny at h
  split at h
  case h_1 => cases h
  case h_2 D p hmin =>
    split at h
    case isFalse => cases h
    case isTrue hp =>
      have : Fact p.toNat.Prime := ⟨hp⟩
      obtain ⟨r', hr', hr⟩ := Option.map_eq_some_iff.1 h
      obtain ⟨e, rfl, rfl⟩ := Option.map_eq_some_iff.1 hr
      have hD3 : D ≠ -3 := h3
      obtain ⟨hD, q, rfl, hq, v, hv⟩ := qdiscMinimal_spec hip htr le_rfl hmin
      have hD4 : D < -4 := hD.resolve_left hD3
      have hfq : Fact q.Prime := ⟨hq⟩
      obtain ⟨h37, -, h2p⟩ := interval N q h50 (bounds N q D v _ rfl (by omega) hv)
      refine ⟨⟨hp⟩, ?_⟩
      unfold constructAny at hr'
      split at hr'
      case h_1 => cases hr'
      case h_2 j hj =>
        obtain ⟨e', he, hee⟩ := Option.map_eq_some_iff.1 hr'
        cases hee
        have hreg : Regular (fromJ j) := by simpa using List.find?_some hj
        have hcard := hroots D q (by omega) (by omega) (q + 1 - N) v hv j (List.mem_of_find?_eq_some hj)
        have hc : card (fromJ j).1 (fromJ j).2 = N ∨ card (fromJ j).1 (fromJ j).2 = 2 * q + 2 - N := by
          rcases hcard with hcard | hcard
          · left; omega
          · right; omega
        exact chooseAny_card q (by omega) N (2 * q + 2 - N) (by omega) _ _ hcop.1 hcop.2 (C.T q) (hT q (by omega)) (fromJ j) hreg hc
          (C.rands q (fromJ j)) (fun r hr => (hrands q (fromJ j) r hr).1) (htw hfq (fromJ j)) e he

/-- a curve with a subgroup of a given order: the number of points is a multiple of it -/
theorem subgroup_order {K : Type} [Field K] [DecidableEq K] [Fintype K] (r : Nat) (roots : List K) (e : K × K)
    (h : constructSubgroup r (fun e => card e.1 e.2) roots = some e) : r ∣ card e.1 e.2 := by
  unfold constructSubgroup at h
  obtain ⟨j, hj, rfl⟩ := Option.map_eq_some_iff.1 h
  have := List.find?_some hj
  simp only [decide_eq_true_eq] at this
  exact this.2

/-! ## Witnesses -/

open Classical in
/-- calls which meet the specifications: a table of roots and fixed random points, the rest by choice -/
noncomputable def someCalls (roots : (D : Int) → (p : Nat) → List (ZMod p)) (T : (p : Nat) → ZMod p)
    (rands : (p : Nat) → ZMod p × ZMod p → List (Option (ZMod p × ZMod p) × Option (ZMod p × ZMod p))) : Calls where
  roots := roots
  T := fun p => if h : ∃ t : ZMod p, ¬ IsSquare t then (if IsSquare (T p) then h.choose else T p) else 0
  rand := fun p e => if h : ∃ q : Option (ZMod p × ZMod p), ∃ x y, q = some (x, y) ∧ y ^ 2 = x ^ 3 + e.1 * x + e.2 then h.choose else none
  rands := rands

theorem someCalls_rand (roots T rands) : RandSpec (someCalls roots T rands).rand := by
  intro p _ e h
  simp only [someCalls]
  split
  · rename_i h'
    exact h'.choose_spec
  · rename_i h'
    exact absurd h h'

theorem someCalls_T (roots T rands) : TwistSpec (someCalls roots T rands).T := by
  intro p _ hp
  have h : ∃ t : ZMod p, ¬ IsSquare t := FiniteField.exists_nonsquare (ringChar_ne p hp)
  simp only [someCalls]
  split
  · rename_i h'
    split
    · exact h'.choose_spec
    · assumption
  · rename_i h'
    exact absurd h h'

theorem someCalls_T_eq (roots T rands) (p : Nat) (h : ¬ IsSquare (T p)) : (someCalls roots T rands).T p = T p := by
  simp only [someCalls]
  rw [dif_pos ⟨_, h⟩, if_neg h]

/-- exact primality -/
def exactPrime (n : Int) : Bool := decide (0 ≤ n ∧ n.toNat.Prime)

theorem exactPrime_spec : PrimeSpec exactPrime := by
  intro n
  unfold exactPrime
  rw [decide_eq_true_eq]
  constructor
  · rintro ⟨h0, hp⟩
    exact ⟨n.toNat, by omega, hp⟩
  · rintro ⟨m, rfl, hp⟩
    exact ⟨by omega, by simpa using hp⟩

/-- solutions of the norm equation for one argument -/
def oneSolution (d0 n0 : Nat) (x y : Int) (d n : Nat) : Option (Int × Int) := if d = d0 ∧ n = n0 then some (x, y) else none

theorem oneSolution_spec {d0 n0 : Nat} {x y : Int} (h : x ^ 2 + d0 * y ^ 2 = 4 * n0) : CornacchiaSpec (oneSolution d0 n0 x y) := by
  intro d n x' y' h'
  unfold oneSolution at h'
  split at h'
  · rename_i e
    cases h'
    obtain ⟨rfl, rfl⟩ := e
    exact h
  · cases h'

/-- the root of one class polynomial of degree one -/
def oneRoot (D0 : Int) (p0 : Nat) (j : Int) (D : Int) (p : Nat) : List (ZMod p) := if D = D0 ∧ p = p0 then [(j : ZMod p)] else []

theorem oneRoot_spec {D0 : Int} {p0 : Nat} {j : Int} (s0 : Int)
    (hs : ∀ s v : Int, 4 * (p0 : Int) = s ^ 2 + (-D0) * v ^ 2 → s = s0 ∨ s = -s0)
    (hc : ∀ _ : Fact p0.Prime, (card (fromJ (j : ZMod p0)).1 (fromJ (j : ZMod p0)).2 : Int) = p0 + 1 - s0) :
    RootsSpec (oneRoot D0 p0 j) := by
  intro D p hp _ _ s v hsv i hi
  unfold oneRoot at hi
  split at hi
  · rename_i e
    obtain ⟨rfl, rfl⟩ := e
    rw [List.mem_singleton] at hi
    subst hi
    rcases hs s v hsv with rfl | rfl
    · exact Or.inl (hc hp)
    · exact Or.inr (by rw [hc hp]; ring)
  · cases hi

local instance : Fact (Nat.Prime 97) := ⟨by norm_num⟩
local instance : Fact (Nat.Prime 47) := ⟨by norm_num⟩
local instance : Fact (Nat.Prime 73) := ⟨by norm_num⟩
local instance : Fact (Nat.Prime 43) := ⟨by norm_num⟩

/-- C66 fails: for the prime order 79 the search finds the discriminant -3 and the field of 97 elements (79 = 97 + 1 - 19, and
PARI's solution of `x² + 3 y² = 316` is (17, 3)); 4 is the rounded logarithm of 79. The curve has not 79 points. -/
theorem prime_order_false : ∃ (C : Calls) (cornacchia2 : Nat → Nat → Option (Int × Int)) (r : Result) (_ : Fact r.p.Prime),
    CornacchiaSpec cornacchia2 ∧ RootsSpec C.roots ∧ RandSpec C.rand ∧ TwistSpec C.T ∧ Nat.Prime 79 ∧
      cmGenPrime C exactPrime cornacchia2 4 79 2 1 = some r ∧ card r.a r.b ≠ cmGenOrder 79 := by
  have hp : Nat.Prime 97 := by norm_num
  have hroots : RootsSpec (oneRoot (-3) 97 0) := by
    intro D p hp' hD _ s v _ j hj
    unfold oneRoot at hj
    rw [if_neg (by omega)] at hj
    cases hj
  have hq : qdiscNext exactPrime (oneSolution 3 79 17 3) 4 79 2 ⟨0, 0, []⟩ = some (⟨-3, 97, 17⟩, ⟨0, 2, [2, -3]⟩) := by
    have : ((qdiscNext exactPrime (oneSolution 3 79 17 3) 4 79 2 ⟨0, 0, []⟩).map fun q => (q.1, q.2.r, q.2.i, q.2.Sp)) =
        some (⟨-3, 97, 17⟩, 0, 2, [2, -3]) := by decide +kernel
    obtain ⟨⟨f, ⟨r, i, Sp⟩⟩, h1, h2⟩ := Option.map_eq_some_iff.1 this
    cases h2
    exact h1
  set C := someCalls (oneRoot (-3) 97 0) (fun _ => 0) (fun _ _ => []) with hC
  have hreg : Regular (fromJ (0 : ZMod 97)) := by
    unfold fromJ Regular
    rw [if_pos rfl]
    decide
  have hfind : ([((0 : Int) : ZMod 97)].find? fun j => decide (Regular (fromJ j))) = some 0 := by
    rw [Int.cast_zero, List.find?_cons_of_pos (by simpa using hreg)]
  have hcon : ∃ e, constructPrime 79 (C.T 97) (C.rand 97) [(0 : ZMod 97)] = some e := by
    unfold constructPrime
    rw [Int.cast_zero] at hfind
    rw [hfind]
    exact ⟨_, rfl⟩
  obtain ⟨e, he⟩ := hcon
  refine ⟨C, oneSolution 3 79 17 3, ⟨-3, 97, e.1, e.2⟩, ⟨hp⟩, oneSolution_spec (by norm_num), hroots, someCalls_rand _ _ _,
    someCalls_T _ _ _, by norm_num, ?_, ?_⟩
  · unfold cmGenPrime genPrime
    rw [hq]
    have hp' : Nat.Prime (Int.toNat 97) := hp
    simp only [hp', dite_true]
    have : constructAt C 79 (-3) (Int.toNat 97) hp' = some ⟨-3, 97, e.1, e.2⟩ := by
      show Option.map _ (constructPrime 79 (C.T 97) (C.rand 97) (C.roots (-3) 97)) = _
      have hr : C.roots (-3) 97 = [(0 : ZMod 97)] := by
        show oneRoot (-3) 97 0 (-3) 97 = _
        unfold oneRoot
        rw [if_pos ⟨rfl, rfl⟩, Int.cast_zero]
      rw [hr, he]
      rfl
    rw [this]
  · exact disc3_wrong 97 (by norm_num) 79 (by norm_num) (C.T 97) (someCalls_T _ _ _ 97 (by norm_num)) (C.rand 97) e he

/-- the hypotheses of `prime_order_partial` are met: order 61 over the field of 47 elements, discriminant -19 (with 19 in place of the
logarithm, to keep the search short) -/
theorem prime_met : ∃ (C : Calls) (cornacchia2 : Nat → Nat → Option (Int × Int)) (r : Result),
    CornacchiaSpec cornacchia2 ∧ RootsSpec C.roots ∧ RandSpec C.rand ∧ TwistSpec C.T ∧ Nat.Prime 61 ∧
      cmGenPrime C exactPrime cornacchia2 19 61 2 1 = some r ∧ r.D ≠ -3 := by
  have hp : Nat.Prime 47 := by norm_num
  have hj : fromJ ((-884736 : Int) : ZMod 47) = (25, 44) := by decide +kernel
  have hcard : card (25 : ZMod 47) 44 = 61 := by decide +kernel
  have hroots : RootsSpec (oneRoot (-19) 47 (-884736)) := by
    refine oneRoot_spec (-13) ?_ ?_
    · intro s v h
      have hv : v ^ 2 < 4 ^ 2 := by push_cast at h; nlinarith [sq_nonneg s]
      have hv' := abs_lt_of_sq_lt_sq hv (by norm_num)
      have hs : s ^ 2 < 14 ^ 2 := by push_cast at h; nlinarith [sq_nonneg v]
      have hs' := abs_lt_of_sq_lt_sq hs (by norm_num)
      rw [abs_lt] at hv' hs'
      obtain ⟨v1, v2⟩ := hv'
      obtain ⟨s1, s2⟩ := hs'
      push_cast at h
      have key : ∀ v ∈ Finset.Ioo (-4 : Int) 4, ∀ s ∈ Finset.Ioo (-14 : Int) 14, 4 * 47 = s ^ 2 + 19 * v ^ 2 → s = -13 ∨ s = 13 := by
        decide +kernel
      exact key v (Finset.mem_Ioo.2 ⟨v1, v2⟩) s (Finset.mem_Ioo.2 ⟨s1, s2⟩) (by linarith)
    · intro _
      rw [hj, hcard]
      norm_num
  have hq : qdiscNext exactPrime (oneSolution 19 61 15 1) 19 61 2 ⟨0, 0, []⟩ = some (⟨-19, 47, 15⟩, ⟨0, 2, [-3, 5, 13, -19]⟩) := by
    have : ((qdiscNext exactPrime (oneSolution 19 61 15 1) 19 61 2 ⟨0, 0, []⟩).map fun q => (q.1, q.2.r, q.2.i, q.2.Sp)) =
        some (⟨-19, 47, 15⟩, 0, 2, [-3, 5, 13, -19]) := by decide +kernel
    obtain ⟨⟨f, ⟨r, i, Sp⟩⟩, h1, h2⟩ := Option.map_eq_some_iff.1 this
    cases h2
    exact h1
  set C := someCalls (oneRoot (-19) 47 (-884736)) (fun _ => 0) (fun _ _ => []) with hC
  have hcon : ∃ e, constructPrime 61 (C.T 47) (C.rand 47) [((-884736 : Int) : ZMod 47)] = some e := by
    unfold constructPrime
    have hreg : Regular (fromJ ((-884736 : Int) : ZMod 47)) := by rw [hj]; decide +kernel
    rw [List.find?_cons_of_pos (by simpa using hreg)]
    exact ⟨_, rfl⟩
  obtain ⟨e, he⟩ := hcon
  refine ⟨C, oneSolution 19 61 15 1, ⟨-19, 47, e.1, e.2⟩, oneSolution_spec (by norm_num), hroots, someCalls_rand _ _ _,
    someCalls_T _ _ _, by norm_num, ?_, by norm_num⟩
  unfold cmGenPrime genPrime
  rw [hq]
  have hp' : Nat.Prime (Int.toNat 47) := hp
  simp only [hp', dite_true]
  have : constructAt C 61 (-19) (Int.toNat 47) hp' = some ⟨-19, 47, e.1, e.2⟩ := by
    show Option.map _ (constructPrime 61 (C.T 47) (C.rand 47) (C.roots (-19) 47)) = _
    have hr : C.roots (-19) 47 = [((-884736 : Int) : ZMod 47)] := by
      show oneRoot (-19) 47 (-884736) (-19) 47 = _
      unfold oneRoot
      rw [if_pos ⟨rfl, rfl⟩]
    rw [hr, he]
    rfl
  rw [this]

/-- the norm equation for one order -/
def oneTrace (D0 : Int) (n0 : Nat) (t : Int) (D : Int) (n : Nat) : List Int := if D = D0 ∧ n = n0 then [t] else []

theorem oneTrace_spec {D0 : Int} {n0 : Nat} {t : Int} (u : Int) (h : t ^ 2 - D0 * u ^ 2 = 4 * n0) : TracesSpec (oneTrace D0 n0 t) := by
  intro D n t' h'
  unfold oneTrace at h'
  split at h'
  · rename_i e
    obtain ⟨rfl, rfl⟩ := e
    rw [List.mem_singleton] at h'
    subst h'
    exact ⟨u, h⟩
  · cases h'

/-- one pair of random points, on one curve -/
def onePair (p0 : Nat) (e0 P Q : Int × Int) (p : Nat) (e : ZMod p × ZMod p) : List (Option (ZMod p × ZMod p) × Option (ZMod p × ZMod p)) :=
  if p = p0 ∧ e = ((e0.1 : ZMod p), (e0.2 : ZMod p)) then [(some ((P.1 : ZMod p), (P.2 : ZMod p)), some ((Q.1 : ZMod p), (Q.2 : ZMod p)))]
  else []

theorem onePair_spec {roots : (D : Int) → (p : Nat) → List (ZMod p)} {p0 : Nat} [Fact p0.Prime] {T : Int} (hT : ¬ IsSquare (T : ZMod p0))
    {e0 P Q : Int × Int} (hP : (P.2 : ZMod p0) ^ 2 = (P.1 : ZMod p0) ^ 3 + e0.1 * P.1 + e0.2)
    (hQ : (Q.2 : ZMod p0) ^ 2 = (Q.1 : ZMod p0) ^ 3 + e0.1 * T ^ 2 * Q.1 + e0.2 * T ^ 3) :
    RandsSpec (someCalls roots (fun p => (T : ZMod p)) (onePair p0 e0 P Q)) := by
  intro p hp e q hq
  change q ∈ onePair p0 e0 P Q p e at hq
  unfold onePair at hq
  split at hq
  · rename_i h
    obtain ⟨rfl, rfl⟩ := h
    rw [List.mem_singleton] at hq
    subst hq
    rw [someCalls_T_eq _ _ _ _ hT]
    exact ⟨⟨_, _, rfl, hP⟩, ⟨_, _, rfl, hQ⟩⟩
  · cases hq

/-- C66 fails for composite orders: a point of order two decides for the wrong curve. Order 72 over the field of 73 elements,
discriminant -8: the curve with 76 points is taken for the one with 72 points, because `72 / gcd(72, 76) = 18` times the random point
(28, 0) vanishes. -/
theorem any_order_false : ∃ (C : Calls) (traces : Int → Nat → List Int) (r : Result) (_ : Fact r.p.Prime),
    TracesSpec traces ∧ RootsSpec C.roots ∧ RandsSpec C ∧ TwistSpec C.T ∧
      cmGenAny C exactPrime (fun n => decide (Squarefree n)) traces 72 1 = some (some r) ∧ r.D ≠ -3 ∧ card r.a r.b ≠ cmGenOrder 72 := by
  have hj : fromJ ((8000 : Int) : ZMod 73) = (44, 30) := by decide +kernel
  have hcard : card (44 : ZMod 73) 30 = 76 := by decide +kernel
  have hT : ¬ IsSquare ((5 : Int) : ZMod 73) := by decide +kernel
  have hroots : RootsSpec (oneRoot (-8) 73 8000) := by
    refine oneRoot_spec (-2) ?_ ?_
    · intro s v h
      push_cast at h
      have hv : v ^ 2 < 7 ^ 2 := by nlinarith [sq_nonneg s]
      have hv' := abs_lt_of_sq_lt_sq hv (by norm_num)
      have hs : s ^ 2 < 18 ^ 2 := by nlinarith [sq_nonneg v]
      have hs' := abs_lt_of_sq_lt_sq hs (by norm_num)
      rw [abs_lt] at hv' hs'
      have key : ∀ v ∈ Finset.Ioo (-7 : Int) 7, ∀ s ∈ Finset.Ioo (-18 : Int) 18, 4 * 73 = s ^ 2 + 8 * v ^ 2 → s = -2 ∨ s = 2 := by
        decide +kernel
      exact key v (Finset.mem_Ioo.2 hv') s (Finset.mem_Ioo.2 hs') (by linarith)
    · intro _
      rw [hj, hcard]
      norm_num
  refine ⟨someCalls (oneRoot (-8) 73 8000) (fun p => ((5 : Int) : ZMod p)) (onePair 73 (44, 30) (28, 0) (0, 10)), oneTrace (-8) 72 0,
    ⟨-8, 73, 44, 30⟩, inferInstance, oneTrace_spec 6 (by norm_num), hroots, onePair_spec hT (by decide +kernel) (by decide +kernel),
    someCalls_T _ _ _, ?_, by norm_num, ?_⟩
  · have hmin : qdiscMinimal exactPrime (fun n => decide (Squarefree n)) (oneTrace (-8) 72 0) 72 1 2 = some (-8, 73) := by
      decide +kernel
    unfold cmGenAny
    rw [hmin]
    have hp' : Nat.Prime (Int.toNat 73) := (by norm_num : Nat.Prime 73)
    simp only [hp', dite_true]
    have hc : constructAny 72 73 ((5 : Int) : ZMod 73) (onePair 73 (44, 30) (28, 0) (0, 10) 73) (oneRoot (-8) 73 8000 (-8) 73) =
        some (some (44, 30)) := by decide +kernel
    have ht := someCalls_T_eq (oneRoot (-8) 73 8000) (fun p => ((5 : Int) : ZMod p)) (onePair 73 (44, 30) (28, 0) (0, 10)) 73 hT
    show Option.map _ (constructAny 72 73 ((someCalls _ _ _).T 73) (onePair 73 (44, 30) (28, 0) (0, 10) 73)
      (oneRoot (-8) 73 8000 (-8) 73)) = _
    rw [ht, hc]
    rfl
  · show card (44 : ZMod 73) 30 ≠ 72
    rw [hcard]
    norm_num

theorem root43 : fromJ ((8000 : Int) : ZMod 43) = (36, 15) ∧ card (36 : ZMod 43) 15 = 54 ∧ ¬ IsSquare ((2 : Int) : ZMod 43) ∧
    RootsSpec (oneRoot (-8) 43 8000) := by
  have hj : fromJ ((8000 : Int) : ZMod 43) = (36, 15) := by decide +kernel
  have hcard : card (36 : ZMod 43) 15 = 54 := by decide +kernel
  have hT : ¬ IsSquare ((2 : Int) : ZMod 43) := by decide +kernel
  have hroots : RootsSpec (oneRoot (-8) 43 8000) := by
    refine oneRoot_spec (-10) ?_ ?_
    · intro s v h
      push_cast at h
      have hv : v ^ 2 < 5 ^ 2 := by nlinarith [sq_nonneg s]
      have hv' := abs_lt_of_sq_lt_sq hv (by norm_num)
      have hs : s ^ 2 < 14 ^ 2 := by nlinarith [sq_nonneg v]
      have hs' := abs_lt_of_sq_lt_sq hs (by norm_num)
      rw [abs_lt] at hv' hs'
      have key : ∀ v ∈ Finset.Ioo (-5 : Int) 5, ∀ s ∈ Finset.Ioo (-14 : Int) 14, 4 * 43 = s ^ 2 + 8 * v ^ 2 → s = -10 ∨ s = 10 := by
        decide +kernel
      exact key v (Finset.mem_Ioo.2 hv') s (Finset.mem_Ioo.2 hs') (by linarith)
    · intro _
      rw [hj, hcard]
      norm_num
  exact ⟨hj, hcard, hT, hroots⟩

/-- C66 fails for composite orders in another way: the random point of the twist is multiplied on the curve itself, with the wrong
coefficient `a`. Order 54 over the field of 43 elements, discriminant -8: the curve has 54 points, but its twist is returned. Here nothing
is left in common after division by the greatest common divisor. -/
theorem any_order_false_twist : ∃ (C : Calls) (traces : Int → Nat → List Int) (r : Result) (_ : Fact r.p.Prime),
    TracesSpec traces ∧ RootsSpec C.roots ∧ RandsSpec C ∧ TwistSpec C.T ∧
      cmGenAny C exactPrime (fun n => decide (Squarefree n)) traces 54 1 = some (some r) ∧ r.D ≠ -3 ∧
      (Nat.Coprime (54 / Nat.gcd 54 (2 * r.p + 2 - 54)) (2 * r.p + 2 - 54) ∧
        Nat.Coprime ((2 * r.p + 2 - 54) / Nat.gcd 54 (2 * r.p + 2 - 54)) 54) ∧ card r.a r.b ≠ cmGenOrder 54 := by
  obtain ⟨hj, hcard, hT, hroots⟩ := root43
  refine ⟨someCalls (oneRoot (-8) 43 8000) (fun p => ((2 : Int) : ZMod p)) (onePair 43 (36, 15) (16, 0) (27, 16)), oneTrace (-8) 54 12,
    ⟨-8, 43, 15, 34⟩, inferInstance, oneTrace_spec 3 (by norm_num), hroots, onePair_spec hT (by decide +kernel) (by decide +kernel),
    someCalls_T _ _ _, ?_, by norm_num, by decide, ?_⟩
  · have hmin : qdiscMinimal exactPrime (fun n => decide (Squarefree n)) (oneTrace (-8) 54 12) 54 1 2 = some (-8, 43) := by
      decide +kernel
    unfold cmGenAny
    rw [hmin]
    have hp' : Nat.Prime (Int.toNat 43) := (by norm_num : Nat.Prime 43)
    simp only [hp', dite_true]
    have hc : constructAny 54 43 ((2 : Int) : ZMod 43) (onePair 43 (36, 15) (16, 0) (27, 16) 43) (oneRoot (-8) 43 8000 (-8) 43) =
        some (some (15, 34)) := by decide +kernel
    have ht := someCalls_T_eq (oneRoot (-8) 43 8000) (fun p => ((2 : Int) : ZMod p)) (onePair 43 (36, 15) (16, 0) (27, 16)) 43 hT
    show Option.map _ (constructAny 54 43 ((someCalls _ _ _).T 43) (onePair 43 (36, 15) (16, 0) (27, 16) 43)
      (oneRoot (-8) 43 8000 (-8) 43)) = _
    rw [ht, hc]
    rfl
  · show card (15 : ZMod 43) 34 ≠ 54
    have : card (15 : ZMod 43) 34 = 34 := by decide +kernel
    rw [this]
    norm_num

/-- the hypotheses of `any_order_partial` are met: order 54 over the field of 43 elements, decided by a point of order three of the curve -/
theorem any_met : ∃ (C : Calls) (traces : Int → Nat → List Int) (r : Result),
    TracesSpec traces ∧ RootsSpec C.roots ∧ RandsSpec C ∧ TwistSpec C.T ∧
      cmGenAny C exactPrime (fun n => decide (Squarefree n)) traces 54 1 = some (some r) ∧ r.D ≠ -3 ∧
      (Nat.Coprime (54 / Nat.gcd 54 (2 * r.p + 2 - 54)) (2 * r.p + 2 - 54) ∧
        Nat.Coprime ((2 * r.p + 2 - 54) / Nat.gcd 54 (2 * r.p + 2 - 54)) 54) ∧
      ∀ (_ : Fact r.p.Prime) (e : ZMod r.p × ZMod r.p) q, q ∈ C.rands r.p e →
        ellmul e.1 ((2 * r.p + 2 - 54) / Nat.gcd 54 (2 * r.p + 2 - 54)) q.2 ≠ none ∧
          ellmul e.1 (54 / Nat.gcd 54 (2 * r.p + 2 - 54)) q.2 ≠ none := by
  obtain ⟨hj, hcard, hT, hroots⟩ := root43
  refine ⟨someCalls (oneRoot (-8) 43 8000) (fun p => ((2 : Int) : ZMod p)) (onePair 43 (36, 15) (29, 11) (32, 0)), oneTrace (-8) 54 12,
    ⟨-8, 43, 36, 15⟩, oneTrace_spec 3 (by norm_num), hroots, onePair_spec hT (by decide +kernel) (by decide +kernel),
    someCalls_T _ _ _, ?_, by norm_num, by decide, ?_⟩
  · have hmin : qdiscMinimal exactPrime (fun n => decide (Squarefree n)) (oneTrace (-8) 54 12) 54 1 2 = some (-8, 43) := by
      decide +kernel
    unfold cmGenAny
    rw [hmin]
    have hp' : Nat.Prime (Int.toNat 43) := (by norm_num : Nat.Prime 43)
    simp only [hp', dite_true]
    have hc : constructAny 54 43 ((2 : Int) : ZMod 43) (onePair 43 (36, 15) (29, 11) (32, 0) 43) (oneRoot (-8) 43 8000 (-8) 43) =
        some (some (36, 15)) := by decide +kernel
    have ht := someCalls_T_eq (oneRoot (-8) 43 8000) (fun p => ((2 : Int) : ZMod p)) (onePair 43 (36, 15) (29, 11) (32, 0)) 43 hT
    show Option.map _ (constructAny 54 43 ((someCalls _ _ _).T 43) (onePair 43 (36, 15) (29, 11) (32, 0) 43)
      (oneRoot (-8) 43 8000 (-8) 43)) = _
    rw [ht, hc]
    rfl
  · have hz : ellmul ((36 : Int) : ZMod 43) 17 (some (((32 : Int) : ZMod 43), ((0 : Int) : ZMod 43))) ≠ none ∧
        ellmul ((36 : Int) : ZMod 43) 27 (some (((32 : Int) : ZMod 43), ((0 : Int) : ZMod 43))) ≠ none := by decide +kernel
    intro _ e q hq
    change q ∈ onePair 43 (36, 15) (29, 11) (32, 0) 43 e at hq
    unfold onePair at hq
    split at hq
    · rename_i h
      obtain ⟨-, rfl⟩ := h
      rw [List.mem_singleton] at hq
      subst hq
      exact hz
    · cases hq

end Ecgen.Cm.Construct
