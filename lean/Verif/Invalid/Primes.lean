import Verif.Invalid.Model
import Verif.PrimeCert
import Mathlib.NumberTheory.Bertrand
import Mathlib.NumberTheory.Primorial
import Mathlib.Tactic.NormNum.Prime
import Mathlib.Tactic.Linarith
import Mathlib.Data.List.Dedup

/-!
# The primes selected for invalid curves (C41)
-/

namespace Ecgen.Invalid

/-! ## Specification -/

/-- a decimal number -/
def IsNumber (ds : List Char) : Prop := ds ≠ [] ∧ ∀ c ∈ ds, 48 ≤ c.toNat ∧ c.toNat ≤ 57

/-- its value -/
def value (ds : List Char) : Nat := ds.foldl (fun n c => 10 * n + (c.toNat - 48)) 0

/-- `l` lists the primes from `a` to `b` in ascending order -/
def PrimesFromTo (a b : Nat) (l : List Nat) : Prop :=
  l.Pairwise (· < ·) ∧ ∀ p, p ∈ l ↔ p.Prime ∧ a ≤ p ∧ p ≤ b

/-! ## Reading the range -/

theorem digits_append (ds rest : List Char) (h : ∀ c ∈ ds, 48 ≤ c.toNat ∧ c.toNat ≤ 57)
    (hr : rest.head?.bind digit? = none) (acc : Nat) :
    digits acc (ds ++ rest) = (ds.foldl (fun n c => 10 * n + (c.toNat - 48)) acc, rest) := by
  induction ds generalizing acc with
  | nil =>
    cases rest with
    | nil => rfl
    | cons c s =>
      have : digit? c = none := by simpa using hr
      simp [digits, this]
  | cons c ds ih =>
    have hc : digit? c = some (c.toNat - 48) := by unfold digit?; rw [if_pos (h c List.mem_cons_self)]
    rw [List.cons_append, digits, hc]
    exact ih (fun c hc => h c (List.mem_cons_of_mem _ hc)) _

theorem strtol_number (ds rest : List Char) (h : IsNumber ds) (hr : rest.head?.bind digit? = none)
    (hv : value ds < 2 ^ 63) : strtol (ds ++ rest) = ((value ds : Int), rest) := by
  obtain ⟨hne, hall⟩ := h
  obtain ⟨c, cs, rfl⟩ := List.exists_cons_of_ne_nil hne
  have hc := hall c List.mem_cons_self
  have hd : digit? c = some (c.toNat - 48) := by unfold digit?; rw [if_pos hc]
  have hm : ¬ ((c :: cs ++ rest).head? = some '-') := by
    simp only [List.cons_append, List.head?_cons, Option.some.injEq]
    rintro rfl
    revert hc
    decide
  unfold strtol
  simp only [if_neg hm]
  rw [if_pos (by simp [hd]), digits_append _ _ hall hr]
  have e : (List.foldl (fun n c => 10 * n + (c.toNat - 48)) 0 (c :: cs)) = value (c :: cs) := rfl
  rw [e]
  congr 1
  have : (value (c :: cs) : Int) < 2 ^ 63 := by exact_mod_cast hv
  omega

theorem toU_small (n : Nat) (h : n < 2 ^ 64) : toU (n : Int) = n := by
  unfold toU
  rw [Int.emod_eq_of_lt (by omega) (by exact_mod_cast h)]
  exact Int.toNat_natCast n

/-- two primes above `2^63`: `329 * 2^55 + 1` and `359 * 2^55 + 1` -/
theorem prime_q1 : Nat.Prime 11853474219239145473 := by
  refine prime_of_cert _ 3 64 55 [2, 7, 47] (by norm_num) (by norm_num) (by decide +kernel) ?_ (by decide +kernel)
  intro q hq
  simp only [List.mem_cons, List.not_mem_nil, or_false] at hq
  rcases hq with rfl | rfl | rfl <;> exact ⟨by norm_num, by decide +kernel⟩

theorem prime_q2 : Nat.Prime 12934338129808064513 := by
  refine prime_of_cert _ 3 64 55 [2, 359] (by norm_num) (by norm_num) (by decide +kernel) ?_ (by decide +kernel)
  intro q hq
  simp only [List.mem_cons, List.not_mem_nil, or_false] at hq
  rcases hq with rfl | rfl <;> exact ⟨by norm_num, by decide +kernel⟩

theorem np_spec (np : Nat → Nat) (hnp : NextSpec np) (n q : Nat) (hq : q.Prime) (h : n ≤ q) (hq64 : q < 2 ^ 64) :
    (np n).Prime ∧ n ≤ np n ∧ np n ≤ q ∧ ∀ p, p.Prime → n ≤ p → np n ≤ p := by
  rcases hnp n (by omega) with ⟨_, h2⟩ | ⟨h1, h2, h3, h4⟩
  · have := h2 q hq h; omega
  · exact ⟨h1, h2, h4 q hq h, h4⟩

/-! ## Ranges -/

theorem range_loop (np : Nat → Nat) (hnp : NextSpec np) (bound : Int) (a upper : Nat) (hu : 0 < upper)
    (hu2 : upper < 12934338129808064513) (fuel : Nat) : ∀ (last : Nat) (product : Int) (acc : List Nat),
    upper + 1 - last ≤ fuel → last ≤ upper → a ≤ last + 1 → PrimesFromTo a last acc →
    ∃ l, primesLoop np bound upper (fuel + 1) last product acc = some l ∧ PrimesFromTo a upper l := by
  induction fuel with
  | zero => intro last product acc h1 h2; omega
  | succ fuel ih =>
    intro last product acc h1 h2 ha hacc
    have hU : toU ((last : Int) + 1) = last + 1 := by
      have := toU_small (last + 1) (by omega)
      push_cast at this
      exact this
    obtain ⟨hp, hlt, hle, hmin⟩ := np_spec np hnp (last + 1) _ prime_q2 (by omega) (by norm_num)
    rw [primesLoop, if_pos (Or.inr h2)]
    simp only [hU]
    by_cases hn : np (last + 1) > upper
    · rw [if_pos ⟨by omega, hn⟩]
      refine ⟨acc, rfl, hacc.1, fun p => ?_⟩
      rw [hacc.2]
      constructor
      · rintro ⟨a, b, c⟩; exact ⟨a, b, by omega⟩
      · rintro ⟨x, b, c⟩
        refine ⟨x, b, ?_⟩
        by_contra hc
        have := hmin p x (by omega)
        omega
    · rw [if_neg (by rintro ⟨_, h⟩; exact hn h)]
      apply ih
      · omega
      · omega
      · omega
      · refine ⟨?_, fun p => ?_⟩
        · rw [List.pairwise_append]
          refine ⟨hacc.1, List.pairwise_singleton _ _, ?_⟩
          intro x hx y hy
          rw [List.mem_singleton] at hy
          have := ((hacc.2 x).1 hx).2.2
          omega
        · rw [List.mem_append, List.mem_singleton, hacc.2]
          constructor
          · rintro (⟨x, y, z⟩ | rfl)
            · exact ⟨x, y, by omega⟩
            · exact ⟨hp, by omega, le_refl _⟩
          · rintro ⟨x, y, z⟩
            by_cases hl : p ≤ last
            · exact Or.inl ⟨x, y, hl⟩
            · right
              have := hmin p x (by omega)
              omega

theorem empty_from_to (a b : Nat) (h : b < a) : PrimesFromTo a b [] :=
  ⟨List.Pairwise.nil, fun p => ⟨fun h => by simp at h, fun ⟨_, h1, h2⟩ => by omega⟩⟩

/-- C41, ranges: for all numbers `1 ≤ a` and `1 ≤ b` (below `2^63`) the text "a-b" selects exactly the primes in [a, b]. -/
theorem range_partial (np : Nat → Nat) (hnp : NextSpec np) (order : Nat) (da db : List Char) (ha : IsNumber da)
    (hb : IsNumber db) (ha1 : 1 ≤ value da) (ha2 : value da < 2 ^ 63) (hb1 : 1 ≤ value db) (hb2 : value db < 2 ^ 63) :
    ∃ fuel l, invalidPrimes np order (some (da ++ '-' :: db)) fuel = some l ∧ PrimesFromTo (value da) (value db) l := by
  have h1 : strtol (da ++ '-' :: db) = ((value da : Int), '-' :: db) := strtol_number da ('-' :: db) ha rfl ha2
  have h2 : strtol db = ((value db : Int), []) := by
    have := strtol_number db [] hb rfl hb2
    rwa [List.append_nil] at this
  have hs : start np (some (da ++ '-' :: db)) = (value da - 1, value db) := by
    unfold start
    simp only [h1, h2]
    have e : ((value da : Int) - 1) = ((value da - 1 : Nat) : Int) := by omega
    rw [e, toU_small _ (by omega), toU_small _ (by omega)]
  unfold invalidPrimes
  simp only [hs]
  by_cases hle : value da - 1 ≤ value db
  · obtain ⟨l, hl, hp⟩ := range_loop np hnp ((order : Int) ^ 2) (value da) (value db) (by omega) (by omega)
      (value db + 1) (value da - 1) 1 [] (by omega) hle (by omega) (empty_from_to _ _ (by omega))
    exact ⟨_, l, hl, hp⟩
  · refine ⟨1, [], ?_, empty_from_to _ _ (by omega)⟩
    rw [primesLoop, if_neg]
    omega

/-- C41, a single number: for every `a ≥ 1` (below `2^63`) the text "a" selects the least prime not below `a`. -/
theorem single_partial (np : Nat → Nat) (hnp : NextSpec np) (order : Nat) (da : List Char) (ha : IsNumber da)
    (ha1 : 1 ≤ value da) (ha2 : value da < 2 ^ 63) :
    ∃ fuel p, invalidPrimes np order (some da) fuel = some [p] ∧ p.Prime ∧ value da ≤ p ∧
      ∀ r, r.Prime → value da ≤ r → p ≤ r := by
  have h1 : strtol da = ((value da : Int), []) := by
    have := strtol_number da [] ha rfl ha2
    rwa [List.append_nil] at this
  obtain ⟨hp, hge, hle, hmin⟩ := np_spec np hnp (value da) _ prime_q1 (by omega) (by norm_num)
  have hs : start np (some da) = (value da - 1, np (value da)) := by
    unfold start
    simp only [h1]
    have e : ((value da : Int) - 1) = ((value da - 1 : Nat) : Int) := by omega
    rw [e, toU_small _ (by omega)]
    have e2 : (((value da - 1 : Nat) : Int) + 1) = ((value da : Nat) : Int) := by omega
    rw [e2, toU_small _ (by omega)]
  unfold invalidPrimes
  simp only [hs]
  obtain ⟨l, hl, hl1, hl2⟩ := range_loop np hnp ((order : Int) ^ 2) (value da) (np (value da)) (by omega) (by omega)
    (np (value da) + 1) (value da - 1) 1 [] (by omega) (by omega) (by omega) (empty_from_to _ _ (by omega))
  refine ⟨np (value da) + 1 + 1, np (value da), ?_, hp, hge, hmin⟩
  rw [hl]
  congr 1
  have hmem : ∀ x, x ∈ l ↔ x = np (value da) := by
    intro x
    rw [hl2]
    constructor
    · rintro ⟨a, b, c⟩
      have := hmin x a b
      omega
    · rintro rfl; exact ⟨hp, hge, le_refl _⟩
  match l, hl1, hmem with
  | [], _, hmem => have := (hmem (np (value da))).2 rfl; simp at this
  | [x], _, hmem => rw [(hmem x).1 (by simp)]
  | x :: y :: l, hl1, hmem =>
    have hx := (hmem x).1 (by simp)
    have hy := (hmem y).1 (by simp)
    rw [List.pairwise_cons] at hl1
    have := hl1.1 y (by simp)
    omega

/-! ## Without a range -/

theorem prod_primorial (l : List Nat) (n : Nat) (hs : l.Pairwise (· < ·)) (hm : ∀ p, p ∈ l ↔ p.Prime ∧ p ≤ n) :
    l.prod = primorial n := by
  have hnd : l.Nodup := hs.imp (fun h => Nat.ne_of_lt h)
  have : l.toFinset = (Finset.range (n + 1)).filter Nat.Prime := by
    ext p
    rw [List.mem_toFinset, hm, Finset.mem_filter, Finset.mem_range]
    constructor
    · rintro ⟨a, b⟩; exact ⟨by omega, a⟩
    · rintro ⟨a, b⟩; exact ⟨b, by omega⟩
  unfold primorial
  rw [← this, List.prod_toFinset _ hnd]
  simp

/-- state of the loop without a range, after at least one prime: `acc` are the primes up to `last`, which is one of them, and `product`
is the product of all others -/
def Open (last : Nat) (product : Int) (acc : List Nat) : Prop :=
  ∃ init, acc = init ++ [last] ∧ PrimesFromTo 2 last acc ∧ product = (init.prod : Nat)

/-- what the selection without a range gives for the bound `order²` -/
def Complete (bound : Int) (l : List Nat) : Prop :=
  ∃ n init, l = init ++ [n] ∧ PrimesFromTo 2 n l ∧ bound < (init.prod : Nat) ∧
    ∀ init' m, init = init' ++ [m] → ((init'.prod : Nat) : Int) ≤ bound

theorem init_primes {last : Nat} {init : List Nat} (h : PrimesFromTo 2 last (init ++ [last])) :
    ∀ p, p ∈ init ↔ p.Prime ∧ p < last := by
  intro p
  have h1 := List.pairwise_append.1 h.1
  constructor
  · intro hp
    have := (h.2 p).1 (List.mem_append_left _ hp)
    exact ⟨this.1, h1.2.2 p hp last (by simp)⟩
  · rintro ⟨a, b⟩
    have := (h.2 p).2 ⟨a, a.two_le, by omega⟩
    rw [List.mem_append, List.mem_singleton] at this
    rcases this with h | h
    · exact h
    · omega

theorem open_loop (np : Nat → Nat) (hnp : NextSpec np) (bound : Int) (hb : bound < primorial (2 ^ 62)) (fuel : Nat) :
    ∀ (last : Nat) (product : Int) (acc : List Nat), bound < product * 2 ^ fuel → Open last product acc →
    (∀ init' m, acc = init' ++ [m, last] → ((init'.prod : Nat) : Int) ≤ bound) →
    ∃ l, primesLoop np bound 0 (fuel + 1) last product acc = some l ∧ Complete bound l := by
  induction fuel with
  | zero =>
    intro last product acc hlt ho hprev
    rw [primesLoop]
    obtain ⟨init, rfl, hp, hprod⟩ := ho
    have hl : last.Prime ∧ 2 ≤ last ∧ last ≤ last := (hp.2 last).1 (by simp)
    rw [if_neg (by rintro (⟨_, h⟩ | h) <;> omega)]
    refine ⟨_, rfl, last, init, rfl, hp, by rw [← hprod]; omega, ?_⟩
    intro init' m he
    apply hprev init' m
    rw [he]; simp
  | succ fuel ih =>
    intro last product acc hlt ho hprev
    obtain ⟨init, rfl, hp, hprod⟩ := ho
    have hl : last.Prime ∧ 2 ≤ last ∧ last ≤ last := (hp.2 last).1 (by simp)
    by_cases hc : product ≤ bound
    · rw [primesLoop, if_pos (Or.inl ⟨rfl, hc⟩)]
      have hinit := init_primes hp
      have hsorted := (List.pairwise_append.1 hp.1).1
      have hlast : last ≤ 2 ^ 62 := by
        by_contra hgt
        have e : init.prod = primorial (last - 1) := by
          apply prod_primorial init _ hsorted
          intro p
          rw [hinit]
          constructor
          · rintro ⟨a, b⟩; exact ⟨a, by omega⟩
          · rintro ⟨a, b⟩; exact ⟨a, by omega⟩
        have hmono : primorial (2 ^ 62) ≤ primorial (last - 1) := primorial_mono (by omega)
        rw [e] at hprod
        have : (primorial (2 ^ 62) : Int) ≤ (primorial (last - 1) : Int) := by exact_mod_cast hmono
        omega
      have hU : toU ((last : Int) + 1) = last + 1 := by
        have := toU_small (last + 1) (by omega)
        push_cast at this
        exact this
      obtain ⟨hnpr, hlt', hle, hmin⟩ := np_spec np hnp (last + 1) _ prime_q2 (by omega) (by norm_num)
      have hS : toS last = last := by unfold toS; rw [if_pos (by omega)]
      simp only [hU, hS]
      rw [if_neg (by simp)]
      apply ih
      · rw [pow_succ] at hlt
        have h2 : (2 : Int) ≤ last := by omega
        have hpos : 0 ≤ product := by rw [hprod]; omega
        have : product * (2 ^ fuel * 2) ≤ product * last * 2 ^ fuel := by
          have : product * last * 2 ^ fuel = product * (2 ^ fuel * last) := by ring
          rw [this]
          apply mul_le_mul_of_nonneg_left _ hpos
          apply mul_le_mul_of_nonneg_left h2
          positivity
        linarith
      · refine ⟨init ++ [last], rfl, ⟨?_, fun p => ?_⟩, ?_⟩
        · rw [List.pairwise_append]
          refine ⟨hp.1, List.pairwise_singleton _ _, ?_⟩
          intro x hx y hy
          rw [List.mem_singleton] at hy
          have := ((hp.2 x).1 hx).2.2
          omega
        · rw [List.mem_append, List.mem_singleton, hp.2]
          constructor
          · rintro (⟨x, y, z⟩ | rfl)
            · exact ⟨x, y, by omega⟩
            · exact ⟨hnpr, hnpr.two_le, le_refl _⟩
          · rintro ⟨x, y, z⟩
            by_cases hl : p ≤ last
            · exact Or.inl ⟨x, y, hl⟩
            · right
              have := hmin p x (by omega)
              omega
        · rw [List.prod_append, List.prod_singleton, hprod]
          push_cast
          rfl
      · intro init' m he
        have he' : init ++ [last] = init' ++ [m] := by
          have : (init ++ [last]) ++ [np (last + 1)] = (init' ++ [m]) ++ [np (last + 1)] := by rw [he]; simp
          exact List.append_cancel_right this
        have := List.append_inj_left' he' rfl
        rw [← this]
        omega
    · rw [primesLoop, if_neg (by rintro (⟨_, h⟩ | h) <;> omega)]
      refine ⟨_, rfl, last, init, rfl, hp, by rw [← hprod]; omega, ?_⟩
      intro init' m he
      apply hprev init' m
      rw [he]; simp

/-- C41, without a range: for every order (with `order²` below the product of all primes up to `2^62`) the selection ends, consists of
all primes from 2 up to some prime, the product of all of them except the largest exceeds `order²`, and that of all except the
two largest does not. -/
theorem no_range_partial (np : Nat → Nat) (hnp : NextSpec np) (order : Nat) (ho : 0 < order)
    (hb : order ^ 2 < primorial (2 ^ 62)) :
    ∃ fuel l, invalidPrimes np order none fuel = some l ∧ Complete ((order : Int) ^ 2) l ∧ order ^ 2 < l.prod := by
  have hb' : (order : Int) ^ 2 < (primorial (2 ^ 62) : Nat) := by exact_mod_cast hb
  have hone : (1 : Int) ≤ (order : Int) ^ 2 := by
    have : 1 ≤ order ^ 2 := Nat.one_le_pow _ _ ho
    exact_mod_cast this
  obtain ⟨hnpr, hlt', hle, hmin⟩ := np_spec np hnp 2 _ prime_q2 (by norm_num) (by norm_num)
  have hn2 : np 2 = 2 := by
    have := hmin 2 Nat.prime_two (le_refl _)
    omega
  obtain ⟨l, hl, hc⟩ := open_loop np hnp ((order : Int) ^ 2) hb' (order ^ 2) 2 1 [2]
    (by
      rw [one_mul]
      have : order ^ 2 < 2 ^ (order ^ 2) := Nat.lt_two_pow_self
      exact_mod_cast this)
    ⟨[], rfl, ⟨List.pairwise_singleton _ _, fun p => by
      rw [List.mem_singleton]
      constructor
      · rintro rfl; exact ⟨Nat.prime_two, le_refl _, le_refl _⟩
      · rintro ⟨_, a, b⟩; omega⟩, by simp⟩
    (by
      intro init' m he
      have := congrArg List.length he
      simp at this)
  refine ⟨order ^ 2 + 2, l, ?_, hc, ?_⟩
  · unfold invalidPrimes start
    rw [primesLoop]
    simp only
    rw [if_pos (Or.inl ⟨trivial, hone⟩), if_neg (by simp)]
    have h2 : toU (((1 : Nat) : Int) + 1) = 2 := by decide
    have hS : toS 1 = 1 := by decide
    rw [h2, hn2, hS]
    exact hl
  · obtain ⟨n, init, rfl, hp, hlt, _⟩ := hc
    rw [List.prod_append, List.prod_singleton]
    have h1 : order ^ 2 < init.prod := by exact_mod_cast hlt
    have h2 : n.Prime := ((hp.2 n).1 (by simp)).1
    calc order ^ 2 < init.prod := h1
      _ = init.prod * 1 := (Nat.mul_one _).symm
      _ ≤ init.prod * n := Nat.mul_le_mul_left _ h2.one_lt.le

/-! ## Degenerate inputs -/

/-- C41 is false for a lower end 0: nothing is selected, here for "0-10". -/
theorem range_zero_false (np : Nat → Nat) (order fuel : Nat) :
    invalidPrimes np order (some ['0', '-', '1', '0']) (fuel + 1) = some [] := by
  have hs : start np (some ['0', '-', '1', '0']) = (2 ^ 64 - 1, 10) := by
    have h1 : strtol ['0', '-', '1', '0'] = (0, ['-', '1', '0']) := by decide
    have h2 : toU (strtol ['1', '0']).1 = 10 := by decide
    unfold start
    simp only [h1, h2]
    exact congrArg (·, 10) (by decide)
  unfold invalidPrimes
  simp only [hs]
  rw [primesLoop, if_neg (by norm_num)]

theorem nonpos_forever (np : Nat → Nat) (bound : Int) (hb : 0 ≤ bound) (fuel : Nat) : ∀ (last : Nat) (acc : List Nat),
    primesLoop np bound 0 fuel last 0 acc = none := by
  induction fuel with
  | zero => intro last acc; rfl
  | succ fuel ih =>
    intro last acc
    rw [primesLoop, if_pos (Or.inl ⟨rfl, hb⟩)]
    simp only [Int.zero_mul]
    rw [if_neg (by simp)]
    exact ih _ _

/-- C41 is false for "1-0" (an empty range): the selection never ends, and the list of primes grows without bound. -/
theorem range_one_zero_false (np : Nat → Nat) (order fuel : Nat) :
    invalidPrimes np order (some ['1', '-', '0']) fuel = none := by
  have hs : start np (some ['1', '-', '0']) = (0, 0) := by
    have h1 : strtol ['1', '-', '0'] = (1, ['-', '0']) := by decide
    have h2 : toU (strtol ['0']).1 = 0 := by decide
    unfold start
    simp only [h1, h2]
    exact congrArg (·, 0) (by decide)
  unfold invalidPrimes
  simp only [hs]
  cases fuel with
  | zero => rfl
  | succ fuel =>
    rw [primesLoop, if_pos (Or.inr (le_refl _))]
    have : toS 0 = 0 := by decide
    simp only [this, Int.mul_zero]
    rw [if_neg (by simp)]
    exact nonpos_forever np _ (by positivity) _ _ _

/-- Without a range one prime more than necessary is selected: for order 1 these are 2 and 3. -/
theorem no_range_minimal_false (np : Nat → Nat) (hnp : NextSpec np) :
    invalidPrimes np 1 none 3 = some [2, 3] ∧ (1 : Nat) ^ 2 < [2].prod := by
  refine ⟨?_, by decide⟩
  obtain ⟨-, hlt, -, hmin⟩ := np_spec np hnp 2 _ prime_q2 (by norm_num) (by norm_num)
  have hn2 : np 2 = 2 := by have := hmin 2 Nat.prime_two (le_refl _); omega
  obtain ⟨-, hlt3, -, hmin3⟩ := np_spec np hnp 3 _ prime_q2 (by norm_num) (by norm_num)
  have hn3 : np 3 = 3 := by have := hmin3 3 Nat.prime_three (le_refl _); omega
  have h2 : toU (((1 : Nat) : Int) + 1) = 2 := by decide
  have h3 : toU (((2 : Nat) : Int) + 1) = 3 := by decide
  have hS1 : toS 1 = 1 := by decide
  have hS2 : toS 2 = 2 := by decide
  change primesLoop np ((1 : Nat) ^ 2 : Int) 0 3 1 1 [] = some [2, 3]
  rw [primesLoop, if_pos (Or.inl ⟨rfl, by decide⟩), if_neg (by simp), h2, hn2, hS1]
  rw [primesLoop, if_pos (Or.inl ⟨rfl, by decide⟩), if_neg (by simp), h3, hn3, hS2]
  rw [primesLoop, if_neg (by decide)]
  rfl

/-- the hypotheses of the theorems are met -/
example : IsNumber ['1', '0'] ∧ value ['1', '0'] = 10 ∧ (13 : Nat) ^ 2 < primorial (2 ^ 62) := by
  refine ⟨⟨by simp, by decide⟩, by decide, ?_⟩
  calc (13 : Nat) ^ 2 < primorial 7 := by decide
    _ ≤ primorial (2 ^ 62) := primorial_mono (by norm_num)

end Ecgen.Invalid
