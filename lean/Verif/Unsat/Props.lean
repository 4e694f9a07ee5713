import Verif.Unsat.Even
import Verif.Order.Props
import Verif.Engine.Forever
import Verif.Cli.SetupProps
import Mathlib.FieldTheory.Finite.GaloisField

/-!
# C69: a request that no curve can satisfy is refused

False for a prime order over a binary field: every curve `y² + xy = x³ + ax² + b` has an even number of points, so that no candidate ever passes.
The request is accepted and the search goes on for ever.
-/

namespace Ecgen.Unsat
open Ecgen.Count Ecgen.Engine Ecgen.Engine.Spec Ecgen.Order

/-! ### Specification -/

/-- `n` is the number of points of a curve over a field with `2^m ≥ 8` elements -/
def BinaryCount (n : Nat) : Prop :=
  ∃ (F : Type) (_ : Field F) (_ : Fintype F) (_ : DecidableEq F) (_ : CharP F 2) (m : Nat) (a b : F), 3 ≤ m ∧ Fintype.card F = 2 ^ m ∧ n = card2 a b

theorem binary_even (n : Nat) (h : BinaryCount n) : 2 ∣ n ∧ 4 ≤ n := by
  obtain ⟨F, _, _, _, _, m, a, b, hm, hF, rfl⟩ := h
  let : Algebra (ZMod 2) F := ZMod.algebra F 2
  have h8 : 2 ^ 3 ≤ 2 ^ m := Nat.pow_le_pow_right (by decide) hm
  exact ⟨card2_even a b, card2_four (by rw [hF]; omega) a b⟩

/-- C69, mathematics: over a binary field with at least eight elements no curve has a prime number of points -/
theorem binary_not_prime (n : Nat) (h : BinaryCount n) : ¬ n.Prime := by
  obtain ⟨h2, h4⟩ := binary_even n h
  intro hp
  have := (Nat.prime_dvd_prime_iff_eq Nat.prime_two hp).1 h2
  omega

/-! ### The search -/

variable {σ : Type}

/-- `order_gen_prime` as stage of a search, order.c:93-103: `sea` is the result of `ellsea` for the current curve, `put` sets the order -/
def orderPrime (isprime : Nat → Bool) (sea : σ → Nat) (put : Nat → σ → σ) (w : σ) : σ × GenRes :=
  match genPrime isprime (sea w) with
  | some n => (put n w, .ret 1)
  | none => (w, .ret (-4))

/-- a stage that never succeeds, after stages that advance by one: the search never does -/
theorem never (S : Setup σ) (s0 stop : Nat) (h0 : s0 < stop) (hno : ∀ w w' d, S.gen s0 w = (w', .ret d) → d ≤ 0)
    (hstep : ∀ s w w' d, s < s0 → S.gen s w = (w', .ret d) → d ≤ 1) (retry : Int) (fuel : Nat) (w : σ) (r : Int) (st : St σ)
    (h : genRetry S 0 stop retry fuel w = some (r, st)) : r = 0 := by
  unfold genRetry at h
  rw [if_neg (by omega), if_neg (by omega)] at h
  have := loop_inv S 0 stop retry (fun s _ => s ≤ s0) (fun _ => True)
    (fun s w d w' _ _ hs hS => by
      obtain ⟨w1, e, hd, _⟩ := hS
      by_cases hs0 : s = s0
      · subst hs0
        have := hno _ _ _ e
        omega
      · have := hstep s _ _ _ (by omega) e
        omega)
    (fun s w d w' _ _ hs hF h1 => by
      have := fails_le (Nat.zero_le s) hF
      omega)
    (fun _ _ _ _ _ _ _ _ => trivial) fuel (init 0 w) (Nat.le_refl _) (Nat.zero_le _) r st h
  rcases this with ⟨_, h1, h2⟩ | ⟨h1, _⟩
  · omega
  · exact h1

theorem order_never (S : Setup σ) (isprime : Nat → Bool) (hip : ∀ n, isprime n = true ↔ n.Prime) (points sea : σ → Nat)
    (hpoints : ∀ w, BinaryCount (points w)) (hsea : ∀ w, SeaSpec (sea w) (points w)) (put : Nat → σ → σ)
    (horder : ∀ w, S.gen 5 w = orderPrime isprime sea put w ∨ ∃ w', S.gen 5 w = (w', .timeout)) (w w' : σ) (d : Int)
    (e : S.gen 5 w = (w', .ret d)) : d = -4 := by
  rcases horder w with h1 | ⟨w1, h1⟩
  · rw [h1, orderPrime] at e
    cases hg : genPrime isprime (sea w) with
    | none => rw [hg] at e; cases e; rfl
    | some n =>
      exact absurd ((prime_filter isprime hip _ _ (hsea w)).2.1 (by rw [hg]; rfl)) (binary_not_prime _ (hpoints w))
  · rw [h1] at e; cases e

/-- C69 is false: a search over binary fields for a prime order never succeeds, whatever the other generators, validators and cleanups do -/
theorem prime_binary_never (S : Setup σ) (isprime : Nat → Bool) (hip : ∀ n, isprime n = true ↔ n.Prime) (points sea : σ → Nat)
    (hpoints : ∀ w, BinaryCount (points w)) (hsea : ∀ w, SeaSpec (sea w) (points w)) (put : Nat → σ → σ)
    (horder : ∀ w, S.gen 5 w = orderPrime isprime sea put w ∨ ∃ w', S.gen 5 w = (w', .timeout))
    (hstep : ∀ s w w' d, s < 5 → S.gen s w = (w', .ret d) → d ≤ 1) (retry : Int) (fuel : Nat) (w : σ) (r : Int) (st : St σ)
    (h : genRetry S 0 9 retry fuel w = some (r, st)) : r = 0 := by
  refine never S 5 9 (by decide) (fun w w' d e => ?_) hstep retry fuel w r st h
  rw [order_never S isprime hip points sea hpoints hsea put horder w w' d e]
  decide

/-- C69 is false: without a limit on the number of tries, as for the curves of `exhaustive_do`, this search never ends unless an earlier stage fails for
good -/
theorem prime_binary_forever (S : Setup σ) (isprime : Nat → Bool) (hip : ∀ n, isprime n = true ↔ n.Prime) (points sea : σ → Nat)
    (hpoints : ∀ w, BinaryCount (points w)) (hsea : ∀ w, SeaSpec (sea w) (points w)) (put : Nat → σ → σ)
    (horder : ∀ w, S.gen 5 w = orderPrime isprime sea put w ∨ ∃ w', S.gen 5 w = (w', .timeout))
    (hstep : ∀ s w w' d, s < 5 → S.gen s w = (w', .ret d) → d ≤ 1)
    (hfatal : ∀ s w w' d, s < 5 → Fails S 0 s w d w' → d ≠ -2147483648 ∧ 0 ≤ (s : Int) + d) (fuel : Nat) (w : σ) : gen S 0 9 fuel w = none := by
  have ho := order_never S isprime hip points sea hpoints hsea put horder
  unfold gen genRetry
  rw [if_neg (by omega), if_neg (by omega)]
  refine forever S 0 9 (fun s _ => s ≤ 5) (fun s _ h => by omega) (fun s w d w' _ hs hS => ?_) (fun s w d w' _ hs hF => ?_) fuel _ (Nat.le_refl _)
    (Nat.zero_le _)
  · obtain ⟨w1, e, hd, _⟩ := hS
    by_cases h5 : s = 5
    · subst h5
      have := ho _ _ _ e
      omega
    · have := hstep s _ _ _ (by omega) e
      omega
  · have hd := fails_le (Nat.zero_le s) hF
    by_cases h5 : s = 5
    · subst h5
      have : d = -4 ∨ d = -5 := by
        rcases hF with ⟨_, rfl⟩ | ⟨e, _⟩ | ⟨_, g, e, hg, _⟩
        · exact Or.inr (by decide)
        · exact Or.inl (ho _ _ _ e)
        · have := ho _ _ _ e
          omega
      exact ⟨by omega, by omega, by omega⟩
    · obtain ⟨h1, h2⟩ := hfatal s w w' d (by omega) hF
      exact ⟨h1, h2, by omega⟩

/-- C69 is false for odd cofactors as well: a curve over a binary field that passes the filter for the cofactor `k` has order `2k`, its prime
subgroup two elements -/
theorem cofactor_binary (isprime : Nat → Bool) (hip : ∀ n, isprime n = true ↔ n.Prime) (k n : Nat) (hn : BinaryCount n) (hk : ¬ 2 ∣ k)
    (h : (genCofactor isprime k n).isSome) : n = 2 * k := by
  obtain ⟨h2, h4⟩ := binary_even n hn
  obtain ⟨q, hq, rfl⟩ := ((cofactor_filter isprime hip k n (by omega)).2).1 h
  rcases (Nat.prime_two.dvd_mul).1 h2 with h1 | h1
  · exact absurd h1 hk
  · have := (Nat.prime_dvd_prime_iff_eq Nat.prime_two hq).1 h1
    rw [← this]
    ring

/-! ### The request is accepted -/

open Ecgen.Cli in
/-- the request for a prime order selects this generator, over any field, for the normal search and for ANSI seeds -/
theorem prime_selected (c : Config) (hp : c.prime = true) (hm : c.seedAlgo = .none ∧ c.method ≠ METHOD_FAMILY ∨ c.seedAlgo = .ansi) :
    (exhaustiveSetup c).gens.order = some .orderPrime := by
  rcases hm with ⟨h1, h2⟩ | h1
  · simp only [exhaustiveSetup, ginit, ginitMethod, h1, if_neg h2, orderChoiceKoblitz, hp]
    simp
  · simp [exhaustiveSetup, ginit, ginitMethod, h1, orderChoice, hp]

open Ecgen.Cli in
/-- C69 is false: `ecgen --f2m --prime -r 163` is accepted, and its order stage is the generator of `prime_binary_never` -/
theorem prime_binary_accepted : ∃ c, commandLine 1 [.f2m, .prime, .random none, .arg "163".toList] = some c ∧ c.field = FIELD_BINARY ∧ c.bits = 163 ∧
    (exhaustiveSetup c).gens.order = some .orderPrime := by
  have h : (commandLine 1 [.f2m, .prime, .random none, .arg "163".toList]).map (fun c => (c.field, c.bits, (exhaustiveSetup c).gens.order)) =
      some (FIELD_BINARY, 163, some .orderPrime) := by decide +kernel
  cases hc : commandLine 1 [.f2m, .prime, .random none, .arg "163".toList] with
  | none => rw [hc] at h; cases h
  | some c =>
    rw [hc] at h
    simp only [Option.map_some, Option.some.injEq, Prod.mk.injEq] at h
    exact ⟨c, rfl, h⟩

open Ecgen.Cli in
/-- C69 for methods that make curves over prime fields only: with `--f2m` they are refused. Missing: order constraints, for which it is
false. -/
theorem methods_refused_partial (n : Int) (os : List Opt) (c : Config) (h : commandLine n os = some c) (hf : c.field = FIELD_BINARY) :
    c.method ≠ METHOD_CM ∧ c.method ≠ METHOD_ANOMALOUS ∧ c.method ≠ METHOD_FAMILY ∧ c.method ≠ METHOD_SUPERSINGULAR ∧
    (c.method = METHOD_SEED → c.seedAlgo ≠ .brainpool ∧ c.seedAlgo ≠ .brainpoolRfc ∧ c.seedAlgo ≠ .nums) := by
  unfold commandLine at h
  cases hp : parseAll n {} os with
  | none => rw [hp] at h; cases h
  | some c0 =>
    rw [hp, Option.bind_some] at h
    split at h
    · cases h
    · split at h
      · rename_i he
        cases h
        simp only [defaults] at hf ⊢
        simp only [endChecks, Bool.and_eq_true, Bool.not_eq_true', Bool.and_eq_false_iff, decide_eq_false_iff_not, Bool.or_eq_true,
          decide_eq_true_eq, hf] at he
        simp at he
        tauto
      · cases h

/-! ### Concrete cases -/

/-- the hypotheses can be met: a search over the field with eight elements -/
theorem never_met : ∃ (S : Setup Nat) (isprime : Nat → Bool) (points : Nat → Nat) (put : Nat → Nat → Nat),
    (∀ n, isprime n = true ↔ n.Prime) ∧ (∀ w, BinaryCount (points w)) ∧ (∀ w, SeaSpec (points w) (points w)) ∧
    (∀ w, S.gen 5 w = orderPrime isprime points put w ∨ ∃ w', S.gen 5 w = (w', .timeout)) ∧
    (∀ s w w' d, s < 5 → S.gen s w = (w', .ret d) → d ≤ 1) ∧
    (∀ s w w' d, s < 5 → Fails S 0 s w d w' → d ≠ -2147483648 ∧ 0 ≤ (s : Int) + d) := by
  classical
  let : Fintype (GaloisField 2 3) := Fintype.ofFinite _
  have hc : Fintype.card (GaloisField 2 3) = 2 ^ 3 := by
    rw [← Nat.card_eq_fintype_card]; exact GaloisField.card 2 3 (by decide)
  have hb : BinaryCount (card2 (1 : GaloisField 2 3) 1) := ⟨GaloisField 2 3, inferInstance, inferInstance, inferInstance, inferInstance, 3, 1, 1, by decide, hc, rfl⟩
  refine ⟨{ gen := fun s w => if s = 5 then orderPrime (fun n => decide n.Prime) (fun _ => card2 (1 : GaloisField 2 3) 1) (fun n _ => n) w else (w, .ret 1),
            checks := fun _ => [], unroll := fun _ => none }, fun n => decide n.Prime, fun _ => card2 (1 : GaloisField 2 3) 1, fun n _ => n,
    fun n => decide_eq_true_iff, fun _ => hb, fun _ => Or.inl rfl, fun w => Or.inl rfl, ?_, ?_⟩
  · intro s w w' d hs e
    simp only at e
    rw [if_neg (by omega)] at e
    cases e
    decide
  · intro s w w' d hs hF
    unfold Fails at hF
    simp only [if_neg (show s ≠ 5 by omega)] at hF
    rcases hF with ⟨e, _⟩ | ⟨e, h⟩ | ⟨_, _, _, _, hr⟩
    · cases e
    · cases e
      exact absurd h (by decide)
    · cases hr

end Ecgen.Unsat
