import Verif.Unsat.Koblitz

/-!
# C74: a request for a Koblitz curve ends

Over a binary field there is one Koblitz curve for each degree and each coefficient, as far as the number of points is concerned. A constraint on the
order is thus met by all candidates or by none; in the second case the search repeats the same candidate for ever.
-/

namespace Ecgen.Unsat
open Ecgen.Count Ecgen.Engine Ecgen.Engine.Spec Ecgen.Order Ecgen.Koblitz

/-! ### Specification -/

/-- `n` is the number of points of `y² + xy = x³ + ax² + 1` over a field with `2^m` elements, `a` is 0 or 1 -/
def KoblitzCount (m a n : Nat) : Prop :=
  (a = 0 ∨ a = 1) ∧ ∃ (F : Type) (_ : Field F) (_ : Fintype F) (_ : CharP F 2), Fintype.card F = 2 ^ m ∧
    n = (open scoped Classical in card2 (a : F) 1)

theorem koblitz_weil (m a n : Nat) (h : KoblitzCount m a n) : (n : Int) = weil m a := by
  obtain ⟨ha, F, _, _, _, hF, rfl⟩ := h
  classical
  let : Algebra (ZMod 2) F := ZMod.algebra F 2
  rw [← koblitz_points (F := F) m a hF ha]

theorem koblitz_degree (m a n : Nat) (h : KoblitzCount m a n) : 1 ≤ m := by
  obtain ⟨_, F, _, _, _, hF, _⟩ := h
  rcases m with _ | m
  · have := Fintype.one_lt_card (α := F)
    rw [hF] at this
    exact absurd this (by decide)
  · omega

theorem koblitz_pos (m a n : Nat) (h : KoblitzCount m a n) : 0 < n := by
  have hw := koblitz_weil m a n h
  have hm := koblitz_degree m a n h
  rcases Nat.eq_zero_or_pos n with rfl | h0
  · exfalso
    obtain ⟨_, F, _, _, _, hF, hn⟩ := h
    classical
    let : Algebra (ZMod 2) F := ZMod.algebra F 2
    rw [card2_fibres] at hn
    omega
  · exact h0

/-- C74, mathematics: all candidates of a request have the same number of points -/
theorem koblitz_one (m a n n' : Nat) (h : KoblitzCount m a n) (h' : KoblitzCount m a n') : n = n' := by
  have h1 := koblitz_weil m a n h
  have h2 := koblitz_weil m a n' h'
  omega

/-! ### The search -/

variable {σ : Type}

/-- `order_gen_cofactor`, order.c:48-67, and `order_gen_smooth`, 69-91, as stages of a search: `filter` decides by the number of points of the current
curve, `put` sets the order -/
def orderStage (filter : Nat → Option Nat) (points : σ → Nat) (put : Nat → σ → σ) (w : σ) : σ × GenRes :=
  match filter (points w) with
  | some n => (put n w, .ret 1)
  | none => (w, .ret (-4))

/-- C74 is false: if the order of the curve does not pass, the search never ends, whatever the field polynomial, the timer, the other stages and their
checks do, unless an earlier stage fails for good -/
theorem koblitz_forever (S : Setup σ) (m a N : Nat) (hN : KoblitzCount m a N) (filter : Nat → Option Nat) (hno : filter N = none) (points : σ → Nat)
    (put : Nat → σ → σ) (hcurve : ∀ w d w', Succeeds S 4 w d w' → KoblitzCount m a (points w'))
    (horder : ∀ w, S.gen 5 w = orderStage filter points put w ∨ ∃ w', S.gen 5 w = (w', .timeout))
    (hstep : ∀ s w w' d, s < 5 → S.gen s w = (w', .ret d) → d ≤ 1)
    (hfatal : ∀ s w w' d, s < 5 → Fails S 0 s w d w' → d ≠ -2147483648 ∧ 0 ≤ (s : Int) + d) (fuel : Nat) (w : σ) : gen S 0 9 fuel w = none := by
  have ho : ∀ w w' d, KoblitzCount m a (points w) → S.gen 5 w = (w', .ret d) → d = -4 := by
    intro w w' d hw e
    rcases horder w with h1 | ⟨w1, h1⟩
    · rw [h1, orderStage, koblitz_one m a _ _ hw hN, hno] at e
      cases e; rfl
    · rw [h1] at e; cases e
  unfold gen genRetry
  rw [if_neg (by omega), if_neg (by omega)]
  refine forever S 0 9 (fun s w => s ≤ 5 ∧ (s = 5 → KoblitzCount m a (points w))) (fun s _ h => by omega) (fun s w d w' _ hs hS => ?_)
    (fun s w d w' _ hs hF => ?_) fuel _ (Nat.le_refl _) ⟨Nat.zero_le _, fun h => by cases h⟩
  · have hS' := hS
    obtain ⟨w1, e, hd, _⟩ := hS
    by_cases h5 : s = 5
    · subst h5
      have := ho _ _ _ (hs.2 rfl) e
      omega
    · have := hstep s _ _ _ (by omega) e
      refine ⟨by omega, fun h => ?_⟩
      have h4 : s = 4 := by omega
      subst h4
      exact hcurve _ _ _ hS'
  · have hd := fails_le (Nat.zero_le s) hF
    by_cases h5 : s = 5
    · subst h5
      have : d = -4 ∨ d = -5 := by
        rcases hF with ⟨_, rfl⟩ | ⟨e, _⟩ | ⟨_, g, e, hg, _⟩
        · exact Or.inr (by decide)
        · exact Or.inl (ho _ _ _ (hs.2 rfl) e)
        · have := ho _ _ _ (hs.2 rfl) e
          omega
      exact ⟨by omega, by omega, by omega, fun h => by omega⟩
    · obtain ⟨h1, h2⟩ := hfatal s w w' d (by omega) hF
      exact ⟨h1, h2, by omega, fun h => by omega⟩

/-- C74, the other half: if the order passes, the stage of the order accepts every candidate -/
theorem koblitz_accepts_partial (m a N : Nat) (hN : KoblitzCount m a N) (filter : Nat → Option Nat) (n : Nat) (hyes : filter N = some n) (points : σ → Nat)
    (put : Nat → σ → σ) (w : σ) (hw : KoblitzCount m a (points w)) : orderStage filter points put w = (put n w, .ret 1) := by
  rw [orderStage, koblitz_one m a _ _ hw hN, hyes]

/-! ### Which requests can be met -/

/-- C74: with `a = 0` the cofactor is a multiple of 4, but for a subgroup of order 2 -/
theorem cofactor_zero (isprime : Nat → Bool) (hip : ∀ n, isprime n = true ↔ n.Prime) (m k n : Nat) (hn : KoblitzCount m 0 n)
    (h : (genCofactor isprime k n).isSome) : 4 ∣ k ∨ n = 2 * k := by
  obtain ⟨q, hq, rfl⟩ := ((cofactor_filter isprime hip k n (koblitz_pos m 0 n hn)).2).1 h
  have h4 := weil_zero_four m (koblitz_degree m 0 _ hn)
  rw [← koblitz_weil m 0 _ hn] at h4
  have h4 : 4 ∣ k * q := by omega
  rcases hq.eq_two_or_odd' with rfl | ho
  · exact Or.inr (Nat.mul_comm _ _)
  · exact Or.inl ((Nat.Coprime.pow_left 2 (Nat.coprime_two_left.mpr ho)).dvd_of_dvd_mul_right h4)

/-- C74: with `a = 1` and an odd degree the cofactor is twice an odd number, but for a subgroup of order 2 -/
theorem cofactor_one (isprime : Nat → Bool) (hip : ∀ n, isprime n = true ↔ n.Prime) (m k n : Nat) (hm : m % 2 = 1) (hn : KoblitzCount m 1 n)
    (h : (genCofactor isprime k n).isSome) : k % 4 = 2 ∨ n = 2 * k := by
  obtain ⟨q, hq, rfl⟩ := ((cofactor_filter isprime hip k n (koblitz_pos m 1 n hn)).2).1 h
  have h4 := weil_one_four m (koblitz_degree m 1 _ hn)
  rw [← koblitz_weil m 1 _ hn, if_neg (by omega)] at h4
  have h4 : k * q % 4 = 2 := by omega
  rcases hq.eq_two_or_odd' with rfl | ho
  · exact Or.inr (Nat.mul_comm _ _)
  · left
    obtain ⟨j, rfl⟩ := ho
    have hk : k < 4 ∨ 4 ≤ k := by omega
    rw [Nat.mul_mod] at h4
    have h1 : k % 4 < 4 := Nat.mod_lt _ (by decide)
    have h2 : (2 * j + 1) % 4 = 1 ∨ (2 * j + 1) % 4 = 3 := by omega
    generalize k % 4 = x at *
    rcases h2 with h2 | h2 <;> rw [h2] at h4 <;> omega

/-- C74: the number of points over a subfield divides the cofactor, unless the prime subgroup lies in that subfield -/
theorem cofactor_subfield (isprime : Nat → Bool) (hip : ∀ n, isprime n = true ↔ n.Prime) (m d a k n nd : Nat) (hd : d ∣ m) (hn : KoblitzCount m a n)
    (hnd : KoblitzCount d a nd) (h : (genCofactor isprime k n).isSome) : nd ∣ k ∨ n ∣ k * nd := by
  obtain ⟨q, hq, rfl⟩ := ((cofactor_filter isprime hip k n (koblitz_pos m a n hn)).2).1 h
  have hdiv : nd ∣ k * q := by
    have := weil_dvd d m a hd
    rw [← koblitz_weil m a _ hn, ← koblitz_weil d a _ hnd] at this
    exact Int.natCast_dvd_natCast.mp this
  by_cases hqd : q ∣ nd
  · exact Or.inr (Nat.mul_dvd_mul_left k hqd)
  · exact Or.inl (((Nat.Prime.coprime_iff_not_dvd hq).mpr hqd).symm.dvd_of_dvd_mul_right hdiv)

/-! ### Requests that are accepted and never end -/

theorem koblitz_exists (m a : Nat) (hm : m ≠ 0) (ha : a = 0 ∨ a = 1) : ∃ n, KoblitzCount m a n := by
  classical
  let : Fintype (GaloisField 2 m) := Fintype.ofFinite _
  have hc : Fintype.card (GaloisField 2 m) = 2 ^ m := by
    rw [← Nat.card_eq_fintype_card]; exact GaloisField.card 2 m hm
  exact ⟨_, ha, GaloisField 2 m, inferInstance, inferInstance, inferInstance, hc, rfl⟩

theorem filter_none (isprime : Nat → Bool) (k n : Nat) (h : ¬ (genCofactor isprime k n).isSome) : genCofactor isprime k n = none := by
  cases e : genCofactor isprime k n with
  | none => rfl
  | some x => rw [e] at h; simp at h

theorem weil_value (m a : Nat) (v : Int) (h : (2 : Int) ^ m + 1 - (VV (if a = 1 then 1 else -1) m).1 = v) : weil m a = v := by
  rw [VV_eq] at h
  exact h

/-- C74 is false: no Koblitz curve of 163 bits with `a = 0` has cofactor 2 … -/
theorem cofactor_163 (isprime : Nat → Bool) (hip : ∀ n, isprime n = true ↔ n.Prime) (n : Nat) (hn : KoblitzCount 163 0 n) :
    genCofactor isprime 2 n = none := by
  refine filter_none _ _ _ fun h => ?_
  rcases cofactor_zero isprime hip 163 2 n hn h with h1 | h1
  · exact absurd h1 (by decide)
  · have hw := koblitz_weil _ _ _ hn
    rw [h1] at hw
    have : weil 163 0 = 11692013098647223345629473816263631617836683539492 := weil_value _ _ _ (by decide +kernel)
    omega

/-- … and none of 128 bits has cofactor 4, the curve being defined over the field with `2^64` elements, too -/
theorem cofactor_128 (isprime : Nat → Bool) (hip : ∀ n, isprime n = true ↔ n.Prime) (n : Nat) (hn : KoblitzCount 128 0 n) :
    genCofactor isprime 4 n = none := by
  obtain ⟨nd, hnd⟩ := koblitz_exists 64 0 (by decide) (Or.inl rfl)
  refine filter_none _ _ _ fun h => ?_
  have h1 : weil 128 0 = 340282366920938463487195570175728562688 := weil_value _ _ _ (by decide +kernel)
  have h2 : weil 64 0 = 18446744077325146368 := weil_value _ _ _ (by decide +kernel)
  have e1 := koblitz_weil _ _ _ hn
  have e2 := koblitz_weil _ _ _ hnd
  rcases cofactor_subfield isprime hip 128 64 0 4 n nd (by decide) hn hnd h with h3 | h3
  · have := Nat.le_of_dvd (by decide) h3
    omega
  · have := Nat.le_of_dvd (by omega) h3
    omega

open Ecgen.Cli in
/-- C74 is false: `ecgen --f2m --koblitz --cofactor=2 -r 163` is accepted; it searches for these curves with this filter -/
theorem koblitz_accepted : ∃ c, commandLine 1 [.f2m, .koblitz none, .cofactor "2".toList, .random none, .arg "163".toList] = some c ∧ c.field = FIELD_BINARY ∧
    c.bits = 163 ∧ c.cofactorValue = 2 ∧ (exhaustiveSetup c).gens.a = some .aZero ∧ (exhaustiveSetup c).gens.b = some .bOne ∧
    (exhaustiveSetup c).gens.order = some .orderCofactor := by
  have h : (commandLine 1 [.f2m, .koblitz none, .cofactor "2".toList, .random none, .arg "163".toList]).any (fun c => decide (c.field = FIELD_BINARY) &&
      (decide (c.bits = 163) && (decide (c.cofactorValue = 2) && (decide ((exhaustiveSetup c).gens.a = some .aZero) &&
      (decide ((exhaustiveSetup c).gens.b = some .bOne) && decide ((exhaustiveSetup c).gens.order = some .orderCofactor)))))) = true := by decide +kernel
  simp only [Option.any_eq_true, Bool.and_eq_true, decide_eq_true_eq] at h
  exact h

/-! ### Concrete cases -/

/-- the hypotheses of `koblitz_forever` can be met: a search for a curve of 163 bits -/
theorem koblitz_met : ∃ (S : Setup Nat) (N : Nat) (filter : Nat → Option Nat) (points : Nat → Nat) (put : Nat → Nat → Nat), KoblitzCount 163 0 N ∧
    filter N = none ∧ (∀ w d w', Succeeds S 4 w d w' → KoblitzCount 163 0 (points w')) ∧
    (∀ w, S.gen 5 w = orderStage filter points put w ∨ ∃ w', S.gen 5 w = (w', .timeout)) ∧
    (∀ s w w' d, s < 5 → S.gen s w = (w', .ret d) → d ≤ 1) ∧
    (∀ s w w' d, s < 5 → Fails S 0 s w d w' → d ≠ -2147483648 ∧ 0 ≤ (s : Int) + d) := by
  classical
  obtain ⟨N, hN⟩ := koblitz_exists 163 0 (by decide) (Or.inl rfl)
  refine ⟨{ gen := fun s w => if s = 5 then orderStage (genCofactor (fun n => decide n.Prime) 2) (fun w => w) (fun n _ => n) w else
              if s = 4 then (N, .ret 1) else (w, .ret 1),
            checks := fun _ => [], unroll := fun _ => none }, N, genCofactor (fun n => decide n.Prime) 2, fun w => w, fun n _ => n, hN,
    cofactor_163 _ (fun n => decide_eq_true_iff) N hN, ?_, fun w => Or.inl rfl, ?_, ?_⟩
  · rintro w d w' ⟨w1, e, _, hp⟩
    simp only [show ¬ (4 = 5) by decide, if_false, if_true] at e
    cases e
    cases hp
    exact hN
  · intro s w w' d hs e
    simp only at e
    rw [if_neg (by omega)] at e
    split at e <;> cases e <;> decide
  · intro s w w' d hs hF
    unfold Fails at hF
    simp only [if_neg (show s ≠ 5 by omega)] at hF
    rcases hF with ⟨e, _⟩ | ⟨e, h⟩ | ⟨_, _, _, _, hr⟩
    · split at e <;> cases e
    · split at e <;> cases e <;> exact absurd h (by decide)
    · cases hr

end Ecgen.Unsat
