import Verif.Seeded.Defined
import Verif.Seeded.Examples

/-!
# A Brainpool run whose base point is infinity (C80)

With three bits and the seed 48049 the multiplier of the base point is zero.
-/

namespace Ecgen.Seeded

open Whole Output Output.Spec Cli Brainpool.Spec

/-- the numbers derived from four seeds in a row -/
structure LeadsNowhere (z a : Nat) : Prop where
  two : Two a
  field : fieldInt 3 z = 5 ∨ fieldInt 3 z = 6
  c1 : coeffInt 3 (z + 1) = a
  c2 : coeffInt 3 (z + 2) = 1
  c3 : coeffInt 3 (z + 3) = 0

theorem leads0 : ∃ a, LeadsNowhere 48049 a := by
  refine ⟨2, Or.inr rfl, Or.inr ?_, ?_, ?_, ?_⟩
  · unfold fieldInt findInteger SeedSpec.H
    rw [Sha1.Eval.sha1_eq _ (by decide +kernel)]
    decide +kernel
  all_goals
    unfold coeffInt findInteger SeedSpec.H
    rw [Sha1.Eval.sha1_eq _ (by decide +kernel)]
    decide +kernel

theorem gens_infinity (x : St) (p : Pick) (hj : p.junk = 0) (a : Nat) (ha : Two a) (s2 s3 : Bits.Bits) (z : Nat) (h3 : Brainpool.Seed160 s3 z)
    (e3 : Brainpool.updateSeed 0 s2 = some s3) (c3 : coeffInt 3 z = 0) : brainpoolGens pari 3 p x (EB a) 5 s2 =
      some ({ x with cur := { x.cur with seed := some s3, gens := some ⟨EB a, [⟨⟨0, 1, 5⟩, []⟩]⟩ } }, 1) := by
  have ho : pari.ord (EB a) 0 = 1 := by rw [pari_ok.ord]; exact addOrderOf_zero
  unfold brainpoolGens
  rw [hj, e3, Option.bind_some, Brainpool.hashI_spec 0 h3 _ _ (Brainpool.wOf_le 3).2, Option.bind_some, Brainpool.coeffInt_eq, c3]
  simp only [firstB ha, ordB ha, Nat.cast_zero, Int.toNat_zero, zero_smul, single, ho]

/-- the curve at the beginning of each stage: the first ones are those of `courseB` -/
noncomputable def courseI (a : Nat) (s0 s2 s3 : Bits.Bits) : Nat → St
  | 0 => courseB a true s0 s2 s3 0
  | 1 => courseB a true s0 s2 s3 1
  | 2 => courseB a true s0 s2 s3 2
  | 3 => courseB a true s0 s2 s3 3
  | 4 => courseB a true s0 s2 s3 4
  | 5 => courseB a true s0 s2 s3 5
  | 6 => courseB a true s0 s2 s3 6
  | _ => { cur := { seed := some s3, field := some (Fp 7 seven), a := some (.intmod a 7), b := some (.intmod 1 7), crv := some (EB a), order := some 5,
                    gens := some ⟨EB a, [⟨⟨0, 1, 5⟩, []⟩]⟩ }, upd := true }

theorem primes1 : Subgroup.primes pari.isprime pari.fac 1 = [] := by
  have h1 : pari.isprime 1 = false := by
    cases hb : pari.isprime 1
    · rfl
    · exact absurd ((pari_ok.isprime 1).1 hb) Nat.not_prime_one
  have hlen := (Subgroup.divisors_perm pari.fac pari_ok.fac 1 (by decide)).length_eq
  rw [Nat.primeFactorsList_one] at hlen
  have h2 := (pari_ok.fac 1 (by decide)).1
  unfold Subgroup.primes
  rw [h1]
  cases hf : pari.fac 1 with
  | nil => rfl
  | cons pe l =>
    rw [hf] at hlen h2
    have := (h2 pe List.mem_cons_self).2
    simp only [Subgroup.divisors, List.flatMap_cons, List.length_append, List.length_replicate, List.length_nil] at hlen
    omega

/-- the stages up to the generators, for any request with the tables of `cB` so far -/
theorem courseI_act (z a : Nat) (hl : LeadsNowhere z a) (s0 s1 s2 s3 : Bits.Bits) (hr : Row z s0 s1 s2 s3) (s : Nat) (hs : s < 9) :
    act pari cB (pickB s0 true) s (courseI a s0 s2 s3 s) = some (courseI a s0 s2 s3 (s + 1), 1) := by
  match s, hs with
  | 0, _ =>
    have : (exhaustiveSetup cB).gens.seed = some .brainpoolSeedRandom := by decide +kernel
    simp only [act, stageOf, this, Option.bind_some, id, call, courseI, courseB, pickB]
  | 1, _ =>
    have : (exhaustiveSetup cB).gens.field = some .brainpoolField := by decide +kernel
    have hr := field_run s0 z hr.h0 hl.field
    simp only [act, stageOf, this, Option.bind_some, id, call, courseI, courseB, pickB, cB_bits, hr, brainpoolField]
    rw [dif_pos (by exact seven)]
    rfl
  | 2, _ =>
    have : (exhaustiveSetup cB).gens.a = some .skip := by decide +kernel
    simp only [act, stageOf, this, Option.bind_some, id, call, courseI, courseB, Whole.call, Option.map_some]
  | 3, _ =>
    have : (exhaustiveSetup cB).gens.b = some .brainpoolEquation := by decide +kernel
    have hr := equation_run s0 s1 s2 z a hl.two hr.h1 hr.h2 hr.e1 hr.e2 hl.c1 hl.c2
    have hp : primeOf (courseI a s0 s2 s3 3) = some 7 := rfl
    simp only [act, stageOf, this, Option.bind_some, id, call, hp]
    simp only [courseI, courseB, Option.bind_some, pickB, cB_bits, hr, brainpoolEquation]
    rfl
  | 4, _ =>
    have : (exhaustiveSetup cB).gens.curve = some .curveAny := by decide +kernel
    simp only [act, stageOf, this, Option.bind_some, id, call, courseI, courseB, Whole.call, Option.map_some]
  | 5, _ =>
    have : (exhaustiveSetup cB).gens.order = some .orderPrime := by decide +kernel
    have h5 := genPrime5
    have hc := EB_card hl.two
    simp only [act, stageOf, this, Option.bind_some, id, call, courseI, courseB, Whole.call, Option.map_some, orderStage, pickB, always, hc, h5, filtered]
  | 6, _ =>
    have : (exhaustiveSetup cB).gens.gens = some .brainpoolGens := by decide +kernel
    have hr := gens_infinity (courseI a s0 s2 s3 6) (pickB s0 true) rfl a hl.two s2 s3 (z + 3) hr.h3 hr.e3 hl.c3
    simp only [act, stageOf, this, Option.bind_some, id, call, cB_bits]
    rw [show (courseI a s0 s2 s3 6).cur.seed = some s2 from rfl, show (courseI a s0 s2 s3 6).cur.crv = some (EB a) from rfl,
      show (courseI a s0 s2 s3 6).cur.order = some 5 from rfl]
    simp only [Option.bind_some]
    rw [hr]
    rfl
  | 7, _ =>
    have : (exhaustiveSetup cB).gens.points = some .pointsPrime := by decide +kernel
    have h1 := primes1
    simp only [act, stageOf, this, Option.bind_some, id, call, Whole.call, Whole.call.withPoints, courseI, pointsStage, if_true, Option.map_some,
      Group.pointsPrime, List.map_cons, List.map_nil, h1, Group.fromOrders]
  | 8, _ =>
    have : (exhaustiveSetup cB).gens.metadata = some .skip := by decide +kernel
    simp only [act, stageOf, this, Option.bind_some, id, call, courseI, Whole.call, Option.map_some]

theorem zn_one : Order.checkGens pari.zn 7 1 = true := by
  have := (pari_ok.zn 7 1 (by decide) (by decide)).1
  have e : Order.embedding pari.zn 7 1 = pari.zn 7 1 := if_neg (by decide)
  rw [Order.checkGens, Bool.not_eq_true', decide_eq_false_iff_not, e]
  omega

theorem courseI_acc (a : Nat) (ha : Two a) (s0 s2 s3 : Bits.Bits) (s : Nat) (k : Check) (hk : k ∈ checksOf cB s) :
    k ≠ .hexParam ∧ verdict pari (courseI a s0 s2 s3 (s + 1)) k = some 1 := by
  have hcov : Covered cB := ⟨by decide +kernel, by decide +kernel, fun _ => by decide +kernel⟩
  rw [table_checks cB hcov] at hk
  split at hk
  · subst s
    rw [List.mem_singleton] at hk
    subst hk
    refine ⟨by decide, ?_⟩
    simp only [verdict, courseI, courseB, Option.map_some]
    rw [if_neg (EB_delta ha)]
  · split at hk
    · rename_i h5
      obtain ⟨rfl, -⟩ := h5
      rw [List.mem_singleton] at hk
      subst hk
      exact ⟨by decide, rfl⟩
    · split at hk
      · subst s
        simp only [List.mem_cons, List.not_mem_nil, or_false] at hk
        have hp : primeOf (courseI a s0 s2 s3 7) = some 7 := rfl
        rcases hk with rfl | rfl
        · exact ⟨by decide, rfl⟩
        · refine ⟨by decide, ?_⟩
          simp only [verdict, hp]
          simp only [courseI, zn_one, if_true]
      · rw [if_neg fun h => absurd h.2 (by decide +kernel)] at hk
        cases hk

/-- nine stages that succeed, up to the end of the search -/
theorem straight_gen (P : Pari) (c : Config) (p : Pick) (hcut : p.cut = none) (hfail : ∀ s, p.fail s = none) (w : W) (hw : w.tape = fun _ => p)
    (xs : Nat → St) (h0 : xs 0 = { cur := {}, upd := false, sb := w.st.sb, scb := w.st.scb, ptr := p.address })
    (hact : ∀ s, s < 9 → act P c p s (xs s) = some (xs (s + 1), 1))
    (hacc : ∀ s, s < 9 → ∀ k ∈ checksOf c s, k ≠ .hexParam ∧ verdict P (xs (s + 1)) k = some 1) :
    ∃ st, Engine.gen (setup P c) 0 9 9 (fresh w) = some (1, st) ∧ st.w.st = xs 9 := by
  obtain ⟨st, h1, h2⟩ := loop_straight (setup P c) (fun s => ({ w with st := xs s, pos := w.pos + s } : W))
    (fun s hs => succeeds_act P c p hcut hfail s _ _ (hact s hs) (hacc s hs) w hw (w.pos + s)) 9
    (Engine.init 0 { w with st := xs 0 }) rfl rfl
  have hp : w.pick = p := by simp only [W.pick, hw]
  refine ⟨st, ?_, by rw [h2]⟩
  unfold Engine.gen Engine.genRetry fresh
  rw [if_neg (by decide), if_neg (by decide), hp, ← h0]
  exact h1

/-- **C80** is false for Brainpool: `ecgen --fp --brainpool --random 3` with the random seed 48049 finds a curve and accepts infinity as its base point,
which has no coordinates to print -/
theorem infinity_false : ∃ (os : List Opt) (c : Config) (w : W) (st : Engine.St W), commandLine 4 os = some c ∧ c.seedAlgo = .brainpool ∧ 1 ≤ c.bits ∧
    c.pointsType ≠ .random ∧ c.pointsType ≠ .all ∧ w.ub = false ∧ (∀ i, (w.tape i).Ok c) ∧ Engine.gen (setup pari c) 0 9 9 (fresh w) = some (1, st) ∧
    outCurve st.w.st.cur = none := by
  obtain ⟨s0, s1, s2, s3, hr⟩ := row 48049 (by decide)
  obtain ⟨a, hl⟩ := leads0
  obtain ⟨st, h1, h2⟩ := straight_gen pari cB (pickB s0 true) rfl (fun _ => rfl) (worldB s0 true) rfl (courseI a s0 s2 s3) rfl
    (courseI_act _ a hl s0 s1 s2 s3 hr) (fun s _ => courseI_acc a hl.two s0 s2 s3 s)
  refine ⟨_, cB, worldB s0 true, st, cB_some, by decide +kernel, by decide +kernel, by decide +kernel, by decide +kernel, rfl,
    fun _ => pickB_ok s0 true _ hr.h0 cB, h1, ?_⟩
  rw [h2]
  rfl

/-- **C80, met**: the runs of `nums_met` and `brainpool_met` are searches that succeed -/
theorem searches_met : (∃ (os : List Opt) (c : Config) (w : W) (st : Engine.St W), commandLine 4 os = some c ∧ c.seedAlgo = .nums ∧
      c.pointsType ≠ .random ∧ w.ub = false ∧ (∀ i, (w.tape i).Ok c) ∧ Engine.gen (setup pari c) 0 9 9 (fresh w) = some (1, st)) ∧
    ∃ (os : List Opt) (c : Config) (w : W) (st : Engine.St W), commandLine 4 os = some c ∧ c.seedAlgo = .brainpool ∧ 1 ≤ c.bits ∧
      c.pointsType ≠ .random ∧ c.pointsType ≠ .all ∧ w.ub = false ∧ (∀ i, (w.tape i).Ok c) ∧
      Engine.gen (setup pari c) 0 9 9 (fresh w) = some (1, st) ∧ ∃ v, outCurve st.w.st.cur = some v := by
  obtain ⟨s0, s1, s2, s3, hr⟩ := row 48671 (by decide)
  constructor
  · obtain ⟨st, h1, -⟩ := straight_gen pari cN (pickB s0 true) rfl (fun _ => rfl) (worldB s0 true) rfl courseN rfl (courseN_act s0)
      (fun s _ => courseN_acc s)
    exact ⟨_, cN, worldB s0 true, st, cN_some, by decide +kernel, by decide +kernel, rfl, fun _ => pickB_ok s0 true _ hr.h0 cN, h1⟩
  · obtain ⟨st, h1, h2⟩ := straight_gen pari cB (pickB s0 true) rfl (fun _ => rfl) (worldB s0 true) rfl (courseB 1 true s0 s2 s3) rfl
      (courseB_act 48671 1 true leads1 s0 s1 s2 s3 hr) (fun s _ => courseB_acc 1 true leads1.two s0 s2 s3 s)
    exact ⟨_, cB, worldB s0 true, st, cB_some, by decide +kernel, by decide +kernel, by decide +kernel, by decide +kernel, rfl,
      fun _ => pickB_ok s0 true _ hr.h0 cB, h1, _, by rw [h2]; exact courseB_printed 1 true leads1.two s0 s2 s3⟩

end Ecgen.Seeded
