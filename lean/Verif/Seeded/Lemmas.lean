import Verif.Seeded.Model
import Verif.Whole.Props
import Verif.Nums.Props

/-!
# The search of the seeded methods keeps what it has established
-/

namespace Ecgen.Seeded

open Whole Output Output.Spec Cli Brainpool.Spec

/-- the configurations that are covered -/
structure Covered (c : Config) : Prop where
  algo : c.seedAlgo = .brainpool ∨ c.seedAlgo = .brainpoolRfc ∨ c.seedAlgo = .nums
  method : c.method = METHOD_SEED
  bits : c.seedAlgo ≠ .nums → 1 ≤ c.bits

/-- RFC 5639 -/
def rfc (c : Config) : Bool := c.seedAlgo == .brainpoolRfc

/-- what the field stage establishes of the prime -/
structure FieldKnown (c : Config) (q : Nat) : Prop where
  mod : q % 4 = 3
  size : c.seedAlgo ≠ .nums → 2 ^ (c.bits - 1) ≤ q ∧ q < 2 ^ c.bits
  nums : c.seedAlgo = .nums → q < 2 ^ c.bits ∧ ∀ r : Nat, r.Prime → r % 4 = 3 → r < 2 ^ c.bits → r ≤ q

/-- what the order stage establishes -/
structure OrderKnown (c : Config) (q n : Nat) : Prop where
  prime : n.Prime
  less : c.seedAlgo ≠ .nums → n < q
  twist : c.seedAlgo = .nums → ∃ t : Nat, t.Prime ∧ t + n = 2 * (q + 1)

/-- the curve object with the coefficients `a`, `b` -/
abbrev obj (q : Nat) (hq : q.Prime) (a b : Nat) : Crv := ⟨Fp q hq, .intmod a q, .intmod b q⟩

/-- what the stage of the generators establishes -/
structure GenKnown (c : Config) (x : St) (q : Nat) (hq : q.Prime) (a b : Nat) (g : Group.Pt (obj q hq a b).Pt) : Prop where
  order : g.order = addOrderOf g.point
  cofactor : g.cofactor = Nat.card (obj q hq a b).Pt / g.order
  strong : g.point ≠ 0 → q ≠ g.order ∧ ∀ k, 1 ≤ k → k ≤ (g.order - 1) / 100 → ¬ g.order ∣ q ^ k - 1
  brainpool : c.seedAlgo ≠ .nums → ∃ sd zb, x.cur.seed = some sd ∧ Brainpool.Seed160 sd ((zb + 1) % 2 ^ 160) ∧ Derived (rfc c) c.bits q a b zb ∧
    ∃ i P, Least (obj q hq a b).eqn 0 i P ∧ g.point = coeffInt c.bits (zb + 1) • P
  nums : c.seedAlgo = .nums → (∃ i, Least (obj q hq a b).eqn 1 i g.point) ∧ ∃ u y h, g.point = .some u y h ∧ 2 * num (Fp q hq) y < q

/-- what is known once there are coefficients -/
structure CurveKnown (c : Config) (s : Nat) (x : St) (q : Nat) (hq : q.Prime) (a b : Nat) : Prop where
  derived : s ≤ 6 → c.seedAlgo ≠ .nums → ∃ sd zb, x.cur.seed = some sd ∧ Brainpool.Seed160 sd (zb % 2 ^ 160) ∧ Derived (rfc c) c.bits q a b zb
  minus3 : c.seedAlgo = .nums → (q : Int) ∣ a + 3
  crv : 5 ≤ s → x.cur.crv = some (obj q hq a b) ∧ (obj q hq a b).eqn.Δ ≠ 0
  order : 6 ≤ s → x.cur.order = some (Nat.card (obj q hq a b).Pt) ∧ OrderKnown c q (Nat.card (obj q hq a b).Pt)
  gens : 7 ≤ s → ∃ g ps, x.cur.gens = some ⟨obj q hq a b, [⟨g, ps⟩]⟩ ∧ GenKnown c x q hq a b g ∧ (s = 7 → ps = []) ∧
    (8 ≤ s → g.point ≠ 0 → PointsKnown c [⟨g, ps⟩])

/-- what is known once there is a field -/
structure Known (c : Config) (s : Nat) (x : St) (q : Nat) (hq : q.Prime) : Prop where
  field : x.cur.field = some (Fp q hq)
  prime : FieldKnown c q
  next : s ≤ 3 → c.seedAlgo ≠ .nums → ∃ sd zp, x.cur.seed = some sd ∧ Brainpool.pending ⟨sd, x.upd⟩ (zp + 1) ∧ IsNext (fieldInt c.bits zp) q
  a : 3 ≤ s → c.seedAlgo = .nums → x.cur.a = some (.intmod ((-3 : Int) % ((q : Nat) : Int)).toNat q)
  ab : 4 ≤ s → ∃ a b, x.cur.a = some (.intmod a q) ∧ x.cur.b = some (.intmod b q) ∧ a < q ∧ b < q ∧ CurveKnown c s x q hq a b

/-- what is known of the curve at the beginning of a stage -/
structure Inv (c : Config) (s : Nat) (x : St) : Prop where
  quiet : c.metadata = false → x.cur.info = []
  noseed : c.seedAlgo = .nums → x.cur.seed = none
  seed : 1 ≤ s → c.seedAlgo ≠ .nums → ∃ sd z, x.cur.seed = some sd ∧ Brainpool.Seed160 sd z
  known : 2 ≤ s → ∃ q hq, Known c s x q hq
  info : 9 ≤ s → (∀ i ∈ x.cur.info, i.1 ∈ Parson.metaNames) ∧ (x.cur.info.map (·.1)).Nodup

theorem inv_low {c : Config} {s : Nat} {x : St} (hs : s ≤ 1) (h1 : c.metadata = false → x.cur.info = []) (h2 : c.seedAlgo = .nums → x.cur.seed = none)
    (h3 : s = 1 → c.seedAlgo ≠ .nums → ∃ sd z, x.cur.seed = some sd ∧ Brainpool.Seed160 sd z) : Inv c s x where
  quiet := h1
  noseed := h2
  seed h := h3 (by omega)
  known h := absurd h (by omega)
  info h := absurd h (by omega)

/-- what a failure falls back to -/
theorem Inv.low {c : Config} {s : Nat} {x : St} (h : Inv c s x) (k : Nat) (hk : k ≤ 1) (hs : k ≤ s) : Inv c k x :=
  inv_low hk h.quiet h.noseed fun _ => h.seed (by omega)

/-- the generator of a stage -/
noncomputable def act (P : Pari) (c : Config) (p : Pick) (s : Nat) (x : St) : Option (St × Int) :=
  ((stageOf (exhaustiveSetup c).gens s).bind id).bind (call P c.bits p ((stageOf (exhaustiveSetup c).genArgs s).bind id) x)

/-- the checks of a stage -/
def checksOf (c : Config) (s : Nat) : List Check := (stageOf (exhaustiveSetup c).checks s).getD []

/-! ## The tables -/

/-- the generators of the two families -/
theorem table (c : Config) (h : Covered c) :
    (c.seedAlgo ≠ .nums ∧ (∃ g, (exhaustiveSetup c).gens.seed = some g ∧ g ∈ [Gen.brainpoolSeedArgument, .brainpoolSeedRandom, .brainpoolSeedInput,
        .brainpoolRfcSeedArgument, .brainpoolRfcSeedRandom, .brainpoolRfcSeedInput]) ∧
      (exhaustiveSetup c).gens.field = some .brainpoolField ∧ (exhaustiveSetup c).gens.a = some .skip ∧
      (exhaustiveSetup c).gens.b = some (if rfc c then .brainpoolRfcEquation else .brainpoolEquation) ∧
      (exhaustiveSetup c).gens.order = some .orderPrime ∧ (exhaustiveSetup c).gens.gens = some .brainpoolGens) ∨
    (c.seedAlgo = .nums ∧ (exhaustiveSetup c).gens.seed = some .skip ∧ (exhaustiveSetup c).gens.field = some .numsField ∧
      (exhaustiveSetup c).gens.a = some .numsA ∧ (exhaustiveSetup c).gens.b = some .numsB ∧ (exhaustiveSetup c).gens.order = some .numsOrder ∧
      (exhaustiveSetup c).gens.gens = some .numsGens) := by
  have choice : ∀ a r i : Gen, (seedChoice c a r i).1 = a ∨ (seedChoice c a r i).1 = r ∨ (seedChoice c a r i).1 = i := by
    intro a r i
    unfold seedChoice
    split
    · exact Or.inl rfl
    · split
      · exact Or.inr (Or.inl rfl)
      · exact Or.inr (Or.inr rfl)
  rcases h.algo with h1 | h1 | h1
  · refine Or.inl ⟨by rw [h1]; decide, ⟨(seedChoice c .brainpoolSeedArgument .brainpoolSeedRandom .brainpoolSeedInput).1,
      by simp [exhaustiveSetup, ginit, ginitMethod, h1], ?_⟩, ?_⟩
    · rcases choice .brainpoolSeedArgument .brainpoolSeedRandom .brainpoolSeedInput with e | e | e <;> rw [e] <;> decide
    · simp [exhaustiveSetup, ginit, ginitMethod, h1, rfc]
  · refine Or.inl ⟨by rw [h1]; decide, ⟨(seedChoice c .brainpoolRfcSeedArgument .brainpoolRfcSeedRandom .brainpoolRfcSeedInput).1,
      by simp [exhaustiveSetup, ginit, ginitMethod, h1], ?_⟩, ?_⟩
    · rcases choice .brainpoolRfcSeedArgument .brainpoolRfcSeedRandom .brainpoolRfcSeedInput with e | e | e <;> rw [e] <;> decide
    · simp [exhaustiveSetup, ginit, ginitMethod, h1, rfc]
  · exact Or.inr ⟨h1, by simp [exhaustiveSetup, ginit, ginitMethod, h1]⟩

theorem table_curve (c : Config) (h : Covered c) : (exhaustiveSetup c).gens.curve = some .curveAny := by
  simp [exhaustiveSetup, ginit, h.method, METHOD_TWIST, METHOD_SEED]

/-- the checks of the stages -/
theorem table_checks (c : Config) (h : Covered c) (s : Nat) : checksOf c s =
    if s = 4 then [.curveNonzero] else if s = 5 ∧ c.seedAlgo ≠ .nums then [.brainpoolOrder] else
      if s = 6 then [.gensAnomalous, .brainpoolGens] else if s = 7 ∧ c.hexCheck.isSome then [.hexParam] else [] := by
  have hc : (exhaustiveSetup c).checks =
      { Table.const [] with
        curve := [.curveNonzero], points := if c.hexCheck.isSome then [.hexParam] else []
        order := if c.seedAlgo ≠ .nums then [.brainpoolOrder] else [], gens := [.gensAnomalous, .brainpoolGens] } := by
    rcases h.algo with h1 | h1 | h1 <;> simp [exhaustiveSetup, cinit, h1, h.method, Table.const]
  unfold checksOf
  rw [hc]
  match s with
  | 0 | 1 | 2 | 3 | 4 | 5 | 6 | 7 | 8 => simp [stageOf, Table.const]
  | n + 9 => simp [stageOf]

/-! ## Numbers -/

theorem AOk_mod (p n : Nat) (h : AOk p n) : AOk p (n % p) := by
  obtain ⟨z, hz⟩ := h
  refine ⟨z, ?_⟩
  have e : ((n % p : Nat) : Int) ≡ n [ZMOD p] := by push_cast; exact Int.mod_modEq _ _
  exact (Int.ModEq.mul_right _ e).trans hz

theorem Square_mod (p n : Nat) : Square p (n % p) ↔ Square p n := by
  have e : ((n % p : Nat) : Int) ≡ n [ZMOD p] := by push_cast; exact Int.mod_modEq _ _
  constructor
  · rintro ⟨y, hy⟩; exact ⟨y, hy.trans e⟩
  · rintro ⟨y, hy⟩; exact ⟨y, hy.trans e.symm⟩

theorem toNat_mod (n p : Nat) : ((n : Int) % (p : Int)).toNat = n % p := by
  rw [← Int.natCast_mod, Int.toNat_natCast]

theorem isprimeI_spec (P : Pari) (hP : P.Ok) : IsPrimeSpec P.isprimeI := by
  intro p
  unfold Pari.isprimeI
  rw [Bool.and_eq_true, decide_eq_true_iff, hP.isprime]
  refine and_congr_right fun h => ?_
  rw [show p.toNat = p.natAbs by omega]

theorem isprimeI_nums (P : Pari) (hP : P.Ok) : Nums.IsPrimeSpec P.isprimeI := by
  intro p
  rw [isprimeI_spec P hP p]
  constructor
  · rintro ⟨h1, h2⟩; exact ⟨p.natAbs, h2, by omega⟩
  · rintro ⟨n, h1, rfl⟩; exact ⟨by have := h1.pos; omega, by simpa using h1⟩

/-- a finished equation has the flag set -/
theorem equation_upd (junk : Bits.Byte) (p : Nat) (P : FpOps) (L fuel : Nat) (s s' : Brainpool.St) (ab : Int × Int)
    (h : Brainpool.genEquation junk p P L fuel s = some (some (ab, s'))) : s'.upd = true := by
  obtain ⟨k, t, -, -, -, hd⟩ := loopN_done h
  unfold Brainpool.equationStep at hd
  simp only [Option.bind_eq_some_iff] at hd
  obtain ⟨sd, -, a, -, hd⟩ := hd
  split at hd
  · simp at hd
  · split at hd
    · simp at hd
    · simp only [Option.bind_eq_some_iff] at hd
      obtain ⟨sd', -, b, -, hd⟩ := hd
      split at hd
      · simp at hd
      · split at hd
        · simp at hd
        · simp only [Option.some.injEq, Step.done.injEq, Prod.mk.injEq] at hd
          rw [← hd.2]

theorem equation_rfc_upd (junk : Bits.Byte) (p : Nat) (P : FpOps) (L fuel : Nat) (s s' : Brainpool.St) (ab : Int × Int)
    (h : Brainpool.genEquationRfc junk p P L fuel s = some (some (ab, s'))) : s'.upd = true := by
  obtain ⟨k, t, -, -, -, hd⟩ := loopN_done h
  unfold Brainpool.rfcStep at hd
  split at hd
  · simp only [Option.bind_eq_some_iff] at hd
    obtain ⟨sd, -, a, -, hd⟩ := hd
    split at hd
    · simp at hd
    · split at hd <;> simp at hd
  · simp only [Option.bind_eq_some_iff] at hd
    obtain ⟨sd', -, b, -, hd⟩ := hd
    split at hd
    · simp at hd
    · split at hd
      · simp at hd
      · simp only [Option.some.injEq, Step.done.injEq, Prod.mk.injEq] at hd
        rw [← hd.2]

/-- the search for the least first coordinate -/
theorem firstX_spec (P : Pari) (hP : P.Ok) (E : Crv) (hd : E.eqn.Δ ≠ 0) (x0 i : Nat) (h : firstX P E x0 = some i) :
    x0 ≤ i ∧ ∀ j, x0 ≤ j → j < i → ¬ Abscissa E.eqn j := by
  unfold firstX at h
  rw [List.find?_eq_some_iff_getElem] at h
  obtain ⟨-, k, hk, e, hb⟩ := h
  rw [List.getElem_map, List.getElem_range] at e
  refine ⟨by omega, fun j h1 h2 => ?_⟩
  have := hb (j - x0) (by omega)
  rw [List.getElem_map, List.getElem_range, show x0 + (j - x0) = j by omega] at this
  simp only [Bool.not_not, List.isEmpty_iff] at this
  rintro ⟨y, hy⟩
  rw [← (hP.ordinate E j hd).2, this] at hy
  cases hy

theorem least_mk (P : Pari) (hP : P.Ok) (E : Crv) (hd : E.eqn.Δ ≠ 0) (x0 i : Nat) (h : firstX P E x0 = some i) (y : Carrier E.field)
    (hy : y ∈ P.ordinate E i) : ∃ hn : E.eqn.Nonsingular (elem E.field i) y, mkPoint E i y = .some _ _ hn ∧ Least E.eqn x0 i (mkPoint E i y) := by
  obtain ⟨h1, h2⟩ := firstX_spec P hP E hd x0 i h
  have hn := ((hP.ordinate E i hd).2 y).1 hy
  have e : mkPoint E i y = .some _ _ hn := by unfold mkPoint; rw [dif_pos hn]
  exact ⟨hn, e, h1, ⟨y, hn, e⟩, h2⟩

/-! ## The stages -/

theorem step_seed (P : Pari) (c : Config) (h : Covered c) (p : Pick) (hp : p.Ok c) (x : St) (hi : Inv c 0 x) (x' : St) (d : Int)
    (ha : act P c p 0 x = some (x', d)) : d = 1 ∧ Inv c 1 x' := by
  rcases table c h with ⟨h1, ⟨g, h2, h3⟩, -⟩ | ⟨h1, h2, -⟩
  · have : act P c p 0 x = some ({ x with cur := { x.cur with seed := some p.seed }, upd := false }, 1) := by
      simp only [List.mem_cons, List.not_mem_nil, or_false] at h3
      rcases h3 with rfl | rfl | rfl | rfl | rfl | rfl <;> simp only [act, stageOf, h2, Option.bind_some, id, call]
    rw [this] at ha
    cases ha
    obtain ⟨z, hz⟩ := hp.seed
    exact ⟨rfl, inv_low (by decide) hi.quiet (fun h => absurd h h1) fun _ _ => ⟨_, z, rfl, hz⟩⟩
  · have : act P c p 0 x = some (x, 1) := by simp only [act, stageOf, h2, Option.bind_some, id, call, Whole.call, Option.map_some]
    rw [this] at ha
    cases ha
    exact ⟨rfl, inv_low (by decide) hi.quiet hi.noseed fun _ h => absurd h1 h⟩

theorem step_field (P : Pari) (hP : P.Ok) (c : Config) (h : Covered c) (p : Pick) (x : St) (hi : Inv c 1 x) (x' : St) (d : Int)
    (ha : act P c p 1 x = some (x', d)) : (d = 1 ∧ Inv c 2 x') ∨ d = Engine.INT_MIN := by
  have hip := isprimeI_spec P hP
  rcases table c h with ⟨h1, -, h2, -⟩ | ⟨h1, -, h2, -⟩
  · obtain ⟨sd, z, e1, e2⟩ := hi.seed (by omega) h1
    simp only [act, stageOf, h2, Option.bind_some, id, call, e1] at ha
    rcases Brainpool.field_spec p.junk P.nextprime P.isprimeI hP.nextprime hip c.bits (h.bits h1) ⟨sd, x.upd⟩ _ ⟨z, e2, rfl⟩ p.fuel with
      h3 | ⟨q, k, s', h3, h4, h5, h6, h7, -⟩
    · rw [h3] at ha
      cases ha
      exact Or.inr rfl
    · rw [h3] at ha
      have hq : q.Prime := h4.1
      simp only [brainpoolField, Int.toNat_natCast, dif_pos hq, Option.some.injEq, Prod.mk.injEq] at ha
      obtain ⟨rfl, rfl⟩ := ha
      refine Or.inl ⟨rfl, ?_⟩
      obtain ⟨z', hz', hz''⟩ := h7
      exact
        { quiet := hi.quiet
          noseed := fun h => absurd h h1
          seed := fun _ _ => ⟨_, z', rfl, hz'⟩
          known := fun _ => ⟨q, hq,
            { field := rfl
              prime := ⟨h4.2.1, fun _ => ⟨h5, h6⟩, fun h => absurd h h1⟩
              next := fun _ _ => ⟨_, _, rfl, ⟨z', hz', hz''⟩, h4⟩
              a := fun h => absurd h (by omega)
              ab := fun h => absurd h (by omega) }⟩
          info := fun h => absurd h (by omega) }
  · have hip := isprimeI_nums P hP
    simp only [act, stageOf, h2, Option.bind_some, id, call] at ha
    cases hg : Nums.genField P.isprimeI c.bits p.fuel with
    | none => rw [hg] at ha; cases ha; exact Or.inr rfl
    | some qi =>
      have hb : 2 ≤ c.bits := by
        by_contra hb
        rw [Nums.field_diverges P.isprimeI hip c.bits (by omega)] at hg
        cases hg
      obtain ⟨q, rfl, hq, h3, h4, h5⟩ := (Nums.field_spec P.isprimeI hip c.bits hb).2 _ _ hg
      simp only [hg, Int.toNat_natCast, dif_pos hq, Option.some.injEq, Prod.mk.injEq] at ha
      obtain ⟨rfl, rfl⟩ := ha
      exact Or.inl ⟨rfl,
        { quiet := hi.quiet
          noseed := hi.noseed
          seed := fun _ h => absurd h1 h
          known := fun _ => ⟨q, hq,
            { field := rfl
              prime := ⟨h3, fun h => absurd h1 h, fun _ => ⟨h4, h5⟩⟩
              next := fun _ h => absurd h1 h
              a := fun h => absurd h (by omega)
              ab := fun h => absurd h (by omega) }⟩
          info := fun h => absurd h (by omega) }⟩

theorem primeOf_known {x : St} {q : Nat} {hq : q.Prime} (h : x.cur.field = some (Fp q hq)) : primeOf x = some q := by
  unfold primeOf
  rw [h]

theorem step_a (P : Pari) (c : Config) (h : Covered c) (p : Pick) (x : St) (hi : Inv c 2 x) (x' : St) (d : Int)
    (ha : act P c p 2 x = some (x', d)) : d = 1 ∧ Inv c 3 x' := by
  obtain ⟨q, hq, hk⟩ := hi.known (by omega)
  rcases table c h with ⟨h1, -, -, h2, -⟩ | ⟨h1, -, -, h2, -⟩
  · have : act P c p 2 x = some (x, 1) := by simp only [act, stageOf, h2, Option.bind_some, id, call, Whole.call, Option.map_some]
    rw [this] at ha
    cases ha
    exact ⟨rfl,
      { quiet := hi.quiet
        noseed := hi.noseed
        seed := fun _ => hi.seed (by omega)
        known := fun _ => ⟨q, hq,
          { field := hk.field
            prime := hk.prime
            next := fun _ => hk.next (by omega)
            a := fun _ h => absurd h h1
            ab := fun h => absurd h (by omega) }⟩
        info := fun h => absurd h (by omega) }⟩
  · simp only [act, stageOf, h2, Option.bind_some, id, call, primeOf_known hk.field, Option.map_some, Option.some.injEq, Prod.mk.injEq] at ha
    obtain ⟨rfl, rfl⟩ := ha
    exact ⟨rfl,
      { quiet := hi.quiet
        noseed := hi.noseed
        seed := fun _ h => absurd h1 h
        known := fun _ => ⟨q, hq,
          { field := hk.field
            prime := hk.prime
            next := fun _ h => absurd h1 h
            a := fun _ _ => rfl
            ab := fun h => absurd h (by omega) }⟩
        info := fun h => absurd h (by omega) }⟩

/-- the members of `numsB` but for the coefficient -/
theorem numsB_spec (q : Nat) (hq : 0 < q) (x : St) : (numsB q x).upd = x.upd ∧ ∃ b, b < q ∧ (numsB q x).cur = { x.cur with b := some (.intmod b q) } := by
  unfold numsB
  simp only
  split
  · exact ⟨rfl, 1 % q, Nat.mod_lt _ hq, rfl⟩
  · split
    · exact ⟨rfl, _, Nat.mod_lt _ hq, rfl⟩
    · exact ⟨rfl, 1 % q, Nat.mod_lt _ hq, rfl⟩

theorem odd_prime {c : Config} {q : Nat} (h : FieldKnown c q) : 2 < q := by have := h.mod; omega

/-- a seed after which the flag is to be honoured -/
theorem seed_flag {s : Brainpool.St} {n : Nat} (h : Brainpool.pending s (n + 1)) (hu : s.upd = true) : Brainpool.Seed160 s.seed (n % 2 ^ 160) := by
  obtain ⟨z, h1, h2⟩ := h
  have := h1.lt
  rw [hu] at h2
  refine Brainpool.seed_congr h1 ?_
  simp only [Bool.toNat_true] at h2
  omega

theorem step_b (P : Pari) (hP : P.Ok) (c : Config) (h : Covered c) (p : Pick) (x : St) (hi : Inv c 3 x) (x' : St) (d : Int)
    (ha : act P c p 3 x = some (x', d)) : (d = 1 ∧ Inv c 4 x') ∨ d = Engine.INT_MIN := by
  obtain ⟨q, hq, hk⟩ := hi.known (by omega)
  have hq2 := odd_prime hk.prime
  rcases table c h with ⟨h1, -, -, -, h2, -⟩ | ⟨h1, -, -, -, h2, -⟩
  · obtain ⟨sd, zp, e1, e2, e3⟩ := hk.next (by omega) h1
    have key : ∀ (k j : Nat) (s' : Brainpool.St), Brainpool.pending s' (zp + 1 + (k + j) + 1) → s'.upd = true → 0 < j →
        AOk q (coeffInt c.bits (zp + 1 + k)) → (rfc c = false → j = 1 ∧ Square q (coeffInt c.bits (zp + 1 + (k + j)))) →
        (rfc c = true → (∀ i, 0 < i → i < j → Square q (coeffInt c.bits (zp + 1 + (k + i)))) ∧ ¬ Square q (coeffInt c.bits (zp + 1 + (k + j)))) →
        ∀ y, brainpoolEquation q x (some (some (((coeffInt c.bits (zp + 1 + k) : Int) % q, (coeffInt c.bits (zp + 1 + (k + j)) : Int) % q), s'))) = some y →
          (y.2 = 1 ∧ Inv c 4 y.1) := by
      intro k j s' hs' hu hj hA h5 h6 y hy
      simp only [brainpoolEquation, Option.some.injEq, toNat_mod] at hy
      subst hy
      have hsd := seed_flag hs' hu
      refine ⟨rfl,
        { quiet := hi.quiet
          noseed := fun h => absurd h h1
          seed := fun _ _ => ⟨_, _, rfl, hsd⟩
          known := fun _ => ⟨q, hq,
            { field := hk.field
              prime := hk.prime
              next := fun h => absurd h (by omega)
              a := fun _ h => absurd h h1
              ab := fun _ => ⟨_, _, rfl, rfl, Nat.mod_lt _ hq.pos, Nat.mod_lt _ hq.pos,
                { derived := fun _ _ => ⟨_, _, rfl, hsd, zp, zp + 1 + k, j, by omega, hj, by omega, e3, rfl, rfl, AOk_mod _ _ hA,
                    fun h => ⟨(h5 h).1, (Square_mod _ _).2 (h5 h).2⟩, fun h => ⟨fun i i1 i2 => ?_, fun hs => (h6 h).2 ((Square_mod _ _).1 hs)⟩⟩
                  minus3 := fun h => absurd h h1
                  crv := fun h => absurd h (by omega)
                  order := fun h => absurd h (by omega)
                  gens := fun h => absurd h (by omega) }⟩ }⟩
          info := fun h => absurd h (by omega) }⟩
      rw [show zp + 1 + k + i = zp + 1 + (k + i) by omega]
      exact (h6 h).1 i i1 i2
    cases hr : rfc c with
    | false =>
      rw [hr] at h2
      simp only [act, stageOf, h2, Option.bind_some, id, Bool.false_eq_true, if_false, call, e1, primeOf_known hk.field] at ha
      rcases Brainpool.equation_spec p.junk q hq hq2 (P.fp q) (hP.fp q hq) c.bits ⟨sd, x.upd⟩ _ e2 p.fuel with h3 | ⟨k, s', h3, h4, h5, -, h6, -⟩
      · rw [h3] at ha
        cases ha
        exact Or.inr rfl
      · rw [h3] at ha
        exact Or.inl (key k 1 s' h6 (equation_upd _ _ _ _ _ _ _ _ h3) (by omega) h4 (fun _ => ⟨rfl, h5⟩) (fun h => by rw [hr] at h; cases h) _ ha)
    | true =>
      rw [hr] at h2
      simp only [act, stageOf, h2, Option.bind_some, id, if_true, call, e1, primeOf_known hk.field] at ha
      rcases Brainpool.equation_rfc_spec p.junk q hq hq2 (P.fp q) (hP.fp q hq) c.bits ⟨sd, x.upd⟩ _ e2 p.fuel with
        h3 | ⟨k, j, s', h3, h4, h5, h6, h7, -, h8, -⟩
      · rw [h3] at ha
        cases ha
        exact Or.inr rfl
      · rw [h3] at ha
        exact Or.inl (key k j s' h8 (equation_rfc_upd _ _ _ _ _ _ _ _ h3) h4 h5 (fun h => by rw [hr] at h; cases h) (fun _ => ⟨h6, h7⟩) _ ha)
  · simp only [act, stageOf, h2, Option.bind_some, id, call, primeOf_known hk.field, Option.map_some, Option.some.injEq, Prod.mk.injEq] at ha
    obtain ⟨rfl, rfl⟩ := ha
    obtain ⟨-, b, hb, e⟩ := numsB_spec q hq.pos x
    have h3 := hk.a (by omega) h1
    refine Or.inl ⟨rfl,
      { quiet := by rw [e]; exact hi.quiet
        noseed := by rw [e]; exact hi.noseed
        seed := fun _ h => absurd h1 h
        known := fun _ => ⟨q, hq,
          { field := by rw [e]; exact hk.field
            prime := hk.prime
            next := fun h => absurd h (by omega)
            a := fun _ _ => by rw [e]; exact h3
            ab := fun _ => ⟨_, b, by rw [e]; exact h3, by rw [e], ?_, hb,
              { derived := fun _ h => absurd h1 h
                minus3 := fun _ => ?_
                crv := fun h => absurd h (by omega)
                order := fun h => absurd h (by omega)
                gens := fun h => absurd h (by omega) }⟩ }⟩
        info := fun h => absurd h (by omega) }⟩
    · have h0 := Int.emod_nonneg (-3 : Int) (b := (q : Int)) (by omega)
      have h1 := Int.emod_lt_of_pos (-3 : Int) (b := (q : Int)) (by omega)
      omega
    · have h0 := Int.emod_nonneg (-3 : Int) (b := (q : Int)) (by omega)
      rw [Int.toNat_of_nonneg h0]
      have := Int.emod_add_mul_ediv (-3 : Int) (q : Int)
      exact ⟨-((-3 : Int) / q), by linarith⟩

theorem inv_of {c : Config} {s : Nat} {x : St} {q : Nat} {hq : q.Prime} {a b : Nat} (h4 : 4 ≤ s) (h1 : c.metadata = false → x.cur.info = [])
    (h2 : c.seedAlgo = .nums → x.cur.seed = none) (h3 : c.seedAlgo ≠ .nums → ∃ sd z, x.cur.seed = some sd ∧ Brainpool.Seed160 sd z)
    (h5 : x.cur.field = some (Fp q hq)) (h6 : FieldKnown c q)
    (h7 : c.seedAlgo = .nums → x.cur.a = some (.intmod ((-3 : Int) % ((q : Nat) : Int)).toNat q)) (h8 : x.cur.a = some (.intmod a q))
    (h9 : x.cur.b = some (.intmod b q)) (ha : a < q) (hb : b < q) (hc : CurveKnown c s x q hq a b)
    (h10 : 9 ≤ s → (∀ i ∈ x.cur.info, i.1 ∈ Parson.metaNames) ∧ (x.cur.info.map (·.1)).Nodup) : Inv c s x where
  quiet := h1
  noseed := h2
  seed _ := h3
  known _ := ⟨q, hq, ⟨h5, h6, fun h => absurd h (by omega), fun _ => h7, fun _ => ⟨a, b, h8, h9, ha, hb, hc⟩⟩⟩
  info := h10

/-- every check that does not ask for hex digits accepts -/
def Accepts (P : Pari) (c : Config) (s : Nat) (x : St) : Prop := ∀ k ∈ checksOf c s, k ≠ .hexParam → ∃ v, verdict P x k = some v ∧ 0 < v

/-- what a call of a generator may come to: the next stage, if the checks accept; a failure that falls back to an earlier one -/
def Goes (P : Pari) (c : Config) (s : Nat) (x' : St) (d : Int) : Prop :=
  (d = 1 ∧ Inv c 1 x' ∧ (Accepts P c s x' → Inv c (s + 1) x')) ∨
  (d ≤ 0 ∧ (0 ≤ (s : Int) + d → ∃ k : Nat, (k ≤ 1 ∨ k = 3) ∧ (s : Int) + d = k ∧ Inv c k x'))

theorem goes_min (P : Pari) (c : Config) (s : Nat) (hs : s < 9) (x' : St) : Goes P c s x' Engine.INT_MIN :=
  Or.inr ⟨by decide, fun h => absurd h (by simp only [Engine.INT_MIN]; omega)⟩

theorem step_curve (P : Pari) (c : Config) (h : Covered c) (p : Pick) (x : St) (hi : Inv c 4 x) (x' : St) (d : Int)
    (ha : act P c p 4 x = some (x', d)) : Goes P c 4 x' d := by
  obtain ⟨q, hq, hk⟩ := hi.known (by omega)
  obtain ⟨a, b, e1, e2, e3, e4, hc⟩ := hk.ab (by omega)
  have e : act P c p 4 x = some ({ x with cur := { x.cur with crv := some (obj q hq a b) } }, 1) := by
    simp only [act, stageOf, table_curve c h, Option.bind_some, id, call, Whole.call, hk.field, e1, e2, Option.map_some]
  rw [e] at ha
  cases ha
  refine Or.inl ⟨rfl, inv_low (by omega) hi.quiet hi.noseed fun _ => hi.seed (by omega), fun hacc => ?_⟩
  obtain ⟨v, hv, h0⟩ := hacc .curveNonzero (by rw [table_checks c h]; simp) (by decide)
  simp only [verdict, Option.map_some, Option.some.injEq] at hv
  have hd : (obj q hq a b).eqn.Δ ≠ 0 := by
    intro hd
    rw [if_pos hd] at hv
    omega
  refine inv_of (by omega) hi.quiet hi.noseed (hi.seed (by omega)) hk.field hk.prime (hk.a (by omega)) e1 e2 e3 e4 ?_ (fun h => by omega)
  exact
    { derived := fun _ => hc.derived (by omega)
      minus3 := hc.minus3
      crv := fun _ => ⟨rfl, hd⟩
      order := fun h => absurd h (by omega)
      gens := fun h => absurd h (by omega) }

theorem step_order (P : Pari) (hP : P.Ok) (c : Config) (h : Covered c) (p : Pick) (hp : p.Ok c) (x : St) (hi : Inv c 5 x) (x' : St) (d : Int)
    (ha : act P c p 5 x = some (x', d)) : Goes P c 5 x' d := by
  obtain ⟨q, hq, hk⟩ := hi.known (by omega)
  obtain ⟨a, b, e1, e2, e3, e4, hc⟩ := hk.ab (by omega)
  obtain ⟨e5, hd⟩ := hc.crv (by omega)
  have hsea := hp.sea _ hd
  have key : OrderKnown c q (Nat.card (obj q hq a b).Pt) → Inv c 6 { x with cur := { x.cur with order := some (Nat.card (obj q hq a b).Pt) } } := fun ho =>
    inv_of (by omega) hi.quiet hi.noseed (hi.seed (by omega)) hk.field hk.prime (hk.a (by omega)) e1 e2 e3 e4
      { derived := fun _ => hc.derived (by omega)
        minus3 := hc.minus3
        crv := fun _ => ⟨e5, hd⟩
        order := fun _ => ⟨rfl, ho⟩
        gens := fun h => absurd h (by omega) } (fun h => by omega)
  rcases table c h with ⟨h1, -, -, -, -, h2, -⟩ | ⟨h1, -, -, -, -, h2, -⟩
  · obtain ⟨g1, g2⟩ := Order.prime_filter P.isprime hP.isprime _ _ hsea
    simp only [act, stageOf, h2, Option.bind_some, id, call, Whole.call, e5, orderStage, Option.map_some, Option.some.injEq, Prod.mk.injEq] at ha
    obtain ⟨rfl, rfl⟩ := ha
    cases hg : Order.genPrime P.isprime (p.sea (obj q hq a b)) with
    | none => exact Or.inr ⟨by change (-4 : Int) ≤ 0; decide, fun _ => ⟨1, by omega, by change (5 : Int) + -4 = 1; decide, hi.low 1 (by omega) (by omega)⟩⟩
    | some m =>
      cases g1 m hg
      refine Or.inl ⟨rfl, inv_low (by omega) hi.quiet hi.noseed fun _ => hi.seed (by omega), fun hacc => ?_⟩
      obtain ⟨v, hv, h0⟩ := hacc .brainpoolOrder (by rw [table_checks c h]; simp [h1]) (by decide)
      have hpo := primeOf_known (x := { x with cur := { x.cur with order := some (Nat.card (obj q hq a b).Pt) } }) hk.field
      simp only [filtered, verdict, hpo, Option.some.injEq] at hv
      refine key ⟨g2.1 (by rw [hg]; rfl), fun _ => ?_, fun h => absurd h h1⟩
      rw [← Order.brainpool_order]
      by_contra hn
      rw [if_neg hn] at hv
      omega
  · simp only [act, stageOf, h2, Option.bind_some, id, call, primeOf_known hk.field, e5, Option.map_some, Option.some.injEq] at ha
    unfold numsOrder at ha
    simp only at ha
    by_cases hb : p.sea (obj q hq a b) = 0 ∨ (!P.isprime (p.sea (obj q hq a b))) = true ∨
        (!P.isprimeI (p.sea (obj q hq a b) + (((q : Int) + 1) - p.sea (obj q hq a b)) * 2)) = true
    · rw [if_pos hb] at ha
      cases ha
      refine Or.inr ⟨by decide, fun _ => ⟨3, by omega, by decide, ?_⟩⟩
      exact ⟨hi.quiet, hi.noseed, fun _ => hi.seed (by omega), fun _ => ⟨q, hq, hk.field, hk.prime, fun _ h => absurd h1 h, fun _ => hk.a (by omega),
        fun h => absurd h (by omega)⟩, fun h => absurd h (by omega)⟩
    · rw [if_neg hb] at ha
      cases ha
      simp only [not_or, Bool.not_eq_true', Bool.not_eq_false] at hb
      obtain ⟨b1, b2, b3⟩ := hb
      have hn : p.sea (obj q hq a b) = Nat.card (obj q hq a b).Pt := by
        rcases hsea with h | h
        · exact h
        · exact absurd h.1 b1
      rw [hn] at b2 b3 ⊢
      refine Or.inl ⟨rfl, inv_low (by omega) hi.quiet hi.noseed fun _ => hi.seed (by omega), fun _ => ?_⟩
      refine key ⟨(hP.isprime _).1 b2, fun h => absurd h1 h, fun _ => ?_⟩
      obtain ⟨t, ht, e⟩ := (isprimeI_nums P hP _).1 b3
      exact ⟨t, ht, by omega⟩

/-- the checks of the generators -/
theorem gens_strong (P : Pari) (hP : P.Ok) (c : Config) (h : Covered c) (x : St) (q : Nat) (hq : q.Prime) (a b : Nat) (hf : x.cur.field = some (Fp q hq))
    (g : Group.Pt (obj q hq a b).Pt) (hg : x.cur.gens = some ⟨obj q hq a b, [⟨g, []⟩]⟩) (hn : (Nat.card (obj q hq a b).Pt).Prime)
    (ho : g.order = addOrderOf g.point) (hacc : Accepts P c 6 x) (h0 : g.point ≠ 0) :
    q ≠ g.order ∧ ∀ k, 1 ≤ k → k ≤ (g.order - 1) / 100 → ¬ g.order ∣ q ^ k - 1 := by
  have hpr : g.order.Prime := by
    rw [ho]
    rcases (Nat.dvd_prime hn).1 (addOrderOf_dvd_natCard g.point) with h1 | h1
    · exact absurd (AddMonoid.addOrderOf_eq_one_iff.1 h1) h0
    · rw [h1]; exact hn
  obtain ⟨v, hv, v0⟩ := hacc .gensAnomalous (by rw [table_checks c h]; simp) (by decide)
  obtain ⟨u, hu, u0⟩ := hacc .brainpoolGens (by rw [table_checks c h]; simp) (by decide)
  simp only [verdict, primeOf_known hf, hg, Option.some.injEq, List.map_cons, List.map_nil] at hv hu
  refine (Order.gens_checks_prime P.zn hP.zn q g.order hq hpr).1 ⟨?_, ?_⟩
  · by_contra hb
    rw [if_neg hb] at hv
    omega
  · by_contra hb
    rw [if_neg hb] at hu
    omega

/-- of the two second coordinates the smaller one is below half of the prime -/
theorem smaller (q : Nat) (hq : q.Prime) (a b i : Nat) (y y' : Carrier (Fp q hq)) (h1 : (obj q hq a b).eqn.Equation (elem (Fp q hq) i) y)
    (h2 : (obj q hq a b).eqn.Equation (elem (Fp q hq) i) y') (hne : y ≠ y') :
    2 * num (Fp q hq) (if num (Fp q hq) y < num (Fp q hq) y' then y else y') < q := by
  rw [WeierstrassCurve.Affine.equation_iff] at h1 h2
  simp only [equation, zero_mul, add_zero] at h1 h2
  have h0 : (y - y') * (y + y') = 0 := by
    have : y ^ 2 = y' ^ 2 := h1.trans h2.symm
    linear_combination this
  have hs : y + y' = 0 := by
    rcases mul_eq_zero.1 h0 with h | h
    · exact absurd (sub_eq_zero.1 h) hne
    · exact h
  have hdv : q ∣ num (Fp q hq) y + num (Fp q hq) y' := by
    have e1 : ((num (Fp q hq) y : Nat) : ZMod q) = y := elem_num (Fp q hq) y
    have e2 : ((num (Fp q hq) y' : Nat) : ZMod q) = y' := elem_num (Fp q hq) y'
    have : ((num (Fp q hq) y + num (Fp q hq) y' : Nat) : ZMod q) = 0 := by
      rw [Nat.cast_add, e1, e2]; exact hs
    rwa [ZMod.natCast_eq_zero_iff] at this
  have l1 : num (Fp q hq) y < q := num_lt (Fp q hq) y
  have l2 : num (Fp q hq) y' < q := num_lt (Fp q hq) y'
  have hn : num (Fp q hq) y ≠ num (Fp q hq) y' := by
    intro h
    apply hne
    rw [← elem_num (Fp q hq) y, ← elem_num (Fp q hq) y', h]
  have hsum : num (Fp q hq) y + num (Fp q hq) y' = q := by
    obtain ⟨k, hk⟩ := hdv
    have hk2 : k < 2 := by
      by_contra hc
      have : q * 2 ≤ q * k := Nat.mul_le_mul_left _ (by omega)
      omega
    rcases Nat.lt_or_ge k 1 with h | h
    · have : k = 0 := by omega
      subst this
      omega
    · have : k = 1 := by omega
      subst this
      omega
  split <;> omega

theorem step_gens (P : Pari) (hP : P.Ok) (c : Config) (h : Covered c) (p : Pick) (x : St) (hi : Inv c 6 x) (x' : St) (d : Int)
    (ha : act P c p 6 x = some (x', d)) : Goes P c 6 x' d := by
  obtain ⟨q, hq, hk⟩ := hi.known (by omega)
  obtain ⟨a, b, e1, e2, e3, e4, hc⟩ := hk.ab (by omega)
  obtain ⟨e5, hd⟩ := hc.crv (by omega)
  obtain ⟨e6, hn⟩ := hc.order (by omega)
  rcases table c h with ⟨h1, -, -, -, -, -, h2⟩ | ⟨h1, -, -, -, -, -, h2⟩
  · obtain ⟨sd, zb, s1, s2, s3⟩ := hc.derived (by omega) h1
    obtain ⟨sd', u1, u2⟩ := Brainpool.updateSeed_spec p.junk s2
    rw [Nat.mod_add_mod] at u2
    have e : act P c p 6 x = brainpoolGens P c.bits p x (obj q hq a b) (Nat.card (obj q hq a b).Pt) sd := by
      simp only [act, stageOf, h2, Option.bind_some, id, call, s1, e5, e6]
    rw [e] at ha
    unfold brainpoolGens at ha
    rw [u1, Option.bind_some, Brainpool.hashI_spec p.junk u2 _ _ (Brainpool.wOf_le c.bits).2, Option.bind_some, Brainpool.coeffInt_eq,
      Brainpool.coeffInt_mod, Int.toNat_natCast] at ha
    have key : ∀ i y, firstX P (obj q hq a b) 0 = some i → y ∈ P.ordinate (obj q hq a b) i →
        Goes P c 6 (single P { x with cur := { x.cur with seed := some sd' } } (obj q hq a b) (Nat.card (obj q hq a b).Pt)
          (coeffInt c.bits (zb + 1) • mkPoint (obj q hq a b) i y)) 1 := by
      intro i y hf hy
      obtain ⟨hns, m1, m2⟩ := least_mk P hP (obj q hq a b) hd 0 i hf y hy
      refine Or.inl ⟨rfl, inv_low (by omega) hi.quiet (fun h => absurd h h1) fun _ _ => ⟨_, _, rfl, u2⟩, fun hacc => ?_⟩
      have hst := gens_strong P hP c h (single P { x with cur := { x.cur with seed := some sd' } } (obj q hq a b) (Nat.card (obj q hq a b).Pt)
          (coeffInt c.bits (zb + 1) • mkPoint (obj q hq a b) i y)) q hq a b hk.field _ rfl hn.prime (hP.ord _ _) hacc
      exact inv_of (by omega) hi.quiet (fun h => absurd h h1) (fun _ => ⟨_, _, rfl, u2⟩) hk.field hk.prime (fun h => absurd h h1) e1 e2 e3 e4
        { derived := fun h => absurd h (by omega)
          minus3 := fun h => absurd h h1
          crv := fun _ => ⟨e5, hd⟩
          order := fun _ => ⟨e6, hn⟩
          gens := fun _ => ⟨_, [], rfl,
            { order := hP.ord _ _
              cofactor := rfl
              strong := hst
              brainpool := fun _ => ⟨sd', zb, rfl, u2, s3, i, _, m2, rfl⟩
              nums := fun h => absurd h h1 }, fun _ => rfl, fun h => absurd h (by omega)⟩ } (fun h => by omega)
    cases hf : firstX P (obj q hq a b) 0 with
    | none => simp only [hf] at ha; cases ha; exact goes_min P c 6 (by omega) _
    | some i =>
      simp only [hf] at ha
      cases ho : P.ordinate (obj q hq a b) i with
      | nil => simp only [ho] at ha; cases ha; exact goes_min P c 6 (by omega) _
      | cons y l =>
        cases l with
        | nil => simp only [ho] at ha; cases ha; exact key i y hf (by rw [ho]; simp)
        | cons y' l =>
          cases l with
          | nil =>
            simp only [ho] at ha
            cases ha
            exact key i (if p.bit then y else y') hf (by rw [ho]; split <;> simp)
          | cons _ _ => simp only [ho] at ha; cases ha; exact goes_min P c 6 (by omega) _
  · simp only [act, stageOf, h2, Option.bind_some, id, call, e5, e6, numsGens] at ha
    cases hf : firstX P (obj q hq a b) 1 with
    | none => simp only [hf] at ha; cases ha; exact goes_min P c 6 (by omega) _
    | some i =>
      simp only [hf] at ha
      cases ho : P.ordinate (obj q hq a b) i with
      | nil => simp only [ho] at ha; cases ha
      | cons y l =>
        cases l with
        | nil => simp only [ho] at ha; cases ha
        | cons y' l =>
          simp only [ho] at ha
          cases ha
          obtain ⟨n1, n2⟩ := hP.ordinate (obj q hq a b) i hd
          obtain ⟨hy, -, -⟩ := least_mk P hP (obj q hq a b) hd 1 i hf y (by rw [ho]; simp)
          obtain ⟨hy', -, -⟩ := least_mk P hP (obj q hq a b) hd 1 i hf y' (by rw [ho]; simp)
          have hne : y ≠ y' := by
            intro h
            rw [ho, h] at n1
            simp at n1
          obtain ⟨hns, m1, m2⟩ := least_mk P hP (obj q hq a b) hd 1 i hf (if num (Fp q hq) y < num (Fp q hq) y' then y else y')
            (by rw [ho]; split <;> simp)
          have hsmall : 2 * num (Fp q hq) (if num (Fp q hq) y < num (Fp q hq) y' then y else y') < q :=
            smaller q hq a b i y y' hy.1 hy'.1 hne
          refine Or.inl ⟨rfl, inv_low (by omega) hi.quiet hi.noseed fun _ => hi.seed (by omega), fun hacc => ?_⟩
          have hst := gens_strong P hP c h (single P x (obj q hq a b) (Nat.card (obj q hq a b).Pt)
            (mkPoint (obj q hq a b) i (if num (Fp q hq) y < num (Fp q hq) y' then y else y'))) q hq a b hk.field _ rfl hn.prime (hP.ord _ _) hacc
          exact inv_of (by omega) hi.quiet hi.noseed (hi.seed (by omega)) hk.field hk.prime (hk.a (by omega)) e1 e2 e3 e4
            { derived := fun h => absurd h (by omega)
              minus3 := hc.minus3
              crv := fun _ => ⟨e5, hd⟩
              order := fun _ => ⟨e6, hn⟩
              gens := fun _ => ⟨_, [], rfl,
                { order := hP.ord _ _
                  cofactor := rfl
                  strong := hst
                  brainpool := fun h => absurd h1 h
                  nums := fun _ => ⟨⟨i, m2⟩, _, _, hns, m1, hsmall⟩ }, fun _ => rfl, fun h => absurd h (by omega)⟩ } (fun h => by omega)

theorem step_points (P : Pari) (hP : P.Ok) (c : Config) (h : Covered c) (p : Pick) (hp : p.Ok c) (x : St) (hi : Inv c 7 x) (x' : St) (d : Int)
    (ha : act P c p 7 x = some (x', d)) : d = 1 ∧ Inv c 8 x' := by
  obtain ⟨q, hq, hk⟩ := hi.known (by omega)
  obtain ⟨a, b, e1, e2, e3, e4, hc⟩ := hk.ab (by omega)
  obtain ⟨e5, hd⟩ := hc.crv (by omega)
  obtain ⟨g, ps, e6, hg, e7, -⟩ := hc.gens (by omega)
  cases e7 rfl
  have htab : (exhaustiveSetup c).gens.points = some (pointsChoice c) := rfl
  have harg : (exhaustiveSetup c).genArgs.points = (ainit c).points := rfl
  have key : ∀ ps, (g.point ≠ 0 → PointsKnown c [⟨g, ps⟩]) → ∀ y, y = { x with cur := { x.cur with gens := some ⟨obj q hq a b, [⟨g, ps⟩]⟩ } } → Inv c 8 y := by
    rintro ps hps y rfl
    exact inv_of (by omega) hi.quiet hi.noseed (hi.seed (by omega)) hk.field hk.prime (hk.a (by omega)) e1 e2 e3 e4
      { derived := fun h => absurd h (by omega)
        minus3 := hc.minus3
        crv := fun _ => ⟨e5, hd⟩
        order := fun _ => hc.order (by omega)
        gens := fun _ => ⟨g, ps, rfl, ⟨hg.order, hg.cofactor, hg.strong, hg.brainpool, hg.nums⟩, fun h => by omega, fun _ => hps⟩ } (fun h => by omega)
  have hcall : call P c.bits p ((ainit c).points) x (pointsChoice c) =
      (Whole.call P.toPari c.bits p.toPick (ainit c).points x.cur (pointsChoice c)).map fun r => ({ x with cur := r.1 }, r.2) := by
    unfold pointsChoice
    cases c.pointsType with
    | random => simp only; split <;> rfl
    | _ => rfl
  simp only [act, stageOf, htab, harg, Option.bind_some, id] at ha
  rw [hcall, Option.map_eq_some_iff] at ha
  obtain ⟨⟨y, d'⟩, ha, he⟩ := ha
  cases he
  by_cases hn : c.pointsType = .none
  · have : pointsChoice c = .skip := by simp only [pointsChoice, hn]
    rw [this] at ha
    simp only [Whole.call, Option.some.injEq, Prod.mk.injEq] at ha
    obtain ⟨rfl, rfl⟩ := ha
    refine ⟨rfl, key [] (fun _ => ⟨fun s hs => ⟨[], ?_, fun q hq => (nomatch hq), fun Q hQ => ?_⟩, (fun h => by rw [hn] at h; cases h), (fun h => by rw [hn] at h; cases h)⟩) _ (by rw [← e6])⟩
    · rw [List.mem_singleton] at hs
      rw [hs]
      rfl
    · simp only [pointOrders, hn, Option.some.injEq] at hQ
      subst hQ
      exact ⟨List.Pairwise.nil, fun d => ⟨fun h => (nomatch h), fun h => h.elim⟩⟩
  · rw [call_points _ _ _ _ _ _ hn] at ha
    simp only [call.withPoints, e6, e5, if_true, Option.map_eq_some_iff, Prod.mk.injEq] at ha
    obtain ⟨l, m1, rfl, rfl⟩ := ha
    have m2 := points_gen _ _ _ _ _ _ _ m1
    match l, m2 with
    | [⟨g', ps⟩], m2 =>
      simp only [List.map_cons, List.map_nil, List.cons.injEq, and_true] at m2
      subst m2
      refine ⟨rfl, key ps (fun hne => ?_) _ (by simp only [e5])⟩
      refine (points_known P.toPari hP.toOk c p.toPick hp.which hp.mul _ _ (fun g hg' => ?_) (fun g hg' => ?_) _ m1).2
      · rw [List.map_cons, List.map_nil, List.mem_singleton] at hg'
        rw [hg']; exact hg.order
      · rw [List.map_cons, List.map_nil, List.mem_singleton] at hg'
        rw [hg']; exact hne

theorem step_metadata (P : Pari) (c : Config) (p : Pick) (hp : p.Ok c) (x : St) (hi : Inv c 8 x) (x' : St) (d : Int)
    (ha : act P c p 8 x = some (x', d)) : d = 1 ∧ Inv c 9 x' := by
  obtain ⟨q, hq, hk⟩ := hi.known (by omega)
  obtain ⟨a, b, e1, e2, e3, e4, hc⟩ := hk.ab (by omega)
  obtain ⟨g, ps, e6, hg, -, hps⟩ := hc.gens (by omega)
  have htab : (exhaustiveSetup c).gens.metadata = some (if c.metadata then .metadata else .skip) := rfl
  have key : ∀ i : List (String × Text), (c.metadata = false → i = []) → (∀ y ∈ i, y.1 ∈ Parson.metaNames) ∧ (i.map (·.1)).Nodup →
      ∀ y, y = { x with cur := { x.cur with info := i } } → Inv c 9 y := by
    rintro i f1 f2 y rfl
    exact inv_of (by omega) f1 hi.noseed (hi.seed (by omega)) hk.field hk.prime (hk.a (by omega)) e1 e2 e3 e4
      { derived := fun h => absurd h (by omega)
        minus3 := hc.minus3
        crv := fun _ => hc.crv (by omega)
        order := fun _ => hc.order (by omega)
        gens := fun _ => ⟨g, ps, e6, ⟨hg.order, hg.cofactor, hg.strong, hg.brainpool, hg.nums⟩, fun h => by omega, fun _ => hps (by omega)⟩ } (fun _ => f2)
  cases hm : c.metadata with
  | true =>
    simp only [act, stageOf, htab, hm, if_true, Option.bind_some, id, call, Whole.call, Option.map_some, Option.some.injEq, Prod.mk.injEq] at ha
    obtain ⟨rfl, rfl⟩ := ha
    exact ⟨rfl, key _ (fun h => by rw [hm] at h; cases h) hp.info _ rfl⟩
  | false =>
    have : act P c p 8 x = some (x, 1) := by
      simp only [act, stageOf, htab, hm, Bool.false_eq_true, if_false, Option.bind_some, id, call, Whole.call, Option.map_some]
    rw [this] at ha
    cases ha
    exact ⟨rfl, key [] (fun _ => rfl) ⟨fun y hy => (nomatch hy), List.nodup_nil⟩ _ (by rw [← hi.quiet hm])⟩

/-- a call of the generator of a stage -/
theorem goes (P : Pari) (hP : P.Ok) (c : Config) (h : Covered c) (p : Pick) (hp : p.Ok c) (s : Nat) (hs : s < 9) (x : St) (hi : Inv c s x) (x' : St) (d : Int)
    (ha : act P c p s x = some (x', d)) : Goes P c s x' d := by
  have up : ∀ s, d = 1 ∧ Inv c (s + 1) x' → Goes P c s x' d := fun s hh => Or.inl ⟨hh.1, hh.2.low 1 (by omega) (by omega), fun _ => hh.2⟩
  match s, hs with
  | 0, _ => exact up 0 (step_seed P c h p hp x hi x' d ha)
  | 1, _ =>
    rcases step_field P hP c h p x hi x' d ha with hh | rfl
    · exact up 1 hh
    · exact goes_min P c 1 (by omega) x'
  | 2, _ => exact up 2 (step_a P c h p x hi x' d ha)
  | 3, _ =>
    rcases step_b P hP c h p x hi x' d ha with hh | rfl
    · exact up 3 hh
    · exact goes_min P c 3 (by omega) x'
  | 4, _ => exact step_curve P c h p x hi x' d ha
  | 5, _ => exact step_order P hP c h p hp x hi x' d ha
  | 6, _ => exact step_gens P hP c h p x hi x' d ha
  | 7, _ => exact up 7 (step_points P hP c h p hp x hi x' d ha)
  | 8, _ => exact up 8 (step_metadata P c p hp x hi x' d ha)

end Ecgen.Seeded
