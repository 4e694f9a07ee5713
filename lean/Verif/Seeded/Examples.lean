import Verif.Seeded.Props
import Verif.Seeded.Pari
import Verif.Whole.Examples
import Verif.Sha1.Eval

/-!
# Runs (C77, C78)

`--brainpool` with three bits and the seed 48671 finds `y² = x³ + x + 1` over the field of seven elements, and with the seed it prints
`y² = x³ + 2x + 1`; `--nums` with three bits finds `y² = x³ - 3x + 1` over the same field. All these curves have five points.
-/

namespace Ecgen.Seeded

open Whole Output Output.Spec Cli Brainpool.Spec

/-! ## A run without failures -/

theorem succeeds_act (P : Pari) (c : Config) (p : Pick) (hcut : p.cut = none) (hfail : ∀ s, p.fail s = none) (s : Nat) (x x' : St)
    (hact : act P c p s x = some (x', 1)) (hacc : ∀ k ∈ checksOf c s, k ≠ .hexParam ∧ verdict P x' k = some 1)
    (w : W) (hw : w.tape = fun _ => p) (i : Nat) :
    Engine.Spec.Succeeds (setup P c) s ({ w with st := x, pos := i } : W) 1 ({ w with st := x', pos := i + 1 } : W) := by
  refine ⟨({ w with st := x', pos := i + 1 } : W), ?_, by decide, ?_⟩
  · change gen P c.bits (exhaustiveSetup c) s _ = _
    have hp : ({ w with st := x, pos := i } : W).pick = p := by simp only [W.pick, hw]
    simp only [gen, hp, hcut, hfail]
    change done _ (act P c p s x) = _
    rw [hact]
    rfl
  · rw [checks_eq]
    generalize checksOf c s = l at hacc
    induction l with
    | nil => exact .nil _
    | cons k l ih =>
      obtain ⟨h1, h2⟩ := hacc k List.mem_cons_self
      have hck : check P ({ w with st := x', pos := i + 1 } : W) k = (({ w with st := x', pos := i + 1 } : W), 1) := by
        cases k with
        | hexParam => exact absurd rfl h1
        | _ => simp only [check, h2]
      rw [List.map_cons]
      refine .cons ?_ ?_
      · rw [hck]; exact Int.one_pos
      · rw [hck]; exact ih fun k hk => hacc k (List.mem_cons_of_mem _ hk)

/-- nine stages that succeed -/
theorem straight (P : Pari) (c : Config) (p : Pick) (hcut : p.cut = none) (hfail : ∀ s, p.fail s = none) (w : W) (hw : w.tape = fun _ => p)
    (xs : Nat → St) (h0 : xs 0 = { cur := {}, upd := false, sb := w.st.sb, scb := w.st.scb, ptr := p.address })
    (hact : ∀ s, s < 9 → act P c p s (xs s) = some (xs (s + 1), 1))
    (hacc : ∀ s, s < 9 → ∀ k ∈ checksOf c s, k ≠ .hexParam ∧ verdict P (xs (s + 1)) k = some 1) :
    ∃ w', one P c 9 w = (outCurve (xs 9).cur, w') ∧ w'.st = xs 9 := by
  obtain ⟨st, h1, h2⟩ := loop_straight (setup P c) (fun s => ({ w with st := xs s, pos := w.pos + s } : W))
    (fun s hs => succeeds_act P c p hcut hfail s _ _ (hact s hs) (hacc s hs) w hw (w.pos + s)) 9
    (Engine.init 0 { w with st := xs 0 }) rfl rfl
  have hp : w.pick = p := by simp only [W.pick, hw]
  have hg : Engine.gen (setup P c) 0 9 9 { w with st := { cur := {}, upd := false, sb := w.st.sb, scb := w.st.scb, ptr := w.pick.address } } = some (1, st) := by
    unfold Engine.gen Engine.genRetry
    rw [if_neg (by decide), if_neg (by decide), hp, ← h0]
    exact h1
  refine ⟨st.w, ?_, by rw [h2]⟩
  simp only [one, hg]
  rw [if_neg (by decide), h2]

/-- one curve asked for and found -/
theorem generated_one (P : Pari) (c : Config) (w w' : W) (v : Output.Curve) (h : one P c 9 w = (some v, w')) :
    Json.generated (one P c 9) 1 w = [v] := by
  simp only [Json.generated, h]

/-! ## Curves over the field of seven elements -/

theorem seven : Nat.Prime 7 := by decide

/-- the points, in numbers -/
theorem nonsingular7 (a b : Nat) (hd : (4 * a ^ 3 + 27 * b ^ 2) % 7 ≠ 0) (ha : a < 7) (hb : b < 7) (x n : Nat) :
    (obj 7 seven a b).eqn.Nonsingular (elem (Fp 7 seven) x) (elem (Fp 7 seven) n) ↔ n ^ 2 % 7 = (x ^ 3 + a * x + b) % 7 := by
  have hreg : (4 : ZMod 7) * (a : ZMod 7) ^ 3 + 27 * (b : ZMod 7) ^ 2 ≠ 0 := by
    intro h
    have : ((4 * a ^ 3 + 27 * b ^ 2 : Nat) : ZMod 7) = 0 := by push_cast; exact h
    rw [ZMod.natCast_eq_zero_iff] at this
    exact hd (Nat.mod_eq_zero_of_dvd this)
  have := Cm.Construct.elliptic (K := ZMod 7) (by decide) (a : ZMod 7) (b : ZMod 7) hreg
  have key : (Invalid.primeCurve ((a : Nat) : ZMod 7) ((b : Nat) : ZMod 7)).Nonsingular ((x : Nat) : ZMod 7) ((n : Nat) : ZMod 7) ↔
      n ^ 2 % 7 = (x ^ 3 + a * x + b) % 7 := by
    rw [← WeierstrassCurve.Affine.equation_iff_nonsingular, Cm.Construct.equation_prime]
    have e : ((n : ZMod 7) ^ 2 = (x : ZMod 7) ^ 3 + (a : ZMod 7) * (x : ZMod 7) + (b : ZMod 7)) ↔
        ((n ^ 2 : Nat) : ZMod 7) = ((x ^ 3 + a * x + b : Nat) : ZMod 7) := by push_cast; exact Iff.rfl
    rw [e, ZMod.natCast_eq_natCast_iff']
  rw [← key]
  have ea : a % 7 = a := Nat.mod_eq_of_lt ha
  have eb : b % 7 = b := Nat.mod_eq_of_lt hb
  change (Invalid.primeCurve ((a % 7 : Nat) : ZMod 7) ((b % 7 : Nat) : ZMod 7)).Nonsingular ((x : Nat) : ZMod 7) ((n : Nat) : ZMod 7) ↔ _
  rw [ea, eb]

theorem delta7 (a b : Nat) (hd : (4 * a ^ 3 + 27 * b ^ 2) % 7 ≠ 0) (ha : a < 7) (hb : b < 7) : (obj 7 seven a b).eqn.Δ ≠ 0 := by
  have hreg : (4 : ZMod 7) * (a : ZMod 7) ^ 3 + 27 * (b : ZMod 7) ^ 2 ≠ 0 := by
    intro h
    have : ((4 * a ^ 3 + 27 * b ^ 2 : Nat) : ZMod 7) = 0 := by push_cast; exact h
    rw [ZMod.natCast_eq_zero_iff] at this
    exact hd (Nat.mod_eq_zero_of_dvd this)
  have := Cm.Construct.elliptic (K := ZMod 7) (by decide) (a : ZMod 7) (b : ZMod 7) hreg
  rw [WeierstrassCurve.isElliptic_iff, isUnit_iff_ne_zero] at this
  change (Invalid.primeCurve ((a % 7 : Nat) : ZMod 7) ((b % 7 : Nat) : ZMod 7)).Δ ≠ 0
  rw [Nat.mod_eq_of_lt ha, Nat.mod_eq_of_lt hb]
  exact this

/-- the second coordinates, in numbers -/
theorem ordinates7 (a b : Nat) (hd : (4 * a ^ 3 + 27 * b ^ 2) % 7 ≠ 0) (ha : a < 7) (hb : b < 7) (x : Nat) :
    ordinates (obj 7 seven a b) x =
      ((List.range 7).filter fun n => n ^ 2 % 7 == (x ^ 3 + a * x + b) % 7).map (elem (Fp 7 seven)) := by
  unfold ordinates
  rw [List.filter_map]
  congr 1
  refine List.filter_congr fun n _ => ?_
  rw [Bool.eq_iff_iff, Function.comp_apply, @decide_eq_true_iff _ (Classical.propDecidable _), nonsingular7 a b hd ha hb x n, beq_iff_eq]

/-! ## Brainpool -/

/-- the two curves -/
abbrev Two (a : Nat) : Prop := a = 1 ∨ a = 2

abbrev EB (a : Nat) : Crv := obj 7 seven a 1

theorem two_ok {a : Nat} (ha : Two a) : (4 * a ^ 3 + 27 * 1 ^ 2) % 7 ≠ 0 ∧ a < 7 := by
  rcases ha with rfl | rfl <;> decide

theorem EB_delta {a : Nat} (ha : Two a) : (EB a).eqn.Δ ≠ 0 := delta7 a 1 (two_ok ha).1 (two_ok ha).2 (by decide)

theorem EB_card {a : Nat} (ha : Two a) : Nat.card (EB a).Pt = 5 := by
  rcases ha with rfl | rfl
  · exact E7_card
  · have : Nat.card (Invalid.primeCurve (2 : ZMod 7) 1).Point = 5 := by
      rw [Cm.Construct.natCard_point (by decide) 2 1 (by decide)]
      decide +kernel
    exact this

/-- the second coordinate of the base point -/
def yB (bit : Bool) : Nat := if bit then 1 else 6

theorem EB_nonsingular {a : Nat} (ha : Two a) (bit : Bool) : (EB a).eqn.Nonsingular (elem (EB a).field 0) (elem (EB a).field (yB bit)) := by
  refine (nonsingular7 a 1 (two_ok ha).1 (two_ok ha).2 (by decide) 0 (yB bit)).2 ?_
  cases bit <;> simp [yB]

/-- the base point -/
noncomputable def GB (a : Nat) (bit : Bool) : (EB a).Pt := mkPoint (EB a) 0 (elem (EB a).field (yB bit))

theorem GB_some {a : Nat} (ha : Two a) (bit : Bool) : GB a bit = .some _ _ (EB_nonsingular ha bit) := by
  unfold GB mkPoint
  exact dif_pos (EB_nonsingular ha bit)

theorem GB_order {a : Nat} (ha : Two a) (bit : Bool) : addOrderOf (GB a bit) = 5 := by
  rw [order_prime (by rw [EB_card ha]; decide) (GB a bit) (by rw [GB_some ha]; exact WeierstrassCurve.Affine.Point.some_ne_zero _), EB_card ha]

/-- `--fp --brainpool --random 3` -/
def cB : Config := (commandLine 4 [.fp, .brainpool none, .random none, .arg "3".toList]).get (by decide +kernel)

theorem cB_some : commandLine 4 [.fp, .brainpool none, .random none, .arg "3".toList] = some cB := (Option.some_get _).symm

/-- every call gives the seed `s` and the bit -/
noncomputable def pickB (s : Bits.Bits) (bit : Bool) : Pick :=
  { always E1 1 [G1] 1 with seed := s, left := (false, none, none), bit := bit, junk := 0, fuel := 9, address := 0 }

theorem pickB_ok (s : Bits.Bits) (bit : Bool) (z : Nat) (hs : Brainpool.Seed160 s z) (c : Config) : (pickB s bit).Ok c where
  cut x h := by cases h
  fail s d h := by cases h
  seed := ⟨z, hs⟩
  sea _ _ := Or.inl rfl
  which n i h := h
  mul o i j h := ⟨Nat.le_refl 1, by simp only [pickB, always]; omega⟩
  info := ⟨fun x h => (nomatch h), List.nodup_nil⟩
  verdict d h := by cases h

theorem next7 (x : Int) (h1 : 5 < x) (h2 : x ≤ 7) : pari.nextprime x = 7 := by
  have e1 := (next_spec.1 x).1
  have e2 := (next_spec.1 x).2 7 seven (by omega)
  have e3 := (next_spec.2 x).2
  have : pari.nextprime x ≠ 6 := by
    intro h
    rw [h] at e3
    exact absurd e3 (by decide)
  omega

/-- the field stage -/
theorem field_run (s0 : Bits.Bits) (z : Nat) (h0 : Brainpool.Seed160 s0 z) (hf : fieldInt 3 z = 5 ∨ fieldInt 3 z = 6) :
    Brainpool.genField 0 pari.nextprime pari.isprimeI 3 9 ⟨s0, false⟩ = some (some (7, ⟨s0, true⟩)) := by
  have hpr : pari.isprimeI 7 = true := (isprimeI_spec pari pari_ok 7).2 ⟨by decide, seven⟩
  unfold Brainpool.genField
  rw [loopN, Brainpool.fieldStep]
  simp only [Brainpool.applyFlag]
  rw [if_neg (by decide), Option.bind_some, Brainpool.hashI_spec 0 h0 _ _ (Brainpool.wOf_le 3).1, Option.map_some,
    Brainpool.fieldInt_eq 3 _ (by decide), Option.bind_some]
  simp only
  rw [loopN, Brainpool.fieldStep]
  simp only
  rw [next7 _ (by omega) (by omega), if_neg (by decide), if_neg (by decide), hpr]
  rfl

/-- the equation stage -/
theorem equation_run (s0 s1 s2 : Bits.Bits) (z a : Nat) (ha : Two a) (h1 : Brainpool.Seed160 s1 (z + 1)) (h2 : Brainpool.Seed160 s2 (z + 2))
    (e1 : Brainpool.updateSeed 0 s0 = some s1) (e2 : Brainpool.updateSeed 0 s1 = some s2) (c1 : coeffInt 3 (z + 1) = a) (c2 : coeffInt 3 (z + 2) = 1) :
    Brainpool.genEquation 0 7 (pari.fp 7) 3 9 ⟨s0, true⟩ = some (some (((a : Int), 1), ⟨s2, true⟩)) := by
  have hfp : FpSpec 7 (pari.fp 7) := fpOps_spec 7 seven
  unfold Brainpool.genEquation
  rw [loopN, Brainpool.equationStep]
  simp only [Brainpool.applyFlag, if_true]
  rw [e1, Option.bind_some, Brainpool.hashI_spec 0 h1 _ _ (Brainpool.wOf_le 3).2, Option.bind_some, Brainpool.coeffInt_eq, c1]
  obtain ⟨am, ham⟩ : ∃ am, (pari.fp 7).invsafe (a : Int) = some am := by
    rw [← Option.isSome_iff_exists, Option.isSome_iff_ne_none, ne_eq, hfp.invsafe_none]
    rcases ha with rfl | rfl <;> decide
  have ham' := hfp.invsafe_some _ _ ham
  obtain ⟨r, hr⟩ : ∃ r, (pari.fp 7).root4 (am * -3) = some r := by
    rw [← Option.isSome_iff_exists, Option.isSome_iff_ne_none, ne_eq, hfp.root4_none, not_not]
    rcases ha with rfl | rfl
    · refine ⟨3, ?_⟩
      have : am ≡ 1 [ZMOD (7 : Nat)] := by simpa using ham'
      exact ((this.mul_right (-3)).trans (by decide)).symm
    · refine ⟨2, ?_⟩
      have : am ≡ 4 [ZMOD (7 : Nat)] := by
        have := ham'.mul_left 4
        have e : (4 : Int) * ((2 : Nat) * am) ≡ am [ZMOD (7 : Nat)] := by
          rw [Int.modEq_iff_dvd]
          exact ⟨-am, by push_cast; ring⟩
        exact e.symm.trans this
      exact ((this.mul_right (-3)).trans (by decide)).symm
  have hsq : (pari.fp 7).issquare ((1 : Nat) : Int) = true := (hfp.issquare _).2 ⟨1, by decide⟩
  simp only [ham, hr]
  rw [e2, Option.bind_some, Brainpool.hashI_spec 0 h2 _ _ (Brainpool.wOf_le 3).2, Option.bind_some, Brainpool.coeffInt_eq, c2]
  simp only [hsq]
  rcases ha with rfl | rfl <;> rfl

theorem ordB {a : Nat} (ha : Two a) : pari.ordinate (EB a) 0 = [elem (EB a).field 1, elem (EB a).field 6] := by
  have := ordinates7 a 1 (two_ok ha).1 (two_ok ha).2 (by decide) 0
  rw [show a * 0 = 0 from rfl] at this
  exact this

theorem firstB {a : Nat} (ha : Two a) : firstX pari (EB a) 0 = some 0 := by
  unfold firstX
  change List.find? _ ((List.range 7).map (0 + ·)) = _
  rw [show (List.range 7).map (0 + ·) = [0, 1, 2, 3, 4, 5, 6] from rfl, List.find?_cons, ordB ha]
  rfl

/-- the generator -/
theorem gens_run (x : St) (p : Pick) (hj : p.junk = 0) (a : Nat) (ha : Two a) (s2 s3 : Bits.Bits) (z : Nat) (h3 : Brainpool.Seed160 s3 z)
    (e3 : Brainpool.updateSeed 0 s2 = some s3) (c3 : coeffInt 3 z = 1) : brainpoolGens pari 3 p x (EB a) 5 s2 =
      some ({ x with cur := { x.cur with seed := some s3, gens := some ⟨EB a, [⟨⟨GB a p.bit, 5, 1⟩, []⟩]⟩ } }, 1) := by
  have ho : pari.ord (EB a) (GB a p.bit) = 5 := GB_order ha p.bit
  have hg : mkPoint (EB a) 0 (if p.bit then elem (EB a).field 1 else elem (EB a).field 6) = GB a p.bit := by
    unfold GB
    congr 1
    cases p.bit <;> rfl
  unfold brainpoolGens
  rw [hj, e3, Option.bind_some, Brainpool.hashI_spec 0 h3 _ _ (Brainpool.wOf_le 3).2, Option.bind_some, Brainpool.coeffInt_eq, c3]
  simp only [firstB ha, ordB ha, hg, Nat.cast_one, Int.toNat_one, one_smul, single, ho]

/-- the curve at the beginning of each stage -/
noncomputable def courseB (a : Nat) (bit : Bool) (s0 s2 s3 : Bits.Bits) : Nat → St
  | 0 => {}
  | 1 => { cur := { seed := some s0 } }
  | 2 | 3 => { cur := { seed := some s0, field := some (Fp 7 seven) }, upd := true }
  | 4 => { cur := { seed := some s2, field := some (Fp 7 seven), a := some (.intmod a 7), b := some (.intmod 1 7) }, upd := true }
  | 5 => { cur := { seed := some s2, field := some (Fp 7 seven), a := some (.intmod a 7), b := some (.intmod 1 7), crv := some (EB a) }, upd := true }
  | 6 => { cur := { seed := some s2, field := some (Fp 7 seven), a := some (.intmod a 7), b := some (.intmod 1 7), crv := some (EB a), order := some 5 },
           upd := true }
  | 7 => { cur := { seed := some s3, field := some (Fp 7 seven), a := some (.intmod a 7), b := some (.intmod 1 7), crv := some (EB a), order := some 5,
                    gens := some ⟨EB a, [⟨⟨GB a bit, 5, 1⟩, []⟩]⟩ }, upd := true }
  | _ => { cur := { seed := some s3, field := some (Fp 7 seven), a := some (.intmod a 7), b := some (.intmod 1 7), crv := some (EB a), order := some 5,
                    gens := some ⟨EB a, [⟨⟨GB a bit, 5, 1⟩, [some ⟨GB a bit, 5, 0⟩]⟩]⟩ }, upd := true }

theorem cB_bits : cB.bits = 3 := by decide +kernel

theorem genPrime5 : Order.genPrime pari.isprime 5 = some 5 := by
  have : pari.isprime 5 = true := (pari_ok.isprime 5).2 (by decide)
  simp [Order.genPrime, this]

theorem primes5 : Subgroup.primes pari.isprime pari.fac 5 = [5] := by
  have : pari.isprime 5 = true := (pari_ok.isprime 5).2 (by decide)
  simp [Subgroup.primes, this]

/-- four seeds in a row -/
structure Row (z : Nat) (s0 s1 s2 s3 : Bits.Bits) : Prop where
  h0 : Brainpool.Seed160 s0 z
  h1 : Brainpool.Seed160 s1 (z + 1)
  h2 : Brainpool.Seed160 s2 (z + 2)
  h3 : Brainpool.Seed160 s3 (z + 3)
  e0 : Bits.fromILen (z : Int) 160 = some s0
  e1 : Brainpool.updateSeed 0 s0 = some s1
  e2 : Brainpool.updateSeed 0 s1 = some s2
  e3 : Brainpool.updateSeed 0 s2 = some s3

/-- the numbers derived from four seeds in a row, which lead to the curve with the first coefficient `a` -/
structure Leads (z a : Nat) : Prop where
  two : Two a
  field : fieldInt 3 z = 5 ∨ fieldInt 3 z = 6
  c1 : coeffInt 3 (z + 1) = a
  c2 : coeffInt 3 (z + 2) = 1
  c3 : coeffInt 3 (z + 3) = 1

theorem row (z : Nat) (hz : z + 3 < 2 ^ 160) : ∃ s0 s1 s2 s3, Row z s0 s1 s2 s3 := by
  obtain ⟨s0, e0, h0⟩ := Brainpool.fromILen_seed z (by omega)
  obtain ⟨s1, e1, h1⟩ := Brainpool.updateSeed_spec 0 h0
  obtain ⟨s2, e2, h2⟩ := Brainpool.updateSeed_spec 0 h1
  obtain ⟨s3, e3, h3⟩ := Brainpool.updateSeed_spec 0 h2
  rw [Nat.mod_eq_of_lt (by omega)] at h1
  rw [Nat.mod_eq_of_lt (a := z + 1) (by omega), Nat.mod_eq_of_lt (by omega)] at h2
  rw [Nat.mod_eq_of_lt (a := z + 1) (by omega), Nat.mod_eq_of_lt (a := z + 1 + 1) (by omega), Nat.mod_eq_of_lt (by omega)] at h3
  exact ⟨s0, s1, s2, s3, h0, h1, h2, h3, e0, e1, e2, e3⟩

theorem courseB_act (z a : Nat) (bit : Bool) (hl : Leads z a) (s0 s1 s2 s3 : Bits.Bits) (hr : Row z s0 s1 s2 s3) (s : Nat) (hs : s < 9) :
    act pari cB (pickB s0 bit) s (courseB a bit s0 s2 s3 s) = some (courseB a bit s0 s2 s3 (s + 1), 1) := by
  match s, hs with
  | 0, _ =>
    have : (exhaustiveSetup cB).gens.seed = some .brainpoolSeedRandom := by decide +kernel
    simp only [act, stageOf, this, Option.bind_some, id, call, courseB, pickB]
  | 1, _ =>
    have : (exhaustiveSetup cB).gens.field = some .brainpoolField := by decide +kernel
    have hr := field_run s0 z hr.h0 hl.field
    simp only [act, stageOf, this, Option.bind_some, id, call, courseB, pickB, cB_bits, hr, brainpoolField]
    rw [dif_pos (by exact seven)]
    rfl
  | 2, _ =>
    have : (exhaustiveSetup cB).gens.a = some .skip := by decide +kernel
    simp only [act, stageOf, this, Option.bind_some, id, call, courseB, Whole.call, Option.map_some]
  | 3, _ =>
    have : (exhaustiveSetup cB).gens.b = some .brainpoolEquation := by decide +kernel
    have hr := equation_run s0 s1 s2 z a hl.two hr.h1 hr.h2 hr.e1 hr.e2 hl.c1 hl.c2
    have hp : primeOf (courseB a bit s0 s2 s3 3) = some 7 := rfl
    simp only [act, stageOf, this, Option.bind_some, id, call, hp]
    simp only [courseB, Option.bind_some, pickB, cB_bits, hr, brainpoolEquation]
    rfl
  | 4, _ =>
    have : (exhaustiveSetup cB).gens.curve = some .curveAny := by decide +kernel
    simp only [act, stageOf, this, Option.bind_some, id, call, courseB, Whole.call, Option.map_some]
  | 5, _ =>
    have : (exhaustiveSetup cB).gens.order = some .orderPrime := by decide +kernel
    have h5 := genPrime5
    have hc := EB_card hl.two
    simp only [act, stageOf, this, Option.bind_some, id, call, courseB, Whole.call, Option.map_some, orderStage, pickB, always, hc, h5, filtered]
  | 6, _ =>
    have : (exhaustiveSetup cB).gens.gens = some .brainpoolGens := by decide +kernel
    have hr := gens_run (courseB a bit s0 s2 s3 6) (pickB s0 bit) rfl a hl.two s2 s3 (z + 3) hr.h3 hr.e3 hl.c3
    simp only [act, stageOf, this, Option.bind_some, id, call, cB_bits]
    rw [show (courseB a bit s0 s2 s3 6).cur.seed = some s2 from rfl, show (courseB a bit s0 s2 s3 6).cur.crv = some (EB a) from rfl,
      show (courseB a bit s0 s2 s3 6).cur.order = some 5 from rfl]
    simp only [Option.bind_some]
    rw [hr]
    rfl
  | 7, _ =>
    have : (exhaustiveSetup cB).gens.points = some .pointsPrime := by decide +kernel
    have h5 := primes5
    simp only [act, stageOf, this, Option.bind_some, id, call, Whole.call, Whole.call.withPoints, courseB, pointsStage, if_true, Option.map_some,
      Group.pointsPrime, List.map_cons, List.map_nil, h5, Group.fromOrders, Group.fromOrder]
  | 8, _ =>
    have : (exhaustiveSetup cB).gens.metadata = some .skip := by decide +kernel
    simp only [act, stageOf, this, Option.bind_some, id, call, courseB, Whole.call, Option.map_some]

theorem zn_ok : Order.checkGens pari.zn 7 5 = true := by
  have := (pari_ok.zn 7 5 (by decide) (by decide)).1
  have e : Order.embedding pari.zn 7 5 = pari.zn 7 5 := if_neg (by decide)
  rw [Order.checkGens, Bool.not_eq_true', decide_eq_false_iff_not, e]
  omega

theorem courseB_acc (a : Nat) (bit : Bool) (ha : Two a) (s0 s2 s3 : Bits.Bits) (s : Nat) (k : Check) (hk : k ∈ checksOf cB s) :
    k ≠ .hexParam ∧ verdict pari (courseB a bit s0 s2 s3 (s + 1)) k = some 1 := by
  have hcov : Covered cB := ⟨by decide +kernel, by decide +kernel, fun _ => by decide +kernel⟩
  rw [table_checks cB hcov] at hk
  split at hk
  · subst s
    rw [List.mem_singleton] at hk
    subst hk
    refine ⟨by decide, ?_⟩
    simp only [verdict, courseB, Option.map_some]
    rw [if_neg (EB_delta ha)]
  · split at hk
    · rename_i h5
      obtain ⟨rfl, -⟩ := h5
      rw [List.mem_singleton] at hk
      subst hk
      exact ⟨by decide, rfl⟩
    · split at hk
      · subst s
        simp only [List.mem_cons, List.not_mem_nil, or_false] at hk
        have hp : primeOf (courseB a bit s0 s2 s3 7) = some 7 := rfl
        rcases hk with rfl | rfl
        · exact ⟨by decide, rfl⟩
        · refine ⟨by decide, ?_⟩
          simp only [verdict, hp]
          simp only [courseB, zn_ok, if_true]
      · rw [if_neg fun h => absurd h.2 (by decide +kernel)] at hk
        cases hk

/-- what is printed -/
def printedB (a : Nat) (bit : Bool) (s3 : Bits.Bits) : Output.Curve :=
  ⟨some s3, .prime 7, .intmod a 7, .intmod 1 7, 5,
    [⟨⟨.intmod 0 7, .intmod (yB bit) 7, 5, some 1⟩, [⟨.intmod 0 7, .intmod (yB bit) 7, 5, none⟩]⟩], []⟩

theorem elt7 (x : Nat) (hx : x < 7) : ielement (out (Fp 7 seven).1) x = some (.intmod x 7) := by
  have : ∀ x : Fin 7, ielement (.prime 7) x = some (.intmod x 7) := by decide
  exact this ⟨x, hx⟩

theorem point_out (a b x y : Nat) (hx : x < 7) (hy : y < 7) (h : (obj 7 seven a b).eqn.Nonsingular (elem (Fp 7 seven) x) (elem (Fp 7 seven) y))
    (k : Option Nat) (n m : Nat) : outPoint (obj 7 seven a b) k ⟨.some _ _ h, n, m⟩ = some ⟨.intmod x 7, .intmod y 7, n, k⟩ := by
  have h0 : num (Fp 7 seven) (elem (Fp 7 seven) x) = x := num_elem (Fp 7 seven) x hx
  have h1 : num (Fp 7 seven) (elem (Fp 7 seven) y) = y := num_elem (Fp 7 seven) y hy
  change (match ielement (out (Fp 7 seven).1) (num (Fp 7 seven) (elem (Fp 7 seven) x)), ielement (out (Fp 7 seven).1) (num (Fp 7 seven) (elem (Fp 7 seven) y)) with
    | some x, some y => some (Output.Point.mk x y n k)
    | _, _ => none) = _
  rw [h0, h1, elt7 x hx, elt7 y hy]

theorem courseB_printed (a : Nat) (bit : Bool) (ha : Two a) (s0 s2 s3 : Bits.Bits) :
    outCurve (courseB a bit s0 s2 s3 9).cur = some (printedB a bit s3) := by
  have hp : ∀ k n m, outPoint (EB a) k ⟨GB a bit, n, m⟩ = some ⟨.intmod 0 7, .intmod (yB bit) 7, n, k⟩ := by
    intro k n m
    rw [GB_some ha]
    exact point_out a 1 0 (yB bit) (by decide) (by cases bit <;> decide) _ k n m
  simp only [courseB, outCurve, List.map_cons, List.map_nil, outSub, hp, Option.bind_some, allSome, Option.map_some]
  rfl

/-- the world of a run with the seed `s0` -/
noncomputable def worldB (s0 : Bits.Bits) (bit : Bool) : W := ⟨{}, fun _ => pickB s0 bit, 0, false⟩

/-- the run -/
theorem runB (z a : Nat) (bit : Bool) (hl : Leads z a) (s0 s1 s2 s3 : Bits.Bits) (hr : Row z s0 s1 s2 s3) :
    ∃ w', one pari cB 9 (worldB s0 bit) = (some (printedB a bit s3), w') := by
  obtain ⟨w', h, -⟩ := straight pari cB (pickB s0 bit) rfl (fun _ => rfl) (worldB s0 bit) rfl (courseB a bit s0 s2 s3) rfl
    (courseB_act z a bit hl s0 s1 s2 s3 hr) (fun s _ => courseB_acc a bit hl.two s0 s2 s3 s)
  rw [courseB_printed a bit hl.two] at h
  exact ⟨w', h⟩

theorem leads1 : Leads 48671 1 := by
  refine ⟨Or.inl rfl, Or.inr ?_, ?_, ?_, ?_⟩
  · unfold fieldInt findInteger SeedSpec.H
    rw [Sha1.Eval.sha1_eq _ (by decide +kernel)]
    decide +kernel
  all_goals
    unfold coeffInt findInteger SeedSpec.H
    rw [Sha1.Eval.sha1_eq _ (by decide +kernel)]
    decide +kernel

theorem leads2 : Leads 48674 2 := by
  refine ⟨Or.inr rfl, Or.inl ?_, ?_, ?_, ?_⟩
  · unfold fieldInt findInteger SeedSpec.H
    rw [Sha1.Eval.sha1_eq _ (by decide +kernel)]
    decide +kernel
  all_goals
    unfold coeffInt findInteger SeedSpec.H
    rw [Sha1.Eval.sha1_eq _ (by decide +kernel)]
    decide +kernel

/-- the seed three after `z` -/
def third (z : Nat) : Bits.Bits :=
  ((((Bits.fromILen (z : Int) 160).bind (Brainpool.updateSeed 0)).bind (Brainpool.updateSeed 0)).bind (Brainpool.updateSeed 0)).getD ⟨[], false, 0, 0⟩

theorem third_eq (z : Nat) (s0 s1 s2 s3 : Bits.Bits) (hr : Row z s0 s1 s2 s3) : third z = s3 := by
  unfold third
  rw [hr.e0, Option.bind_some, hr.e1, Option.bind_some, hr.e2, Option.bind_some, hr.e3]
  rfl

/-- **C77, met**: the run of `ecgen --fp --brainpool --random 3` with the random seed 48671 meets the hypotheses -/
theorem brainpool_met : ∃ (os : List Opt) (c : Config) (w : W), commandLine 4 os = some c ∧ c.seedAlgo = .brainpool ∧ 1 ≤ c.bits ∧
    (∀ i, (w.tape i).Ok c) ∧ toSize c.count = 1 ∧ (produce pari c 9 w).2 = 0 ∧
    ∀ v ∈ Json.generated (one pari c 9) (toSize c.count) w, ∀ j, Parson.outputJjson c.hexDigits v = .ok j →
      (Parson.render true 0 j).length ≤ 2147483646 := by
  have hcount : toSize cB.count = 1 := by decide +kernel
  obtain ⟨s0, s1, s2, s3, hr⟩ := row 48671 (by decide)
  obtain ⟨w', hw'⟩ := runB 48671 1 true leads1 s0 s1 s2 s3 hr
  have hgen := generated_one _ _ _ _ _ hw'
  refine ⟨_, cB, worldB s0 true, cB_some, by decide +kernel, by decide +kernel, fun _ => pickB_ok s0 true _ hr.h0 cB, hcount, ?_, ?_⟩
  · rw [produce, (Json.generate_objects _ _ _).2, hcount, hgen]
    rfl
  · rw [hcount, hgen]
    intro v hv
    rw [List.mem_singleton] at hv
    subst hv
    rw [← third_eq _ _ _ _ _ hr]
    exact short_spec (by decide +kernel)

/-! ## NUMS -/

abbrev EN : Crv := obj 7 seven 4 1

theorem EN_delta : EN.eqn.Δ ≠ 0 := delta7 4 1 (by decide) (by decide) (by decide)

theorem EN_card : Nat.card EN.Pt = 5 := by
  have : Nat.card (Invalid.primeCurve (4 : ZMod 7) 1).Point = 5 := by
    rw [Cm.Construct.natCard_point (by decide) 4 1 (by decide)]
    decide +kernel
  exact this

theorem EN_nonsingular : EN.eqn.Nonsingular (elem EN.field 4) (elem EN.field 2) :=
  (nonsingular7 4 1 (by decide) (by decide) (by decide) 4 2).2 (by decide)

/-- the base point -/
noncomputable def GN : EN.Pt := mkPoint EN 4 (elem EN.field 2)

theorem GN_some : GN = .some _ _ EN_nonsingular := by
  unfold GN mkPoint
  exact dif_pos EN_nonsingular

theorem GN_order : addOrderOf GN = 5 := by
  rw [order_prime (by rw [EN_card]; decide) GN (by rw [GN_some]; exact WeierstrassCurve.Affine.Point.some_ne_zero _), EN_card]

/-- `--fp --nums 3` -/
def cN : Config := (commandLine 4 [.fp, .nums, .arg "3".toList]).get (by decide +kernel)

theorem cN_some : commandLine 4 [.fp, .nums, .arg "3".toList] = some cN := (Option.some_get _).symm

theorem cN_bits : cN.bits = 3 := by decide +kernel

theorem ordN (x : Nat) : pari.ordinate EN x = ((List.range 7).filter fun n => n ^ 2 % 7 == (x ^ 3 + 4 * x + 1) % 7).map (elem EN.field) :=
  ordinates7 4 1 (by decide) (by decide) (by decide) x

theorem ordN4 : pari.ordinate EN 4 = [elem EN.field 2, elem EN.field 5] := ordN 4

theorem firstN : firstX pari EN 1 = some 4 := by
  unfold firstX
  change List.find? _ ((List.range 7).map (1 + ·)) = _
  rw [show (List.range 7).map (1 + ·) = [1, 2, 3, 4, 5, 6, 7] from rfl, List.find?_cons, ordN, List.find?_cons, ordN, List.find?_cons, ordN,
    List.find?_cons, ordN]
  rfl

/-- the curve at the beginning of each stage -/
noncomputable def courseN : Nat → St
  | 0 | 1 => {}
  | 2 => { cur := { field := some (Fp 7 seven) } }
  | 3 => { cur := { field := some (Fp 7 seven), a := some (.intmod 4 7) } }
  | 4 => { cur := { field := some (Fp 7 seven), a := some (.intmod 4 7), b := some (.intmod 1 7) }, sb := some 1, scb := some 0 }
  | 5 => { cur := { field := some (Fp 7 seven), a := some (.intmod 4 7), b := some (.intmod 1 7), crv := some EN }, sb := some 1, scb := some 0 }
  | 6 => { cur := { field := some (Fp 7 seven), a := some (.intmod 4 7), b := some (.intmod 1 7), crv := some EN, order := some 5 },
           sb := some 1, scb := some 0 }
  | 7 => { cur := { field := some (Fp 7 seven), a := some (.intmod 4 7), b := some (.intmod 1 7), crv := some EN, order := some 5,
                    gens := some ⟨EN, [⟨⟨GN, 5, 1⟩, []⟩]⟩ }, sb := some 1, scb := some 0 }
  | _ => { cur := { field := some (Fp 7 seven), a := some (.intmod 4 7), b := some (.intmod 1 7), crv := some EN, order := some 5,
                    gens := some ⟨EN, [⟨⟨GN, 5, 1⟩, [some ⟨GN, 5, 0⟩]⟩]⟩ }, sb := some 1, scb := some 0 }

theorem courseN_act (s0 : Bits.Bits) (s : Nat) (hs : s < 9) : act pari cN (pickB s0 true) s (courseN s) = some (courseN (s + 1), 1) := by
  match s, hs with
  | 0, _ =>
    have : (exhaustiveSetup cN).gens.seed = some .skip := by decide +kernel
    simp only [act, stageOf, this, Option.bind_some, id, call, courseN, Whole.call, Option.map_some]
  | 1, _ =>
    have : (exhaustiveSetup cN).gens.field = some .numsField := by decide +kernel
    have hpr : pari.isprimeI 7 = true := (isprimeI_spec pari pari_ok 7).2 ⟨by decide, seven⟩
    have hf : Nums.genField pari.isprimeI 3 9 = some 7 := by
      unfold Nums.genField Nums.fieldLoop
      exact if_pos hpr
    simp only [act, stageOf, this, Option.bind_some, id, call, courseN, pickB, cN_bits, hf]
    rw [dif_pos (by exact seven)]
    rfl
  | 2, _ =>
    have : (exhaustiveSetup cN).gens.a = some .numsA := by decide +kernel
    simp only [act, stageOf, this, Option.bind_some, id, call]
    rfl
  | 3, _ =>
    have : (exhaustiveSetup cN).gens.b = some .numsB := by decide +kernel
    simp only [act, stageOf, this, Option.bind_some, id, call]
    rfl
  | 4, _ =>
    have : (exhaustiveSetup cN).gens.curve = some .curveAny := by decide +kernel
    simp only [act, stageOf, this, Option.bind_some, id, call, courseN, Whole.call, Option.map_some]
  | 5, _ =>
    have : (exhaustiveSetup cN).gens.order = some .numsOrder := by decide +kernel
    have hp : primeOf (courseN 5) = some 7 := rfl
    have h5 : pari.isprime 5 = true := (pari_ok.isprime 5).2 (by decide)
    have h11 : pari.isprimeI 11 = true := (isprimeI_spec pari pari_ok 11).2 ⟨by decide, by decide⟩
    simp only [act, stageOf, this, Option.bind_some, id, call, hp]
    simp only [courseN, Option.map_some, numsOrder, pickB, always, EN_card, h5]
    rw [if_neg]
    rw [show ((5 : Nat) : Int) + (((7 : Nat) : Int) + 1 - ((5 : Nat) : Int)) * 2 = 11 from rfl, h11]
    decide
  | 6, _ =>
    have : (exhaustiveSetup cN).gens.gens = some .numsGens := by decide +kernel
    have h2 : num EN.field (elem EN.field 2) = 2 := num_elem (Fp 7 seven) 2 (by decide)
    have h5 : num EN.field (elem EN.field 5) = 5 := num_elem (Fp 7 seven) 5 (by decide)
    have ho : pari.ord EN (mkPoint EN 4 (elem EN.field 2)) = 5 := GN_order
    simp only [act, stageOf, this, Option.bind_some, id, call, courseN, numsGens, firstN, ordN4, h2, h5, single]
    rw [if_pos (by decide), ho]
    rfl
  | 7, _ =>
    have : (exhaustiveSetup cN).gens.points = some .pointsPrime := by decide +kernel
    have h5 := primes5
    simp only [act, stageOf, this, Option.bind_some, id, call, Whole.call, Whole.call.withPoints, courseN, pointsStage, if_true, Option.map_some,
      Group.pointsPrime, List.map_cons, List.map_nil, h5, Group.fromOrders, Group.fromOrder]
  | 8, _ =>
    have : (exhaustiveSetup cN).gens.metadata = some .skip := by decide +kernel
    simp only [act, stageOf, this, Option.bind_some, id, call, courseN, Whole.call, Option.map_some]

theorem courseN_acc (s : Nat) (k : Check) (hk : k ∈ checksOf cN s) : k ≠ .hexParam ∧ verdict pari (courseN (s + 1)) k = some 1 := by
  have hcov : Covered cN := ⟨by decide +kernel, by decide +kernel, fun h => absurd (by decide +kernel) h⟩
  rw [table_checks cN hcov] at hk
  split at hk
  · subst s
    rw [List.mem_singleton] at hk
    subst hk
    refine ⟨by decide, ?_⟩
    simp only [verdict, courseN, Option.map_some]
    rw [if_neg EN_delta]
  · rw [if_neg fun h => absurd h.2 (by decide +kernel)] at hk
    split at hk
    · subst s
      simp only [List.mem_cons, List.not_mem_nil, or_false] at hk
      have hp : primeOf (courseN 7) = some 7 := rfl
      rcases hk with rfl | rfl
      · exact ⟨by decide, rfl⟩
      · refine ⟨by decide, ?_⟩
        simp only [verdict, hp]
        simp only [courseN, zn_ok, if_true]
    · rw [if_neg fun h => absurd h.2 (by decide +kernel)] at hk
      cases hk

/-- what is printed -/
def printedN : Output.Curve :=
  ⟨none, .prime 7, .intmod 4 7, .intmod 1 7, 5, [⟨⟨.intmod 4 7, .intmod 2 7, 5, some 1⟩, [⟨.intmod 4 7, .intmod 2 7, 5, none⟩]⟩], []⟩

theorem courseN_printed : outCurve (courseN 9).cur = some printedN := by
  have hp : ∀ k n m, outPoint EN k ⟨GN, n, m⟩ = some ⟨.intmod 4 7, .intmod 2 7, n, k⟩ := by
    intro k n m
    rw [GN_some]
    exact point_out 4 1 4 2 (by decide) (by decide) _ k n m
  simp only [courseN, outCurve, List.map_cons, List.map_nil, outSub, hp, Option.bind_some, allSome, Option.map_some]
  rfl

/-- **C78, met**: the run of `ecgen --fp --nums 3` that finds `y² = x³ - 3x + 1` meets the hypotheses -/
theorem nums_met : ∃ (os : List Opt) (c : Config) (w : W), commandLine 4 os = some c ∧ c.seedAlgo = .nums ∧
    (∀ i, (w.tape i).Ok c) ∧ toSize c.count = 1 ∧ (produce pari c 9 w).2 = 0 ∧
    ∀ v ∈ Json.generated (one pari c 9) (toSize c.count) w, ∀ j, Parson.outputJjson c.hexDigits v = .ok j →
      (Parson.render true 0 j).length ≤ 2147483646 := by
  have hcount : toSize cN.count = 1 := by decide +kernel
  obtain ⟨s0, s1, s2, s3, hr⟩ := row 48671 (by decide)
  obtain ⟨w', hw', -⟩ := straight pari cN (pickB s0 true) rfl (fun _ => rfl) (worldB s0 true) rfl courseN rfl (courseN_act s0)
    (fun s _ => courseN_acc s)
  rw [courseN_printed] at hw'
  have hgen := generated_one _ _ _ _ _ hw'
  refine ⟨_, cN, worldB s0 true, cN_some, by decide +kernel, fun _ => pickB_ok s0 true _ hr.h0 cN, hcount, ?_, ?_⟩
  · rw [produce, (Json.generate_objects _ _ _).2, hcount, hgen]
    rfl
  · rw [hcount, hgen]
    intro v hv
    rw [List.mem_singleton] at hv
    subst hv
    exact short_spec (by decide +kernel)

/-! ## What the printed seed says -/

/-- **C79, met**: two runs print different curves objects with the same seed and field -/
theorem seed_met : ∃ (c : Config) (v v' : CurveV), BrainpoolAsked false c v ∧ BrainpoolAsked false c v' ∧ v.seed = v'.seed ∧ v.field = v'.field ∧ v ≠ v' := by
  obtain ⟨s0, s1, s2, s3, hr⟩ := row 48671 (by decide)
  have hcov : Covered cB := ⟨by decide +kernel, by decide +kernel, fun _ => by decide +kernel⟩
  have key : ∀ bit, BrainpoolAsked false cB (curveV (printedB 1 bit s3)) := by
    intro bit
    obtain ⟨w', hw'⟩ := runB 48671 1 bit leads1 s0 s1 s2 s3 hr
    obtain ⟨x, hx, hv⟩ := generated_complete pari pari_ok cB hcov 9 1 (worldB s0 bit) (fun _ => pickB_ok s0 bit _ hr.h0 cB) (printedB 1 bit s3)
      (by rw [generated_one _ _ _ _ _ hw']; exact List.mem_cons_self)
    exact (show rfc cB = false by decide +kernel) ▸ brainpool_asked cB (by decide +kernel) (by decide +kernel) x hx _ hv
  refine ⟨cB, _, _, key true, key false, rfl, rfl, fun h => ?_⟩
  have : ((curveV (printedB 1 true s3)).gens.map fun g => g.1.y) = (curveV (printedB 1 false s3)).gens.map fun g => g.1.y := by rw [h]
  exact absurd this (show ¬ ([1] : List Nat) = [6] by decide)

/-- **C79** is false: with the seed 48671 the program prints a curve with the seed 48674; with the seed 48674 it prints another curve -/
theorem printed_seed_false : ∃ (c : Config) (w w' : W) (v v' : Output.Curve), c.seedAlgo = .brainpool ∧ (∀ i, (w.tape i).Ok c) ∧ (∀ i, (w'.tape i).Ok c) ∧
    (∀ i, Brainpool.Seed160 (w.tape i).seed 48671) ∧ (one pari c 9 w).1 = some v ∧ (curveV v).seed = some 48674 ∧
    (∀ i, Brainpool.Seed160 (w'.tape i).seed 48674) ∧ (one pari c 9 w').1 = some v' ∧
    (curveV v).field = (curveV v').field ∧ (curveV v).a ≠ (curveV v').a := by
  obtain ⟨s0, s1, s2, s3, hr⟩ := row 48671 (by decide)
  obtain ⟨t0, t1, t2, t3, hr'⟩ := row 48674 (by decide)
  obtain ⟨w1, h1⟩ := runB 48671 1 true leads1 s0 s1 s2 s3 hr
  obtain ⟨w2, h2⟩ := runB 48674 2 true leads2 t0 t1 t2 t3 hr'
  refine ⟨cB, worldB s0 true, worldB t0 true, printedB 1 true s3, printedB 2 true t3, by decide +kernel, fun _ => pickB_ok s0 true _ hr.h0 cB, fun _ => pickB_ok t0 true _ hr'.h0 cB,
    fun _ => hr.h0, by rw [h1], ?_, fun _ => hr'.h0, by rw [h2], rfl, (show (1 : Nat) ≠ 2 by decide)⟩
  change some (seedV s3) = _
  rw [seedV_seed hr.h3]
  rfl

/-- **C79** is false: with the same seed the program prints two different base points, as a random bit chooses between the point of the least first
coordinate and its inverse -/
theorem base_point_false : ∃ (c : Config) (w w' : W) (v v' : Output.Curve), c.seedAlgo = .brainpool ∧ (∀ i, (w.tape i).Ok c) ∧ (∀ i, (w'.tape i).Ok c) ∧
    (∀ i, (w'.tape i).seed = (w.tape i).seed) ∧ (one pari c 9 w).1 = some v ∧ (one pari c 9 w').1 = some v' ∧
    (curveV v).seed = (curveV v').seed ∧ (curveV v).gens ≠ (curveV v').gens := by
  obtain ⟨s0, s1, s2, s3, hr⟩ := row 48671 (by decide)
  obtain ⟨w1, h1⟩ := runB 48671 1 true leads1 s0 s1 s2 s3 hr
  obtain ⟨w2, h2⟩ := runB 48671 1 false leads1 s0 s1 s2 s3 hr
  refine ⟨cB, worldB s0 true, worldB s0 false, printedB 1 true s3, printedB 1 false s3, by decide +kernel, fun _ => pickB_ok s0 true _ hr.h0 cB, fun _ => pickB_ok s0 false _ hr.h0 cB,
    fun _ => rfl, by rw [h1], by rw [h2], rfl, ?_⟩
  intro h
  have : ((curveV (printedB 1 true s3)).gens.map fun g => g.1.y) = (curveV (printedB 1 false s3)).gens.map fun g => g.1.y := by rw [h]
  exact absurd this (show ¬ ([1] : List Nat) = [6] by decide)

end Ecgen.Seeded
