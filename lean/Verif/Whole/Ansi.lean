import Verif.Whole.Examples
import Verif.Sha1.Eval
import Verif.Seeded.Pari

/-!
# Runs of `--ansi` (C102)

The curves that such a run prints can be verified from their seed. The run of `--fp --random --ansi=00…00 3` that finds `y² = x³ + 7x + 1` over the field of
five elements, and the runs that end in a null pointer.
-/

namespace Ecgen.Whole

open Output Output.Spec Cli

/-- **C102** From the command line to the bytes: when a run of `--ansi` ends with the status 0, each of the curves it has printed, in the numbers read back
from the text, has a seed, and its coefficients are those that X9.62 derives from a bit string of at least 160 bits with the value of this seed:
`r b² ≡ a³` over prime fields, `b` the number derived over binary ones. -/
theorem ansi_run_verifiable (malloc : Nat → List Parson.Byte) (hm : ∀ n, (malloc n).length = n) (P : Pari) (hP : P.Ok)
    (n : Int) (os : List Opt) (c : Config) (h : commandLine n os = some c) (hd : c.seedAlgo = .ansi)
    (fuel : Nat) (w : W) (hb : TapeOk c w.tape) (hstatus : (produce P c fuel w).2 = 0)
    (hs : ∀ v ∈ Json.generated (one P c fuel) (toSize c.count) w, ∀ j, Parson.outputJjson c.hexDigits v = .ok j →
      (Parson.render true 0 j).length ≤ 2147483646) :
    ∃ js : List Output.Json, (∀ j, Parson.Spec.Document (bytes malloc P c fuel w) (Parson.encode j) ↔ j = .arr js) ∧ js.length = toSize c.count ∧
      ∀ j ∈ js, ∃ v, readCurve j = some v ∧ Asked c v ∧
        ∃ S : List Bool, v.seed = some (Bits.ofBits S : Int) ∧ 160 ≤ S.length ∧ Related c.bits S v.field v.a v.b := by
  have hcov := covered n os c h (Or.inr hd) fun _ h' => by rw [hd] at h'; cases h'
  have hgen := generated_complete P hP c hcov w.tape fuel (toSize c.count) w ⟨rfl, hb⟩
  have hlen := (Json.generate_objects (one P c fuel) (toSize c.count) w).2.1 hstatus
  obtain ⟨js, h1, h2⟩ := Parson.output_reads malloc hm c.hexDigits (one P c fuel) (toSize c.count) w
    (fun v hv => by
      obtain ⟨x, hx, hv'⟩ := hgen v hv
      exact curve_printable c w.tape x hx v hv' (hs v hv)) hlen
  refine ⟨js, h1, ?_, fun j hj => ?_⟩
  · rw [← hlen, ← List.length_map (f := readCurve), h2, List.length_map]
  · have : readCurve j ∈ (Json.generated (one P c fuel) (toSize c.count) w).map fun v => some (curveV v) := by
      rw [← h2]; exact List.mem_map_of_mem hj
    obtain ⟨v, hv, e⟩ := List.mem_map.1 this
    obtain ⟨x, hx, hv'⟩ := hgen v hv
    refine ⟨curveV v, e.symm, curve_asked c hcov w.tape (coeffs_fine hb) x hx v hv', ?_⟩
    obtain ⟨i, k, f, a, b, e1, e2, e3, e4, e5⟩ := hx.derived (by omega) hd
    obtain ⟨f', e6, -, hf⟩ := hx.field (by omega)
    rw [e2] at e6; cases e6
    have hsd := (hb.picks k).ansiSeed hd
    have hgood := ansi_seed_good hsd
    have hrel := tape_related hb hd hf e5
    obtain ⟨E, -, ho, -⟩ := hx.order (by omega)
    obtain ⟨E, l, -, hl, -⟩ := hx.gens (by omega)
    simp only [outCurve, e2, e3, e4, ho, hl, Option.map_eq_some_iff] at hv'
    obtain ⟨gs, -, rfl⟩ := hv'
    refine ⟨(w.tape k).seed.val, ?_, hgood.2, ?_⟩
    · change x.seed.map seedV = _
      rw [e1, Option.map_some, seedV, if_neg (by rw [hgood.1.2.2.1]; decide)]
    · change Related c.bits _ (fieldV (out f.1)) _ _
      rw [fieldV_out]
      exact hrel

/-! ## A run -/

/-- the seed: forty zeros -/
def zeros : Bits.Bits := (Bits.fromHex (List.replicate 40 '0')).get (by decide +kernel)

theorem zeros_some : Bits.fromHex (List.replicate 40 '0') = some zeros := (Option.some_get _).symm

theorem zeros_seed : AnsiSeed zeros := Or.inr ⟨List.replicate 40 '0', by decide, by decide, by decide, zeros_some⟩

/-- the number derived from the seed for fields of three bits: 3 -/
theorem zeros_r : Bits.ofBits (Ansi.Spec.expandFp zeros.val 3) = 3 := by
  unfold Ansi.Spec.expandFp SeedSpec.H
  rw [Sha1.Eval.sha1_eq _ (by decide +kernel)]
  decide +kernel

/-- the field of five elements -/
def F5 : Fld := ⟨.prime 5, show Nat.Prime 5 by decide⟩

/-- arithmetic modulo 5 -/
def ops5 : FpOps where
  invsafe x := match x % 5 with
    | 0 => none
    | 1 => some 1
    | 2 => some 3
    | 3 => some 2
    | _ => some 4
  issquare x := decide (x % 5 = 0 ∨ x % 5 = 1 ∨ x % 5 = 4)
  sqrt x := match x % 5 with
    | 0 => 0
    | 1 => 1
    | _ => 2
  root4 x := match x % 5 with
    | 0 => some 0
    | 1 => some 1
    | _ => none

theorem residues5 (x : Int) : x % 5 = 0 ∨ x % 5 = 1 ∨ x % 5 = 2 ∨ x % 5 = 3 ∨ x % 5 = 4 := by omega

theorem pow_mod5 (y : Int) (n : Nat) : y ^ n % 5 = (y % 5) ^ n % 5 := (Int.ModEq.pow n (Int.mod_modEq y 5)).symm

theorem ops5_spec : FpSpec 5 ops5 := by
  have sq : ∀ y : Int, y ^ 2 % 5 = 0 ∨ y ^ 2 % 5 = 1 ∨ y ^ 2 % 5 = 4 := by
    intro y
    rw [pow_mod5]
    rcases residues5 y with h | h | h | h | h <;> rw [h] <;> decide
  have q4 : ∀ y : Int, y ^ 4 % 5 = 0 ∨ y ^ 4 % 5 = 1 := by
    intro y
    rw [pow_mod5]
    rcases residues5 y with h | h | h | h | h <;> rw [h] <;> decide
  constructor
  · intro x y h
    simp only [ops5] at h
    change x * y % 5 = 1 % 5
    rcases residues5 x with hx | hx | hx | hx | hx <;> rw [hx] at h <;> cases h <;> omega
  · intro x
    simp only [ops5]
    rw [show (((5 : Nat) : Int) ∣ x) ↔ x % 5 = 0 by omega]
    rcases residues5 x with hx | hx | hx | hx | hx <;> rw [hx] <;> decide
  · intro x
    simp only [ops5, decide_eq_true_eq]
    constructor
    · rintro (h | h | h)
      · exact ⟨0, by change _ % 5 = x % 5; rw [h]; decide⟩
      · exact ⟨1, by change _ % 5 = x % 5; rw [h]; decide⟩
      · exact ⟨2, by change _ % 5 = x % 5; rw [h]; decide⟩
    · rintro ⟨y, h⟩
      have h : y ^ 2 % 5 = x % 5 := h
      have := sq y
      omega
  · intro x h
    simp only [ops5, decide_eq_true_eq] at h ⊢
    rcases h with h | h | h <;> rw [h] <;> refine ⟨?_, by decide, by decide⟩ <;> change _ % 5 = x % 5 <;> rw [h] <;> decide
  · intro x y h
    simp only [ops5] at h
    change y ^ 4 % 5 = x % 5
    rcases residues5 x with hx | hx | hx | hx | hx <;> rw [hx] at h <;> cases h <;> rw [hx] <;> decide
  · intro x
    simp only [ops5]
    have : (∃ y : Int, y ^ 4 ≡ x [ZMOD 5]) ↔ x % 5 = 0 ∨ x % 5 = 1 := by
      constructor
      · rintro ⟨y, h⟩
        have h : y ^ 4 % 5 = x % 5 := h
        have := q4 y
        omega
      · rintro (h | h)
        · exact ⟨0, by change _ % 5 = x % 5; rw [h]; decide⟩
        · exact ⟨1, by change _ % 5 = x % 5; rw [h]; decide⟩
    change _ ↔ ¬ ∃ y : Int, y ^ 4 ≡ x [ZMOD 5]
    rw [this]
    rcases residues5 x with hx | hx | hx | hx | hx <;> rw [hx] <;> decide

/-- with 7 drawn for `a`, the coefficients found are 7 and 1 -/
theorem zeros_call : AnsiCall 3 F5 zeros (.coeffs (.int 7) (.int 1)) := by
  have hg := (ansi_seed_good zeros_seed).1
  obtain ⟨sd, h1, -⟩ := Ansi.mkSeed_spec zeros hg 3
  refine ⟨0, sd, h1, ops5, fun _ => 7, 1, ops5_spec, fun _ => ⟨show 2 ^ (3 - 1) ≤ 7 by decide, show 7 ≤ 2 ^ 3 by decide⟩, ?_⟩
  have : Ansi.genEquationFp 0 ops5 (fun _ => 7) 1 sd = some (some (3, 7, 1)) := by
    unfold Ansi.genEquationFp
    rw [Ansi.derivedR_spec 0 zeros hg 3 (by decide) sd h1, zeros_r]
    decide +kernel
  rw [this]
  rfl

/-- the curve object: `y² = x³ + 7x + 1` -/
def Ea : Crv := ⟨F5, .int 7, .int 1⟩

instance : Fact (Nat.Prime 5) := ⟨by decide⟩

theorem Ea_elliptic : (Invalid.primeCurve (2 : ZMod 5) 1).IsElliptic := Cm.Construct.elliptic (K := ZMod 5) (by decide) 2 1 (by decide)

theorem Ea_eqn : Ea.eqn = Invalid.primeCurve (2 : ZMod 5) 1 := rfl

theorem Ea_delta : Ea.eqn.Δ ≠ 0 := by
  have := Ea_elliptic
  rw [WeierstrassCurve.isElliptic_iff, isUnit_iff_ne_zero] at this
  exact this

theorem Ea_card : Nat.card Ea.Pt = 7 := by
  have : Nat.card (Invalid.primeCurve (2 : ZMod 5) 1).Point = 7 := by
    rw [Cm.Construct.natCard_point (by decide) 2 1 (by decide)]
    decide +kernel
  exact this

theorem Ea_nonsingular : Ea.eqn.Nonsingular (elem F5 0) (elem F5 1) := by
  have : (Invalid.primeCurve (2 : ZMod 5) 1).Nonsingular ((0 : Nat) : ZMod 5) ((1 : Nat) : ZMod 5) := by
    have := Ea_elliptic
    rw [← WeierstrassCurve.Affine.equation_iff_nonsingular, Cm.Construct.equation_prime]
    decide
  exact this

/-- the point (0, 1) -/
noncomputable def Ga : Ea.Pt := .some _ _ Ea_nonsingular

theorem Ga_ne : Ga ≠ 0 := WeierstrassCurve.Affine.Point.some_ne_zero _

theorem Ga_order : addOrderOf Ga = 7 := by
  have hd : addOrderOf Ga ∣ 7 := Ea_card ▸ addOrderOf_dvd_natCard Ga
  rcases (Nat.dvd_prime (by decide : Nat.Prime 7)).1 hd with h | h
  · exact absurd (AddMonoid.addOrderOf_eq_one_iff.1 h) Ga_ne
  · exact h

theorem Ga_gens : Group.GensSpec Ea.Pt [Ga] := ⟨Ga_ne, fun _ => mem_zmultiples_of_prime_card Ea_card Ga_ne⟩

/-- `--fp --random --ansi=00…00 3` -/
def ca : Config := (commandLine 4 [.fp, .random none, .ansi (some (List.replicate 40 '0')), .arg "3".toList]).get (by decide +kernel)

theorem ca_some : commandLine 4 [.fp, .random none, .ansi (some (List.replicate 40 '0')), .arg "3".toList] = some ca := (Option.some_get _).symm

/-- every call: no failures, the field, the seed and the coefficients -/
noncomputable def pickA : Pick := { always Ea 1 [Ga] 1 with seed := zeros, ansi := fun _ _ => .coeffs (.int 7) (.int 1) }

theorem pickA_tape : TapeOk ca fun _ => pickA := by
  have hc : ca.seedAlgo = .ansi := by decide +kernel
  have hn : ¬ (ca.koblitz = true ∧ ca.seedAlgo = .none) := by decide +kernel
  have hb : ca.bits = 3 := by decide +kernel
  have hg : ∀ E : Crv, ComesField (fun _ => pickA) E.field → ComesA ca (fun _ => pickA) E.field E.a → ComesB ca (fun _ => pickA) E.field E.b → E = Ea := by
    intro E h1 h2 h3
    rw [ComesA, if_neg hn, if_neg (by rw [hc]; decide)] at h2
    rw [ComesB, if_neg hn, if_neg (by rw [hc]; decide)] at h3
    obtain ⟨-, -, _, h2⟩ := h2
    obtain ⟨-, -, _, h3⟩ := h3
    have hF : E.field = F5 := by obtain ⟨_, h1 | h1⟩ := h1 <;> exact h1
    obtain ⟨f, a, b⟩ := E
    simp only [pickA, Derived.coeffs.injEq] at h2 h3 hF
    obtain ⟨rfl, -⟩ := h2
    obtain ⟨-, rfl⟩ := h3
    subst hF
    rfl
  refine ⟨fun _ => ⟨fun x h => (nomatch h), fun s d h => (nomatch h), ?_, ?_, ?_, fun f => always_elt Ea 1 (by decide) [Ga] 1 f, fun _ => zeros_seed,
    fun n i h => h, fun o i j h => ⟨Nat.le_refl 1, ?_⟩, ⟨fun x h => (nomatch h), List.nodup_nil⟩, fun d h => (nomatch h)⟩, fun _ _ _ f hf => ?_,
    fun _ _ _ _ _ _ => Or.inl rfl, fun _ E h1 h2 h3 _ => ?_⟩
  · exact ⟨(ansi_seed_good zeros_seed).1.1, by change zeros.bitlen ≠ 0; decide +kernel⟩
  · exact ⟨by decide +kernel, fun _ _ => by decide +kernel, by decide +kernel⟩
  · exact ⟨by decide +kernel, fun h => absurd (Nat.zero_and 2) h, by decide +kernel⟩
  · change 1 ≤ o - 1
    omega
  · have hF : f = F5 := by obtain ⟨_, h1 | h1⟩ := hf <;> exact h1
    subst hF
    rw [hb]
    exact zeros_call
  · obtain rfl := hg E h1 h2 h3
    simp only [pickA, always, dif_pos]
    exact Ga_gens

/-- the curve at the beginning of each stage -/
noncomputable def courseA : Nat → Cur
  | 0 => {}
  | 1 => { seed := some zeros }
  | 2 => { seed := some zeros, field := some F5 }
  | 3 => { seed := some zeros, field := some F5 }
  | 4 => { seed := some zeros, field := some F5, a := some (.int 7), b := some (.int 1) }
  | 5 => { seed := some zeros, field := some F5, a := some (.int 7), b := some (.int 1), crv := some Ea }
  | 6 => { seed := some zeros, field := some F5, a := some (.int 7), b := some (.int 1), crv := some Ea, order := some 7 }
  | 7 => { seed := some zeros, field := some F5, a := some (.int 7), b := some (.int 1), crv := some Ea, order := some 7,
           gens := some ⟨Ea, [⟨⟨Ga, 7, 1⟩, []⟩]⟩ }
  | _ => { seed := some zeros, field := some F5, a := some (.int 7), b := some (.int 1), crv := some Ea, order := some 7,
           gens := some ⟨Ea, [⟨⟨Ga, 7, 1⟩, [some ⟨Ga, 7, 0⟩]⟩]⟩ }

theorem courseA_act (s : Nat) (hs : s < 9) : act pari ca pickA s (courseA s) = some (courseA (s + 1), 1) := by
  match s, hs with
  | 0, _ =>
    have : (exhaustiveSetup ca).gens.seed = some .ansiSeedArgument := by decide +kernel
    simp only [act, stageOf, this, Option.bind_some, id, call, courseA, pickA]
  | 1, _ =>
    have : (exhaustiveSetup ca).gens.field = some .fieldRandom := by decide +kernel
    simp only [act, stageOf, this, Option.bind_some, id, call, courseA, pickA, always]
    rfl
  | 2, _ =>
    have : (exhaustiveSetup ca).gens.a = some .skip := by decide +kernel
    simp only [act, stageOf, this, Option.bind_some, id, call, courseA]
  | 3, _ =>
    have : (exhaustiveSetup ca).gens.b = some .ansiEquation := by decide +kernel
    simp only [act, stageOf, this, Option.bind_some, id, call, courseA, pickA, derived]
  | 4, _ =>
    have : (exhaustiveSetup ca).gens.curve = some .curveAny := by decide +kernel
    simp only [act, stageOf, this, Option.bind_some, id, call, courseA]
    rfl
  | 5, _ =>
    have : (exhaustiveSetup ca).gens.order = some .orderAny := by decide +kernel
    simp only [act, stageOf, this, Option.bind_some, id, call, courseA, orderStage, pari, Ea_card]
  | 6, _ =>
    have : (exhaustiveSetup ca).gens.gens = some .gensAny := by decide +kernel
    simp only [act, stageOf, this, Option.bind_some, id, call, courseA, gensStage, pickA, always, dif_pos, found, Group.gensAny, List.map_cons, List.map_nil,
      Group.gensPoint, bare, pari, Ga_order]
  | 7, _ =>
    have : (exhaustiveSetup ca).gens.points = some .pointsPrime := by decide +kernel
    have h5 : Subgroup.primes pari.isprime pari.fac 7 = [7] := by
      have : pari.isprime 7 = true := (pari_ok.isprime 7).2 (by decide)
      simp [Subgroup.primes, this]
    simp only [act, stageOf, this, Option.bind_some, id, call, call.withPoints, courseA, pointsStage, if_true, Option.map_some, Group.pointsPrime,
      List.map_cons, List.map_nil, h5, Group.fromOrders, Group.fromOrder]
  | 8, _ =>
    have : (exhaustiveSetup ca).gens.metadata = some .skip := by decide +kernel
    simp only [act, stageOf, this, Option.bind_some, id, call, courseA]

/-- what is printed -/
def printedA : Output.Curve :=
  ⟨some zeros, .prime 5, .int 7, .int 1, 7, [⟨⟨.intmod 0 5, .intmod 1 5, 7, some 1⟩, [⟨.intmod 0 5, .intmod 1 5, 7, none⟩]⟩], []⟩

theorem courseA_printed : outCurve (courseA 9) = some printedA := by
  have h0 : num F5 (elem F5 0) = 0 := num_elem F5 0 (by decide)
  have h1 : num F5 (elem F5 1) = 1 := num_elem F5 1 (by decide)
  have hp : ∀ k n m, outPoint Ea k ⟨Ga, n, m⟩ = some ⟨.intmod 0 5, .intmod 1 5, n, k⟩ := by
    intro k n m
    change (match ielement (out F5.1) (num F5 (elem F5 0)), ielement (out F5.1) (num F5 (elem F5 1)) with
      | some x, some y => some (Output.Point.mk x y n k)
      | _, _ => none) = _
    rw [h0, h1]
    rfl
  simp only [courseA, outCurve, List.map_cons, List.map_nil, outSub, hp, Option.bind_some, allSome, Option.map_some]
  rfl

theorem relatedA : Related 3 zeros.val (.prime 5) 7 1 := by
  refine ⟨by decide, by decide, ?_⟩
  simp only
  rw [zeros_r]
  decide

/-- **C102, met**, and **that the coefficients printed are below the size of the field is false for `--ansi`** (C75): the run of
`ecgen --fp --random --ansi=00…00 3` that ends with the status 0 and prints 7 for the first coefficient of a curve over the field of five elements -/
theorem ansi_unreduced_false : ∃ (os : List Opt) (c : Config) (w : W), commandLine 4 os = some c ∧ c.seedAlgo = .ansi ∧ TapeOk c w.tape ∧ w.ub = false ∧
    (produce pari c 9 w).2 = 0 ∧
    (∀ v ∈ Json.generated (one pari c 9) (toSize c.count) w, ∀ j, Parson.outputJjson c.hexDigits v = .ok j →
      (Parson.render true 0 j).length ≤ 2147483646) ∧
    ∃ v ∈ Json.generated (one pari c 9) (toSize c.count) w, (curveV v).field = .prime 5 ∧ (curveV v).a = 7 ∧ (curveV v).b = 1 ∧
      Related c.bits zeros.val (curveV v).field (curveV v).a (curveV v).b ∧ ¬ (curveV v).a < fieldSize (curveV v).field := by
  have hcount : toSize ca.count = 1 := by decide +kernel
  have hbits : ca.bits = 3 := by decide +kernel
  obtain ⟨st, -, -, hw'⟩ := straight pari ca (by decide +kernel) (by decide +kernel) pickA rfl (fun _ => rfl)
    courseA rfl courseA_act ⟨Ea, rfl, Ea_delta⟩ ⟨{}, fun _ => pickA, 0, false⟩ rfl
  rw [courseA_printed] at hw'
  have hgen := generated_one _ _ _ _ _ hw'
  refine ⟨_, ca, ⟨{}, fun _ => pickA, 0, false⟩, ca_some, by decide +kernel, pickA_tape, rfl, ?_, ?_, ?_⟩
  · rw [produce, (Json.generate_objects _ _ _).2, hcount, hgen]
    rfl
  · rw [hcount, hgen]
    intro v hv
    rw [List.mem_singleton] at hv
    subst hv
    exact short_spec (by decide +kernel)
  · rw [hcount, hgen]
    refine ⟨_, List.mem_singleton.2 rfl, rfl, rfl, rfl, ?_, by decide⟩
    rw [hbits]
    exact relatedA

/-! ## Null pointers -/

/-- over prime fields of one bit, every call ends in a null pointer: the number derived from the seed is zero -/
theorem one_bit_crash {f : Fld} {p : Nat} (hf : f.1 = .prime p) {s : Bits.Bits} (hs : AnsiSeed s) {d : Derived} (h : AnsiCall 1 f s d) : d = .crash := by
  have hg := (ansi_seed_good hs).1
  obtain ⟨junk, sd, hsd, h⟩ := h
  rw [hf] at h
  obtain ⟨F, draws, fuel, hF, -, h⟩ := h
  have h0 : Bits.ofBits (Ansi.Spec.expandFp s.val 1) = 0 := by
    have := (Ansi.expansion_size s.val 1 (Nat.le_refl 1)).2.2
    omega
  rw [(Ansi.crash_iff_dvd junk p F hF draws fuel s hg 1 (Nat.le_refl 1) sd hsd).2 (by rw [h0]; exact Nat.dvd_zero p)] at h
  exact h

/-- **C102**: a run of `--fp --ansi` with one bit prints no curve -/
theorem ansi_one_bit_nothing (P : Pari) (hP : P.Ok) (n : Int) (os : List Opt) (c : Config) (h : commandLine n os = some c) (hd : c.seedAlgo = .ansi)
    (hf : c.field = FIELD_PRIME) (hb : c.bits = 1) (fuel count : Nat) (w : W) (hT : TapeOk c w.tape) : Json.generated (one P c fuel) count w = [] := by
  have hcov := covered n os c h (Or.inr hd) fun _ h' => by rw [hd] at h'; cases h'
  have hgen := generated_complete P hP c hcov w.tape fuel count w ⟨rfl, hT⟩
  cases hg : Json.generated (one P c fuel) count w with
  | nil => rfl
  | cons v l =>
    obtain ⟨x, hx, -⟩ := hgen v (by rw [hg]; exact List.mem_cons_self)
    obtain ⟨i, k, f, a, b, -, e2, -, -, e5⟩ := hx.derived (by omega) hd
    obtain ⟨f', e6, hfa, hcf⟩ := hx.field (by omega)
    rw [e2] at e6; cases e6
    have hcall := hT.ansi hd i k f hcf
    rw [e5, hb] at hcall
    cases hp : f.1 with
    | prime p => cases one_bit_crash hp ((hT.picks k).ansiSeed hd) hcall
    | binary m e1 e2 e3 =>
      rw [hp] at hfa
      have := hfa.1
      rw [hf] at this
      cases this

/-- `--fp --ansi=00…00 3` -/
def cb : Config := (commandLine 3 [.fp, .ansi (some (List.replicate 40 '0')), .arg "3".toList]).get (by decide +kernel)

theorem cb_some : commandLine 3 [.fp, .ansi (some (List.replicate 40 '0')), .arg "3".toList] = some cb := (Option.some_get _).symm

/-- every call: the field of three elements, the seed, and the null pointer -/
noncomputable def pickB : Pick := { always E3 2 [] 1 with seed := zeros }

theorem pickB_tape : TapeOk cb fun _ => pickB := by
  have hc : cb.seedAlgo = .ansi := by decide +kernel
  have hn : ¬ (cb.koblitz = true ∧ cb.seedAlgo = .none) := by decide +kernel
  have hb : cb.bits = 3 := by decide +kernel
  have hno : ∀ f e, ¬ ComesA cb (fun _ => pickB) f e := by
    intro f e h
    rw [ComesA, if_neg hn, if_neg (by rw [hc]; decide)] at h
    obtain ⟨-, -, _, h⟩ := h
    cases h
  have hf : ∀ c : Config, c.field = 1 → c.random = 0 → 3 ≤ 2 ^ c.bits → FieldAsked c (.prime 3) := fun c h1 h2 h3 =>
    ⟨h1, fun h => absurd (by rw [h2]; exact Nat.zero_and 2) h, h3⟩
  refine ⟨fun _ => ⟨fun x h => (nomatch h), fun s d h => (nomatch h), ?_, ?_, ?_, fun f => always_elt E3 2 (by decide) [] 1 f, fun _ => zeros_seed,
    fun n i h => h, fun o i j h => ⟨Nat.le_refl 1, ?_⟩, ⟨fun x h => (nomatch h), List.nodup_nil⟩, fun d h => (nomatch h)⟩, fun _ _ _ f hF => ?_,
    fun _ _ _ h => absurd h (hno _ _), fun _ _ _ h => absurd h (hno _ _)⟩
  · exact ⟨(ansi_seed_good zeros_seed).1.1, by change zeros.bitlen ≠ 0; decide +kernel⟩
  · exact hf cb (by decide +kernel) (by decide +kernel) (by decide +kernel)
  · exact hf _ (by decide +kernel) rfl (by decide +kernel)
  · change 1 ≤ o - 1
    omega
  · have hF : f = F3 := by obtain ⟨_, h1 | h1⟩ := hF <;> exact h1
    subst hF
    rw [hb]
    have hg := (ansi_seed_good zeros_seed).1
    obtain ⟨sd, h1, -⟩ := Ansi.mkSeed_spec zeros hg 3
    obtain ⟨F, hF⟩ := Seeded.fp_exists 3 (by decide)
    refine ⟨0, sd, h1, F, fun _ => 7, 1, hF, fun _ => ⟨show 2 ^ (3 - 1) ≤ 7 by decide, show 7 ≤ 2 ^ 3 by decide⟩, ?_⟩
    rw [(Ansi.crash_iff_dvd 0 3 F hF _ 1 zeros hg 3 (by decide) sd h1).2 (by rw [zeros_r])]
    rfl

/-- the curve at the beginning of the first stages -/
def courseB : Nat → Cur
  | 0 => {}
  | 1 => { seed := some zeros }
  | _ => { seed := some zeros, field := some F3 }

theorem courseB_act (s : Nat) (hs : s < 3) : act pari cb pickB s (courseB s) = some (courseB (s + 1), 1) := by
  match s, hs with
  | 0, _ =>
    have : (exhaustiveSetup cb).gens.seed = some .ansiSeedArgument := by decide +kernel
    simp only [act, stageOf, this, Option.bind_some, id, call, courseB, pickB]
  | 1, _ =>
    have : (exhaustiveSetup cb).gens.field = some .fieldInput := by decide +kernel
    simp only [act, stageOf, this, Option.bind_some, id, call, courseB, pickB, always]
    rfl
  | 2, _ =>
    have : (exhaustiveSetup cb).gens.a = some .skip := by decide +kernel
    simp only [act, stageOf, this, Option.bind_some, id, call, courseB]

theorem courseB_undefined : act pari cb pickB 3 (courseB 3) = none := by
  have : (exhaustiveSetup cb).gens.b = some .ansiEquation := by decide +kernel
  simp only [act, stageOf, this, Option.bind_some, id, call, courseB, pickB, always, derived]

/-- **C76, without the condition on the number derived from the seed, is false**: with `--fp --ansi=00…00 3` and the prime 3 typed, the inverse of 3 modulo 3
is asked for and the null pointer is used -/
theorem ansi_crash_false : ∃ (os : List Opt) (c : Config) (w : W) (st st' : Engine.St W), commandLine 3 os = some c ∧ c.seedAlgo = .ansi ∧
    c.pointsType = .prime ∧ TapeOk c w.tape ∧ w.ub = false ∧ Engine.Reaches (setup pari c) 0 9 0 (Engine.init 0 { w with cur := {} }) st ∧ st.state < 9 ∧
    Engine.step (setup pari c) 0 0 st = .inr st' ∧ st'.w.ub = true := by
  have hw : ∀ w : W, w = ⟨{}, fun _ => pickB, 0, false⟩ → ∃ st, Engine.Reaches (setup pari cb) 0 9 0 (Engine.init 0 { w with cur := {} }) st ∧ st.state = 3 ∧
      st.w = ({ w with cur := courseB 3, pos := 3 } : W) := by
    rintro w rfl
    exact reach_straight (setup pari cb) (fun s => (⟨courseB s, fun _ => pickB, s, false⟩ : W)) 3 (by omega)
      fun s hs => succeeds_act pari cb (by decide +kernel) (by decide +kernel) pickB rfl (fun _ => rfl) s _ _ (courseB_act s hs)
        (fun h => by omega) ⟨{}, fun _ => pickB, 0, false⟩ rfl s
  obtain ⟨st, h1, h2, h3⟩ := hw _ rfl
  have hg : (setup pari cb).gen 3 st.w = ({ st.w.next with ub := true }, .ret Engine.INT_MIN) :=
    gen_undefined pari cb pickB rfl 3 rfl st.w (by rw [h3]; rfl) (by rw [h3]; exact courseB_undefined)
  have hstep : ∃ st', Engine.step (setup pari cb) 0 0 st = .inr st' ∧ st'.w.ub = true := by
    have he : Engine.execStage (setup pari cb) 0 st.state st.w st.log =
        ({ st.w.next with ub := true }, Engine.INT_MIN, Engine.Ev.gen 3 (.ret Engine.INT_MIN) :: st.log) := by
      rw [h2]
      unfold Engine.execStage
      rw [hg]
      rfl
    unfold Engine.step
    rw [he]
    simp only
    rw [if_pos (by decide), if_pos (Or.inl trivial)]
    exact ⟨_, rfl, rfl⟩
  obtain ⟨st', h4, h5⟩ := hstep
  exact ⟨_, cb, _, st, st', cb_some, by decide +kernel, by decide +kernel, pickB_tape, rfl, h1, by omega, h4, h5⟩

end Ecgen.Whole
