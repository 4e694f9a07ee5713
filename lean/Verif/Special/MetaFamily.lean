import Verif.Special.MetaRun
import Verif.PrimeCert

/-!
# C113: the metadata of pairing-friendly curves

The order of a curve of `--family` is the one of its family, so trace and fundamental discriminant are known beforehand, and the embedding degree is a multiple of the
family's. Cited: Hasse's bound for the number of points of the printed curve.
-/

namespace Ecgen.Special

open Whole Output Output.Spec Cli
open Seeded (Fp curveOf)
open Engine (Reaches)

/-! ### Specification -/

/-- the trace of the member of a family with the parameter `z`: Barreto and Naehrig; Barreto, Lynn and Scott; Kachisa, Schaefer and Scott -/
def TraceOf : Cli.Family → (z t : Int) → Prop
  | .bn, z, t => t = 6 * z ^ 2 + 1
  | .bls12, z, t => t = z + 1
  | .bls24, z, t => t = z + 1
  | .kss16, z, t => ∃ x, x = 70 * z + 25 ∧ 35 * t = 2 * x ^ 5 + 41 * x + 35
  | .kss18, z, t => ∃ x, x = 42 * z + 14 ∧ 7 * t = x ^ 4 + 16 * x + 7
  | .kss36, z, t => ∃ x, x = 777 * z + 287 ∧ 259 * t = 2 * x ^ 7 + 757 * x + 259
  | .kss40, z, t => ∃ x, x = 2370 * z + 1205 ∧ 1185 * t = 2 * x ^ 11 + 6469 * x + 1185

/-- the fundamental discriminant of a family: the curves have `j = 0` or, for two families, `j = 1728` -/
def fundamental : Cli.Family → Int
  | .kss16 | .kss40 => -4
  | _ => -3

/-! ### Lemmas -/

theorem trace_of (f : Cli.Family) (z t : Int) (h : Family.trace (fam f) (Family.nz (fam f) z) = t) : TraceOf f z t := by
  cases f
  all_goals simp only [fam, Family.trace, Family.nz] at h
  all_goals simp only [TraceOf]
  · exact_mod_cast h.symm
  · exact_mod_cast h.symm
  · exact_mod_cast h.symm
  all_goals
    refine ⟨_, rfl, ?_⟩
    rw [← @Int.cast_inj ℚ]
    push_cast
    rw [← h]
    ring

/-- a fundamental discriminant that is `-1` up to squares -/
theorem fundamental_one (D g m : Int) (hD : Fundamental D) (hm : m ≠ 0) (h : D * g ^ 2 = -m ^ 2) : D = -4 := by
  have hg : g ≠ 0 := by
    rintro rfl
    exact hm (pow_eq_zero_iff (n := 2) (by decide) |>.1 (by linarith))
  obtain ⟨l, hl⟩ : g ∣ m := (Int.pow_dvd_pow_iff (n := 2) (by decide)).1 ⟨-D, by linarith⟩
  have h3 : D = -l ^ 2 := by
    have : D * g ^ 2 = (-l ^ 2) * g ^ 2 := by rw [h, hl]; ring
    exact mul_right_cancel₀ (pow_ne_zero 2 hg) this
  rcases hD with ⟨d1, d2⟩ | ⟨n, rfl, d1, d2⟩
  · have hl := d2 l ⟨-1, by rw [h3]; ring⟩
    have : l ^ 2 = 1 := by rcases Int.isUnit_iff.1 hl with rfl | rfl <;> rfl
    omega
  · have hl2 : (2 : Int) ∣ l := Int.prime_two.dvd_of_dvd_pow (n := 2) ⟨-2 * n, by linarith⟩
    obtain ⟨k, rfl⟩ := hl2
    have h4 : n = -k ^ 2 := by linarith
    have hl := d2 k ⟨-1, by rw [h4]; ring⟩
    have : k ^ 2 = 1 := by rcases Int.isUnit_iff.1 hl with rfl | rfl <;> rfl
    omega

/-- the fundamental discriminant of a family -/
theorem fundamental_family (f : Cli.Family) (D g m : Int) (hD : Fundamental D) (hm : m ≠ 0) (h : D * g ^ 2 = Family.dStore (fam f) * m ^ 2) : D = fundamental f := by
  have h3 : D * g ^ 2 = -(3 : Nat) * m ^ 2 → D = -3 := fun e => fundamental_prime 3 Nat.prime_three (by decide) D g m hD hm e
  have h4 : D * g ^ 2 = -4 * m ^ 2 → D = -4 := fun e => fundamental_one D g (2 * m) hD (by omega) (by rw [e]; ring)
  cases f
  · exact h3 h
  · exact h3 h
  · exact h3 h
  · exact h4 h
  · exact h3 h
  · exact h3 h
  · exact h4 h

/-- no curve `y² = x³ + b` over the field of 19 elements has a multiple of 13 points other than 13 -/
theorem order19 : ∀ b : ZMod 19, b ≠ 0 → 13 ∣ Count.card (0 : ZMod 19) b → Count.card (0 : ZMod 19) b = 13 := by decide +kernel

theorem p37 : Nat.Prime 37 := by norm_num

instance fact37 : Fact (Nat.Prime 37) := ⟨p37⟩

/-- no curve `y² = x³ + b` over the field of 37 elements has a multiple of 13 points other than 39 -/
theorem order37 : ∀ b : ZMod 37, b ≠ 0 → 13 ∣ Count.card (0 : ZMod 37) b → Count.card (0 : ZMod 37) b = 39 := by decide +kernel

/-- the orders of the two members for which Hasse's bound leaves a choice -/
theorem small_order (f : Cli.Family) (z : Int) (p r b : Nat) (hp : p.Prime) (hm : Member f z p r) (h : (f = .bn ∧ z = -1) ∨ (f = .bls12 ∧ z = -2))
    (hd : (obj p hp 0 b).eqn.Δ ≠ 0) (hr : r ∣ Nat.card (obj p hp 0 b).Pt) (t : Int) (ht : TraceOf f z t) :
    (Nat.card (obj p hp 0 b).Pt : Int) = p + 1 - t := by
  have hc := (card_obj p hp 0 b hd).2
  rw [hc] at hr ⊢
  have hb : haveI : Fact p.Prime := ⟨hp⟩; ((b : Nat) : ZMod p) ≠ 0 := by
    intro h0
    exact hd ((disc_iff p hp 0 b).2 (by rw [h0]; simp))
  rcases h with ⟨rfl, rfl⟩ | ⟨rfl, rfl⟩
  · simp only [Member, TraceOf] at hm ht
    have e1 : p = 19 := by norm_num at hm; omega
    have e2 : r = 13 := by norm_num at hm; omega
    subst e1 e2
    have := order19 _ hb (by simpa using hr)
    rw [ht]
    simp only [Nat.cast_zero] at this ⊢
    rw [this]
    norm_num
  · simp only [Member, TraceOf] at hm ht
    have e2 : r = 13 := by norm_num at hm; omega
    subst e2
    have e1 : p = 37 := by norm_num at hm; omega
    subst e1
    have := order37 _ hb (by simpa using hr)
    rw [ht]
    simp only [Nat.cast_zero] at this ⊢
    rw [this]
    norm_num

theorem curveOf_obj (p : Nat) (hp : p.Prime) (a b : Nat) (ha : a < p) (hb : b < p) :
    (obj p hp a b).eqn = curveOf p hp a b := by
  change curveOf p hp (a % p) (b % p) = _
  rw [Nat.mod_eq_of_lt ha, Nat.mod_eq_of_lt hb]

theorem card_curveOf (p : Nat) (hp : p.Prime) (a b : Nat) (ha : a < p) (hb : b < p) : Nat.card (curveOf p hp a b).Point = Nat.card (obj p hp a b).Pt := by
  change _ = Nat.card (obj p hp a b).eqn.Point
  rw [← curveOf_obj p hp a b ha hb]

theorem delta_curveOf (p : Nat) (hp : p.Prime) (a b : Nat) (ha : a < p) (hb : b < p) (h : (curveOf p hp a b).Δ ≠ 0) : (obj p hp a b).eqn.Δ ≠ 0 := by
  rw [← curveOf_obj p hp a b ha hb] at h
  exact h

/-- **C113, the order**: a curve of `--family` has the number of points of its family -/
theorem family_points {P : Pari} {c : Config} {T : Nat → Pick} (hP : P.toPari.Ok) (hm : c.method = METHOD_FAMILY) (x : St) (hi : Inv P c T 9 x) (v : Output.Curve)
    (h : outCurve x.cur = some v) (hh : ∀ p, (curveV v).field = .prime p → ((p : Int) + 1 - (curveV v).order) ^ 2 ≤ 4 * p) :
    ∃ (z t s : Int) (p r : Nat), (curveV v).seed = some z ∧ (curveV v).field = .prime p ∧ p.Prime ∧ r.Prime ∧ Member c.family z p r ∧ TraceOf c.family z t ∧
      ((curveV v).order : Int) = p + 1 - t ∧ r ∣ (curveV v).order ∧ t ^ 2 - 4 * p = Family.dStore (fam c.family) * s ^ 2 ∧
      orderOf ((p : Nat) : ZMod r) = degree c.family := by
  obtain ⟨h1, p, hp, h2, h3, h4, h5, h6, -⟩ := curve_sound x hi v h
  obtain ⟨i, e1, e2⟩ := h3.family hm
  obtain ⟨j, sd, s1, s2, s3⟩ := hi.seed (by omega) hm
  obtain ⟨z, z1, r, z2, z3⟩ := h5 hm
  rw [e1] at s1 z1
  have ez : (T j).z = (T i).z := by simpa using s1.symm
  cases z1
  rw [ez] at s3
  rw [s2, Option.map_some, seed_value _ _ s3] at h1
  have hI := isprimeI_spec P hP
  obtain ⟨g1, -⟩ := (Family.genField_some P.isprimeI hI _ _ _).1 e2
  obtain ⟨r', f1, f2, f3⟩ := Family.family_embedding P.isprimeI hI _ _ _ e2
  have er : r' = r := by rw [z2] at f1; exact_mod_cast f1.symm
  subst er
  rw [Int.cast_natCast, fam_degree] at f3
  obtain ⟨r2, t, -, k2, -, -, k3⟩ := Family.family_identities P.isprimeI hI _ _ _ e2
  obtain ⟨s, k4⟩ := k3.cm
  have hmem : Member c.family (T i).z p r' := member_of _ _ _ _ g1 (by rw [z2]; norm_cast)
  have ht := trace_of _ _ _ k2
  refine ⟨(T i).z, t, s, p, r', h1, h2.1, hp, f2, hmem, ht, ?_, z3, by linarith, f3⟩
  by_cases hex : (c.family = .bn ∧ (T i).z = -1) ∨ (c.family = .bls12 ∧ (T i).z = -2)
  · have ha : (curveV v).a = 0 := h6 hm (by rcases hex with h | h <;> simp [h.1]) (by rcases hex with h | h <;> simp [h.1])
    obtain ⟨-, -, hb, hd, ho, -⟩ := h2
    rw [ha] at hd ho
    rw [card_curveOf p hp 0 _ hp.pos hb] at ho
    rw [ho] at z3 ⊢
    exact small_order c.family _ p r' _ hp hmem hex (delta_curveOf p hp 0 _ hp.pos hb hd) z3 t ht
  · have hgo : Family.genOrder (fam c.family) (T i).z ((curveV v).order : Int) = some ((curveV v).order : Int) := by
      have : Family.rz (fam c.family) (Family.nz (fam c.family) (T i).z) = (((r' : Nat) : Int) : ℚ) := by rw [z2]; norm_cast
      unfold Family.genOrder
      rw [this, Family.asInt_cast]
      exact if_pos (by exact_mod_cast z3)
    obtain ⟨t', k5, k6⟩ := Family.family_order P.isprimeI hI _ _ _ _ _ e2 hgo (hh p h2.1)
      (fun hx => hex (Or.inl ⟨by cases hf : c.family <;> simp [hf, fam] at hx ⊢, hx.2⟩))
      (fun hx => hex (Or.inr ⟨by cases hf : c.family <;> simp [hf, fam] at hx ⊢, hx.2⟩))
    have : t' = t := by rw [k2] at k5; exact_mod_cast k5.symm
    rw [k6, this]

/-- **C113** the metadata of a curve that a search of `--family` finds: trace and fundamental discriminant are those of the family, the embedding degree is a multiple of
the family's, 12 for BN curves -/
theorem family_meta_one {T : Nat → Pick} (P : Pari) (hP : P.toPari.Ok) (n : Int) (os : List Opt) (c : Config) (h : commandLine n os = some c) (ha : c.method = METHOD_FAMILY)
    (hm : c.metadata = true) (zn : Nat → Nat → Nat) (hz : Order.ZnSpec zn) (core2 : Int → Int × Int) (hc : Meta.CorediscSpec core2) (hT : TapeOk P c T) (w : W)
    (hw : Behaves T w) (hr : MetaRight P c zn core2 w) (fuel : Nat) (v : Output.Curve) (w' : W) (h1 : one P c fuel w = (some v, w'))
    (hh : ∀ p, (curveV v).field = .prime p → ((p : Int) + 1 - v.order) ^ 2 ≤ 4 * p) :
    ∃ (z t : Int) (p r k : Nat), (curveV v).seed = some z ∧ (curveV v).field = .prime p ∧ p.Prime ∧ r.Prime ∧ Member c.family z p r ∧ TraceOf c.family z t ∧
      (v.order : Int) = p + 1 - t ∧ Degree p v.order k ∧ degree c.family ∣ k ∧ (c.family = .bn → k = 12) ∧ Listed p k t (fundamental c.family) v.info := by
  have hcov := covered n os c h (Or.inr (Or.inr ha))
  have hC : Cited P c T := ⟨fun h => absurd (ha ▸ h) (by decide), fun h => absurd (ha ▸ h) (by decide)⟩
  obtain ⟨x, hi, hv, f, e1, e2⟩ := meta_one P hP c hcov hT hC hm zn hz core2 hc w hw hr fuel v w' h1
  obtain ⟨z, t, s, p, r, s1, s2, hp, hrp, s3, s4, s5, s6, s7, s8⟩ := family_points hP ha x hi v hv hh
  have s5' : (v.order : Int) = p + 1 - t := s5
  have s6' : r ∣ v.order := s6
  have ef : f.1 = .prime p := by
    have : fieldV (out f.1) = .prime p := by rw [← e1]; exact s2
    rw [fieldV_out] at this
    exact this
  obtain ⟨f, hf⟩ := f
  change f = .prime p at ef
  subst ef
  obtain ⟨j, d, ⟨j1, j2, -⟩, e3⟩ := e2
  have hrp' : ¬ r ∣ p := by
    intro hd
    have h0 : ((p : Nat) : ZMod r) = 0 := (ZMod.natCast_eq_zero_iff _ _).2 hd
    have hdeg : 0 < degree c.family := by cases c.family <;> decide
    have : Fact r.Prime := ⟨hrp⟩
    have := pow_orderOf_eq_one ((p : Nat) : ZMod r)
    rw [s8, h0, zero_pow hdeg.ne'] at this
    exact zero_ne_one this
  obtain ⟨k, D, g, k1, k2, k3, k4⟩ := e3 (by
    intro e
    rw [e] at s6'
    have h2 : r = 2 := (Nat.prime_dvd_prime_iff_eq hrp Nat.prime_two).1 (((hrp.dvd_mul).1 s6').resolve_right hrp')
    subst h2
    have h3 : ((p : Nat) : ZMod 2) = 1 := by
      rw [show p = 2 * (p / 2) + 1 by omega]
      push_cast
      rw [show (2 : ZMod 2) = 0 from rfl, zero_mul, zero_add]
    rw [h3, orderOf_one] at s8
    revert s8
    cases c.family <;> decide)
  have et : (p : Int) + 1 - v.order = t := by omega
  rw [et] at k3 k4
  have hs : s ≠ 0 := by
    rintro rfl
    have h4 : t ^ 2 = 4 * p := by linarith
    obtain ⟨u, rfl⟩ : (2 : Int) ∣ t := Int.prime_two.dvd_of_dvd_pow (n := 2) ⟨2 * p, by linarith⟩
    refine Irreducible.not_isSquare hp ⟨u.natAbs, ?_⟩
    have : (p : Int) = u * u := by linarith
    rw [← Int.natAbs_mul, ← this, Int.natAbs_natCast]
  obtain rfl := fundamental_family c.family D g s k2 hs (by rw [k3, s7])
  have hk : degree c.family ∣ k := by
    rw [← s8]
    apply orderOf_dvd_of_pow_eq_one
    rcases k1 with ⟨q1, -⟩ | ⟨-, q1, -⟩
    · exact absurd (q1 ▸ s6') hrp'
    · have := (ZMod.natCast_eq_zero_iff _ _).2 (s6'.trans q1)
      rw [Nat.cast_sub (Nat.one_le_pow _ _ hp.pos), Nat.cast_pow, Nat.cast_one, sub_eq_zero] at this
      exact this
  refine ⟨z, t, p, r, k, s1, s2, hp, hrp, s3, s4, s5', k1, hk, fun hbn => ?_, j, d, g, j1, j2, k3, k4⟩
  rw [hbn] at hk s3 s4 s8
  simp only [Member, TraceOf] at s3 s4
  have er : v.order = r := by omega
  rw [er] at k1
  obtain ⟨d1, d2⟩ := embedding p r _ hp.pos s8
  rcases k1 with ⟨q1, -⟩ | ⟨q0, q1, q2⟩
  · exact absurd (q1 ▸ dvd_refl _) hrp'
  · by_contra hne
    have := Nat.le_of_dvd q0 hk
    exact q2 12 (by decide) (by change 12 ≤ k at this; omega) d1

/-- **C113** every curve printed by `--family --metadata` comes with the trace, the fundamental discriminant and the embedding degree of its family -/
theorem family_meta_run (P : Pari) (hP : P.toPari.Ok) (n : Int) (os : List Opt) (c : Config) (h : commandLine n os = some c) (ha : c.method = METHOD_FAMILY)
    (hm : c.metadata = true) (zn : Nat → Nat → Nat) (hz : Order.ZnSpec zn) (core2 : Int → Int × Int) (hc : Meta.CorediscSpec core2) (fuel : Nat) (w : W)
    (hT : TapeOk P c w.tape) (hr : ∀ w', Begins P c fuel w w' → MetaRight P c zn core2 w') :
    ∀ v ∈ Json.objects (produce P c fuel w).1, (∀ p, (curveV v).field = .prime p → ((p : Int) + 1 - v.order) ^ 2 ≤ 4 * p) →
      ∃ (z t : Int) (p r k : Nat), (curveV v).seed = some z ∧ (curveV v).field = .prime p ∧ p.Prime ∧ r.Prime ∧ Member c.family z p r ∧ TraceOf c.family z t ∧
        (v.order : Int) = p + 1 - t ∧ Degree p v.order k ∧ degree c.family ∣ k ∧ (c.family = .bn → k = 12) ∧ Listed p k t (fundamental c.family) v.info := by
  have hC : Cited P c w.tape := ⟨fun h => absurd (ha ▸ h) (by decide), fun h => absurd (ha ▸ h) (by decide)⟩
  exact run_each P hP c (covered n os c h (Or.inr (Or.inr ha))) hT hC fuel w rfl _ fun w' hb ht v w'' ho hh =>
    family_meta_one P hP n os c h ha hm zn hz core2 hc hT w' ht (hr w' hb) fuel v w'' ho hh

/-! ### The embedding degree of the curves of Barreto, Lynn and Scott -/

theorem pow_linear (x : Int) (k : Nat) : x ^ 2 ∣ (x + 1) ^ k - (1 + k * x) := by
  induction k with
  | zero => simp
  | succ k ih =>
    obtain ⟨q, hq⟩ := ih
    refine ⟨q * (x + 1) + k, ?_⟩
    have : (x + 1) ^ k = x ^ 2 * q + (1 + k * x) := by linarith
    rw [pow_succ, this]
    push_cast
    ring

/-- **C113, BLS curves**: the embedding degree of the whole group, which is what is printed, is a multiple of a third of `z - 1` -/
theorem bls_degree (f : Cli.Family) (hf : f = .bls12 ∨ f = .bls24) (z t : Int) (p r n k : Nat) (hp : p.Prime) (hm : Member f z p r) (ht : TraceOf f z t)
    (hn : (n : Int) = p + 1 - t) (hk : Degree p n k) : z % 3 = 1 ∧ (z - 1) / 3 ∣ k := by
  have hm' : 3 * (p : Int) = (z - 1) ^ 2 * r + 3 * z ∧ (r : Int) % 3 = 1 := by
    have hz : z % 3 = 0 ∨ z % 3 = 1 ∨ z % 3 = 2 := by omega
    rcases hf with rfl | rfl
    · refine ⟨hm.1, ?_⟩
      rw [hm.2]
      rcases hz with h | h | h <;> simp [Int.add_emod, Int.sub_emod, pow_succ, Int.mul_emod, h]
    · refine ⟨hm.1, ?_⟩
      rw [hm.2]
      rcases hz with h | h | h <;> simp [Int.add_emod, Int.sub_emod, pow_succ, Int.mul_emod, h]
  have ht' : t = z + 1 := by rcases hf with rfl | rfl <;> exact ht
  obtain ⟨h1, h2⟩ := hm'
  have h3 : (3 : Int) ∣ z - 1 := by
    have : (3 : Int) ∣ (z - 1) ^ 2 * r := ⟨p - z, by linarith⟩
    rcases Int.prime_three.dvd_or_dvd this with h | h
    · exact Int.prime_three.dvd_of_dvd_pow h
    · omega
  obtain ⟨w, hw⟩ := h3
  have hz : z = 3 * w + 1 := by linarith
  refine ⟨by omega, ?_⟩
  rw [show (z - 1) / 3 = w by omega]
  have hpw : (p : Int) = 3 * w ^ 2 * r + (3 * w + 1) := by rw [hz] at h1; nlinarith
  have hnw : (n : Int) = 3 * w ^ 2 * r := by rw [hn, ht', hpw, hz]; ring
  have hw0 : w ≠ 0 := by
    rintro rfl
    have : (p : Int) = 1 := by rw [hpw]; ring
    exact hp.one_lt.ne' (by exact_mod_cast this)
  rcases hk with ⟨-, rfl, -⟩ | ⟨-, hk, -⟩
  · exact dvd_zero _
  · have h4 : (n : Int) ∣ (p : Int) ^ k - 1 := by
      have := Int.natCast_dvd_natCast.2 hk
      rwa [Nat.cast_sub (Nat.one_le_pow _ _ hp.pos), Nat.cast_pow, Nat.cast_one] at this
    have h5 : 3 * w ^ 2 ∣ (p : Int) ^ k - 1 := (Dvd.intro _ hnw.symm).trans h4
    have h6 : 3 * w ^ 2 ∣ (p : Int) ^ k - (3 * w + 1) ^ k := (Dvd.intro (r : Int) (by rw [hpw]; ring)).trans (sub_dvd_pow_sub_pow _ _ k)
    have h7 : 3 * w ^ 2 ∣ (3 * w + 1) ^ k - (1 + k * (3 * w)) := (Dvd.intro 3 (by ring)).trans (pow_linear (3 * w) k)
    have h8 : 3 * w ^ 2 ∣ (3 * w) * k := by
      have := dvd_sub (dvd_sub h5 h6) h7
      rwa [show (p : Int) ^ k - 1 - ((p : Int) ^ k - (3 * w + 1) ^ k) - ((3 * w + 1) ^ k - (1 + k * (3 * w))) = (3 * w) * k by ring] at this
    rw [show 3 * w ^ 2 = (3 * w) * w by ring] at h8
    exact Int.dvd_of_mul_dvd_mul_left (by omega) h8

theorem prime38 : Nat.Prime 1056432313 := by
  refine prime_of_cert _ 10 31 3 [2, 3, 13, 1128667] (by norm_num) (by norm_num) (by decide +kernel) ?_ (by decide +kernel)
  intro q hq
  simp only [List.mem_cons, List.not_mem_nil, or_false] at hq
  rcases hq with rfl | rfl | rfl | rfl
  all_goals exact ⟨by norm_num, by decide +kernel⟩

/-- so it need not be 12: with the seed -38 the field has 1056432313 elements, and the embedding degree printed is a multiple of 13 (and of 12) -/
theorem bls_degree_not_twelve : Nat.Prime 1056432313 ∧ Nat.Prime 2083693 ∧ Member .bls12 (-38) (1056432313 : Nat) (2083693 : Nat) ∧ TraceOf .bls12 (-38) (-37) ∧
    ∀ k, Degree 1056432313 1056432351 k → 13 ∣ k ∧ k ≠ 12 := by
  have hp := prime38
  have hm : Member .bls12 (-38) (1056432313 : Nat) (2083693 : Nat) := ⟨by norm_num, by norm_num⟩
  have ht : TraceOf .bls12 (-38) (-37) := show (-37 : Int) = -38 + 1 by norm_num
  refine ⟨hp, by norm_num, hm, ht, fun k hk => ?_⟩
  obtain ⟨c, h⟩ := (bls_degree .bls12 (Or.inl rfl) (-38) (-37) _ _ _ k hp hm ht (by norm_num) hk).2
  norm_num at h
  omega

/-! ### The hypotheses can be met -/

/-- PARI's functions, with the values needed here filled in -/
theorem functionsB : ∃ zn core2, Order.ZnSpec zn ∧ Meta.CorediscSpec core2 ∧ zn 19 13 = 12 ∧ core2 (-27) = (-3, 3) := by
  obtain ⟨zn, hz⟩ := Order.zn_inhabited
  obtain ⟨core2, hc⟩ := coredisc_inhabited
  refine ⟨zn, fun x => if x = -27 then (-3, 3) else core2 x, hz, ?_, ?_, by simp⟩
  · intro x h0 h4
    by_cases h : x = -27
    · subst h
      refine ⟨show (-27 : Int) = -3 * 3 ^ 2 by decide, Or.inl ⟨show (-3 : Int) % 4 = 1 by decide, ?_⟩⟩
      exact Irreducible.squarefree (Prime.irreducible (Int.prime_iff_natAbs_prime.2 Nat.prime_three))
    · simp only [if_neg h]
      exact hc x h0 h4
  · obtain ⟨z1, z2, z3⟩ := hz 19 13 (by decide) (by decide)
    have : ∀ k : Fin 12, 0 < k.1 → ¬ 13 ∣ 19 ^ k.1 - 1 := by decide +kernel
    rcases Nat.lt_trichotomy (zn 19 13) 12 with h | h | h
    · exact absurd z2 (this ⟨_, h⟩ z1)
    · exact h
    · exact absurd (by decide +kernel) (z3 12 (by decide) h)

/-- the metadata of `y² = x³ + 2` over the field of 19 elements -/
def infoB : List (String × Text) := [("j", "0".toList), ("discriminant", "1".toList), ("embedding_degree", "12".toList), ("frobenius", "7".toList),
  ("cm_discriminant", "-3".toList), ("conductor", "3".toList)]

theorem metaTextB (zn : Nat → Nat → Nat) (core2 : Int → Int × Int) (h1 : zn 19 13 = 12) (h2 : core2 (-27) = (-3, 3)) : metaText zn core2 (EF 2) 13 = some infoB := by
  have hE := eqn_obj 19 p19 0 2
  have hd : (EF 2).eqn.Δ = elem (Fp 19 p19) 1 := by
    have : (Invalid.primeCurve ((0 : Nat) : ZMod 19) ((2 : Nat) : ZMod 19)).Δ = ((1 : Nat) : ZMod 19) := by
      simp only [WeierstrassCurve.Δ, WeierstrassCurve.b₂, WeierstrassCurve.b₄, WeierstrassCurve.b₆, WeierstrassCurve.b₈, Invalid.primeCurve]
      decide +kernel
    exact (congrArg WeierstrassCurve.Δ hE).trans this
  have hc : (EF 2).eqn.c₄ = elem (Fp 19 p19) 0 := by
    have : (Invalid.primeCurve ((0 : Nat) : ZMod 19) ((2 : Nat) : ZMod 19)).c₄ = ((0 : Nat) : ZMod 19) := by
      simp only [WeierstrassCurve.c₄, WeierstrassCurve.b₂, WeierstrassCurve.b₄, Invalid.primeCurve]
      decide +kernel
    exact (congrArg WeierstrassCurve.c₄ hE).trans this
  have hj : (EF 2).eqn.c₄ ^ 3 / (EF 2).eqn.Δ = elem (Fp 19 p19) 0 := by
    rw [div_eq_iff (EF_delta 2 (Or.inr rfl)), hc, hd]
    have : ((0 : Nat) : ZMod 19) ^ 3 = ((0 : Nat) : ZMod 19) * ((1 : Nat) : ZMod 19) := by decide +kernel
    exact this
  have hn : ∀ m, m < 19 → num (Fp 19 p19) (elem (Fp 19 p19) m) = m := fun m hm => num_elem (Fp 19 p19) m hm
  have hg : Meta.genPrime zn core2 19 13 = some ⟨some 12, 7, some (-3), some 3⟩ := by
    have : Meta.embedding? zn 19 13 = some 12 := by unfold Meta.embedding?; rw [if_neg (by decide), if_pos (by decide), h1]
    unfold Meta.genPrime
    rw [this]
    simp only [show (((19 : Nat) : Int) + 1 - (13 : Nat)) ^ 2 - ((19 : Nat) : Int) * 4 = -27 by decide, h2]
    rfl
  have e : metaText zn core2 (EF 2) 13 = (Meta.genPrime zn core2 19 13).map (texts (num (Fp 19 p19) ((EF 2).eqn.c₄ ^ 3 / (EF 2).eqn.Δ)) (num (Fp 19 p19) (EF 2).eqn.Δ)) := rfl
  rw [e, hg, hj, hd, hn 0 (by decide), hn 1 (by decide)]
  exact congrArg some (by decide +kernel)

/-- `--fp --family=bn --metadata --points=none 5` -/
def cB : Config := (commandLine 5 [.fp, .family "bn".toList, .metadata, .points "none".toList, .arg "5".toList]).get (by decide +kernel)

theorem cB_some : commandLine 5 [.fp, .family "bn".toList, .metadata, .points "none".toList, .arg "5".toList] = some cB := (Option.some_get _).symm

theorem cB_method : cB.method = METHOD_FAMILY := by decide +kernel

theorem cB_covered : Covered cB := covered _ _ _ cB_some (Or.inr (Or.inr cB_method))

theorem cB_family : fam cB.family = .BN := by decide +kernel

noncomputable def pickB : Pick := { pickF with info := infoB }

theorem drawnB (q : Nat) (h : Drawn pari cB (fun _ => pickB) q) : q = 19 := by
  obtain ⟨i, e⟩ := h.2.2 cB_method
  rw [cB_family, show pickB.z = -1 from rfl, fieldF] at e
  have : (19 : Int) = q := Option.some.inj e
  omega

theorem tapeB : TapeOk pari cB fun _ => pickB where
  picks _ := { pick_behaves cB (Fp 19 p19) (-1) 0 1 (fun h => absurd (cB_method ▸ h) (by decide)) (fun h => absurd (cB_method ▸ h) (by decide)) with
    info := by decide +kernel }
  gens i q hq a b h1 h2 h3 := by
    have e := drawnB q h1
    subst e
    obtain ⟨j, -, r, e1, e2⟩ := h3.2.2 cB_method
    rw [cB_family, show pickB.z = -1 from rfl, rF] at e1
    have e3 : (13 : Nat) = r := by exact_mod_cast e1
    subst e3
    have hle := card_le hq a b h2
    have hpos : 0 < Nat.card (obj 19 hq a b).Pt := Nat.card_pos
    obtain ⟨k, hk⟩ := e2
    have hk3 : k = 1 ∨ k = 2 ∨ k = 3 := by omega
    have hcyc : ∃ g : (obj 19 hq a b).Pt, addOrderOf g = Nat.card (obj 19 hq a b).Pt :=
      cyclic_two 13 k p13 (by rcases hk3 with rfl | rfl | rfl <;> [exact Or.inr rfl; exact Or.inl Nat.prime_two; exact Or.inl Nat.prime_three]) (by omega) hk
    obtain ⟨g, e1, e2, -⟩ := gensOf_spec (obj 19 hq a b) hcyc (by omega)
    change Group.GensSpec _ (gensOf _)
    rw [e1]
    exact e2

/-- the states of the run: the first equation is given up -/
noncomputable def courseB (sd : Bits.Bits) (g : (EF 2).Pt) : Nat → Nat × St
  | 0 => (0, {})
  | 1 => (1, { cur := { seed := some sd }, z := some (-1) })
  | 2 => (2, stF sd none none none)
  | 3 => (3, stF sd none none none)
  | 4 => (4, stF sd (some 1) none none)
  | 5 => (5, stF sd (some 1) (some (EF 1)) none)
  | 6 => (3, stF sd (some 1) none none)
  | 7 => (4, stF sd (some 2) none none)
  | 8 => (5, stF sd (some 2) (some (EF 2)) none)
  | 9 => (6, stF sd (some 2) (some (EF 2)) (some 13))
  | i => (i - 3, let x := stF sd (some 2) (some (EF 2)) (some 13)
    { x with cur := { x.cur with gens := some ⟨EF 2, [⟨⟨g, addOrderOf g, 13 / addOrderOf g⟩, []⟩]⟩, info := if i = 12 then infoB else [] } })

theorem courseB_move (sd : Bits.Bits) (hsd : Bits.fromI (-1) = some sd) (g : (EF 2).Pt) (hg : gensOf (EF 2) = [g]) : ∀ i, i < 12 → (courseB sd g i).1 < 9 ∧
    Move (setup pari cB) ((courseB sd g i).1, world pickB (courseB sd g i).2 i) ((courseB sd g (i + 1)).1, world pickB (courseB sd g (i + 1)).2 (i + 1)) := by
  obtain ⟨-, t0, t1, t3, t5⟩ : _ := ((table cB cB_covered).resolve_left (fun h => absurd (cB_method ▸ h.1) (by decide))).resolve_left
    (fun h => absurd (cB_method ▸ h.1) (by decide))
  rw [if_neg (by decide +kernel)] at t0 t3
  obtain ⟨t2, t4, -⟩ := table_common cB cB_covered
  obtain ⟨-, -, t6, t7, -, t8⟩ := table_common cB cB_covered
  have acc : ∀ s x, (s = 4 → ∃ E, x.cur.crv = some E ∧ E.eqn.Δ ≠ 0) → ∀ k ∈ checksOf cB s, k ≠ .hexParam ∧ verdict x k = some 1 :=
    fun s x h k hk => accepted cB cB_covered (by decide +kernel) s x h k hk
  have hz : pickB.z = -1 := rfl
  have hc1 : pari.card (EF 1) = 12 := (pari_ok.card _ (EF_delta 1 (Or.inl rfl))).trans EF_card1
  have hc2 : pari.card (EF 2) = 13 := (pari_ok.card _ (EF_delta 2 (Or.inr rfl))).trans EF_card2
  intro i hi
  match i, hi with
  | 0, _ =>
    refine ⟨(by decide : 0 < 9), move_ok pari cB _ rfl (fun _ => rfl) 0 _ _ ?_ (acc 0 _ (nomatch ·)) 0⟩
    simp only [act, stageOf, t0, Option.bind_some, id, call, hz, hsd, Option.map_some, courseB]
  | 1, _ =>
    refine ⟨(by decide : 1 < 9), move_ok pari cB _ rfl (fun _ => rfl) 1 _ _ ?_ (acc 1 _ (nomatch ·)) 1⟩
    simp only [act, stageOf, t1, Option.bind_some, id, call, courseB, familyField, cB_family, fieldF, show Int.toNat 19 = 19 from rfl, setPrime_spec _ _ p19]
    rfl
  | 2, _ =>
    refine ⟨(by decide : 2 < 9), move_ok pari cB _ rfl (fun _ => rfl) 2 _ _ ?_ (acc 2 _ (nomatch ·)) 2⟩
    simp only [act, stageOf, t2, Option.bind_some, id, call, Whole.call, Option.map_some, courseB]
  | 3, _ =>
    refine ⟨(by decide : 3 < 9), move_ok pari cB _ rfl (fun _ => rfl) 3 _ _ ?_ (acc 3 _ (nomatch ·)) 3⟩
    simp only [act, stageOf, t3, Option.bind_some, id, call]
    rw [withPrime_spec (hq := p19) rfl]
    rfl
  | 4, _ =>
    refine ⟨(by decide : 4 < 9), move_ok pari cB _ rfl (fun _ => rfl) 4 _ _ ?_ (acc 4 _ fun _ => ⟨_, rfl, EF_delta 1 (Or.inl rfl)⟩) 4⟩
    simp only [act, stageOf, t4, Option.bind_some, id, call, Whole.call, Option.map_some, courseB]
    rfl
  | 5, _ =>
    refine ⟨(by decide : 5 < 9), move_back pari cB _ rfl (fun _ => rfl) 5 3 (-2) _ (courseB sd g 5).2 _ ?_ (by decide) (by decide) (by decide) 5 ?_⟩
    · simp only [act, stageOf, t5, Option.bind_some, id, call, courseB, Option.map_some, familyOrder, hc1, cB_family, orderF]
      rw [if_neg (by decide)]
    · rfl
  | 6, _ =>
    refine ⟨(by decide : 3 < 9), move_ok pari cB _ rfl (fun _ => rfl) 3 _ _ ?_ (acc 3 _ (nomatch ·)) 6⟩
    simp only [act, stageOf, t3, Option.bind_some, id, call]
    rw [withPrime_spec (hq := p19) rfl]
    rfl
  | 7, _ =>
    refine ⟨(by decide : 4 < 9), move_ok pari cB _ rfl (fun _ => rfl) 4 _ _ ?_ (acc 4 _ fun _ => ⟨_, rfl, EF_delta 2 (Or.inr rfl)⟩) 7⟩
    simp only [act, stageOf, t4, Option.bind_some, id, call, Whole.call, Option.map_some, courseB]
    rfl
  | 8, _ =>
    refine ⟨(by decide : 5 < 9), move_ok pari cB _ rfl (fun _ => rfl) 5 _ _ ?_ (acc 5 _ (nomatch ·)) 8⟩
    simp only [act, stageOf, t5, Option.bind_some, id, call, courseB, Option.map_some, familyOrder, hc2, cB_family, orderF]
    rfl
  | 9, _ =>
    have hu : (view cB).unique = false := by decide +kernel
    rw [hu] at t6
    have hpg : pickB.gens = gensOf := rfl
    have hE : (courseB sd g 9).2.cur.crv = some (EF 2) := rfl
    have ho : (courseB sd g 9).2.cur.order = some 13 := rfl
    refine ⟨(by decide : 6 < 9), move_ok pari cB _ rfl (fun _ => rfl) 6 _ _ ?_ (acc 6 _ (nomatch ·)) 9⟩
    simp only [Bool.false_eq_true, if_false, act, stageOf, t6, Option.bind_some, id, call, Whole.call, hE, ho, gensStage, Option.map_some, hpg, hg,
      found, Group.gensOne, Group.gensAny, List.map_cons, List.map_nil, Group.gensPoint, bare]
    rfl
  | 10, _ =>
    have hc : pointsChoice cB = .skip := by decide +kernel
    rw [hc] at t7
    refine ⟨(by decide : 7 < 9), move_ok pari cB _ rfl (fun _ => rfl) 7 _ _ ?_ (acc 7 _ (nomatch ·)) 10⟩
    simp only [act, stageOf, t7, Option.bind_some, id, call, Whole.call, Option.map_some]
    rfl
  | 11, _ =>
    have hm : cB.metadata = true := by decide +kernel
    rw [hm, if_pos rfl] at t8
    refine ⟨(by decide : 8 < 9), move_ok pari cB _ rfl (fun _ => rfl) 8 _ _ ?_ (acc 8 _ (nomatch ·)) 11⟩
    simp only [act, stageOf, t8, Option.bind_some, id, call, Whole.call, Option.map_some]
    rfl

/-- **C113, met**: a search of `ecgen --fp --family=bn --metadata --points=none 5` with the parameter -1 finds `y² = x³ + 2` over the field of 19 elements with its metadata -/
theorem family_meta_met : ∃ (os : List Opt) (c : Config) (w w' : W) (zn : Nat → Nat → Nat) (core2 : Int → Int × Int) (v : Output.Curve), commandLine 5 os = some c ∧
    c.method = METHOD_FAMILY ∧ c.metadata = true ∧ Order.ZnSpec zn ∧ Meta.CorediscSpec core2 ∧ TapeOk pari c w.tape ∧ MetaRight pari c zn core2 w ∧
    one pari c 12 w = (some v, w') ∧ (curveV v).field = .prime 19 ∧ v.order = 13 ∧ v.info = infoB ∧ ((19 : Int) + 1 - v.order) ^ 2 ≤ 4 * 19 := by
  obtain ⟨zn, core2, hz, hc, h1, h2⟩ := functionsB
  obtain ⟨g, hg, -, ho⟩ := gensOf_spec (EF 2) (cyclic_two 13 1 p13 (Or.inr rfl) (by decide) (by rw [EF_card2])) (by rw [EF_card2]; decide)
  obtain ⟨sd, hsd⟩ := seedF
  have hmove := courseB_move sd hsd g hg
  obtain ⟨u, v, -, -, -, hout⟩ := out_printed { (courseB sd g 12).2.cur with info := [] } 19 p19 0 2 13 g (by decide) (by rw [ho, EF_card2]) rfl rfl rfl rfl rfl rfl
  have hp : outCurve (courseB sd g 12).2.cur = some { printed (some sd) 19 0 2 13 u v with info := infoB } := by
    have := outCurve_info { (courseB sd g 12).2.cur with info := [] } infoB
    rw [hout] at this
    exact this
  obtain ⟨st, l1, l2⟩ := loop_chain (setup pari cB) 12 (fun i => ((courseB sd g i).1, world pickB (courseB sd g i).2 i)) hmove rfl (Engine.init 0 (world pickB {} 0)) rfl rfl
  have hgen : Engine.gen (setup pari cB) 0 9 12 (fresh (world pickB {} 0)) = some (1, st) := by
    unfold Engine.gen Engine.genRetry
    rw [if_neg (by decide), if_neg (by decide)]
    exact l1
  have hone : one pari cB 12 (world pickB {} 0) = (outCurve (courseB sd g 12).2.cur, world pickB (courseB sd g 12).2 12) := by
    simp only [one, hgen]
    rw [if_neg (by decide), l2]
    rfl
  rw [hp] at hone
  refine ⟨_, cB, world pickB {} 0, _, zn, core2, _, cB_some, cB_method, by decide +kernel, hz, hc, tapeB, ?_, hone, rfl, rfl, rfl, show ((19 : Int) + 1 - (13 : Nat)) ^ 2 ≤ 4 * 19 by decide⟩
  intro st hst h8 _ _ E n hE hn t hm
  obtain ⟨i, hi, e1, e2⟩ := reaches_chain (setup pari cB) 12 (fun i => ((courseB sd g i).1, world pickB (courseB sd g i).2 i)) hmove rfl _ st rfl rfl hst
  dsimp only at e1 e2
  have h11 : i = 11 := by
    have e := e1.symm.trans h8
    rcases Nat.lt_or_ge i 10 with h | h
    · exfalso
      revert e
      interval_cases i <;> (intro e; exact absurd e (by simp [courseB]))
    · obtain rfl | rfl | rfl : i = 10 ∨ i = 11 ∨ i = 12 := by omega
      · exact absurd e (by simp [courseB])
      · rfl
      · exact absurd e (by simp [courseB])
  subst h11
  rw [e2] at hE hn ⊢
  obtain rfl : EF 2 = E := Option.some.inj hE
  obtain rfl : 13 = n := Option.some.inj hn
  exact Option.some.inj ((metaTextB zn core2 h1 h2).symm.trans hm)

end Ecgen.Special
