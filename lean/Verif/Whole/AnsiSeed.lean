import Verif.Whole.Ansi
import Verif.Whole.KoblitzEnds

/-!
# The first seed of a search by `--ansi` is its last (C103)

Failures of the later stages send the search back to the field, never to the seed. If no curve that belongs to the first seed will do, the search goes on for ever.
-/

namespace Ecgen.Whole

open Output Output.Spec Cli
open Engine (St Reaches)

/-- no stage but the first writes the seed -/
theorem call_seed (P : Pari) (bits : Nat) (p : Pick) (arg : Option Arg) (x x' : Cur) (d : Int) (g : Gen)
    (hg : g ≠ .ansiSeedArgument ∧ g ≠ .ansiSeedRandom ∧ g ≠ .ansiSeedInput) (h : call P bits p arg x g = some (x', d)) : x'.seed = x.seed := by
  have hfil : ∀ (y : Cur) (n : Option Nat), (filtered y n).1.seed = y.seed := by rintro y (_ | n) <;> rfl
  have hfnd : ∀ (y : Cur) (E : Crv) (l : Option (List (Group.Pt E.Pt))), (found y E l).1.seed = y.seed := by rintro y E (_ | n) <;> rfl
  have hord : ∀ g E y e, orderStage P bits p E arg x g = some (y, e) → y.seed = x.seed := by
    intro g E y e h
    cases g <;> simp only [orderStage, reduceCtorEq, Option.some.injEq, Option.map_eq_some_iff] at h
    · cases h; rfl
    · have e := congrArg Prod.fst h; dsimp only at e; rw [← e]; exact hfil _ _
    · obtain ⟨k, -, h⟩ := h; have e := congrArg Prod.fst h; dsimp only at e; rw [← e]; exact hfil _ _
    · obtain ⟨k, -, h⟩ := h; have e := congrArg Prod.fst h; dsimp only at e; rw [← e]; exact hfil _ _
    · split at h
      · cases h; rfl
      · cases h
  have hgen : ∀ g E n y e, gensStage P p E n arg x g = some (y, e) → y.seed = x.seed := by
    intro g E n y e h
    cases g <;> simp only [gensStage, reduceCtorEq, Option.some.injEq, Option.map_eq_some_iff] at h
    · have e := congrArg Prod.fst h; dsimp only at e; rw [← e]; exact hfnd _ _ _
    · have e := congrArg Prod.fst h; dsimp only at e; rw [← e]; exact hfnd _ _ _
    · obtain ⟨k, -, h⟩ := h; have e := congrArg Prod.fst h; dsimp only at e; rw [← e]; exact hfnd _ _ _
  have hpts : ∀ g y e, call.withPoints P p arg x g = some (y, e) → y.seed = x.seed := by
    intro g y e h
    unfold call.withPoints at h
    split at h
    · split at h
      · obtain ⟨l, -, h⟩ := Option.map_eq_some_iff.1 h
        cases h; rfl
      · cases h
    · cases h
  cases g <;> simp only [call, reduceCtorEq, Option.some.injEq, Option.map_eq_some_iff, Option.bind_eq_some_iff] at h
  case ansiSeedArgument => exact absurd rfl hg.1
  case ansiSeedRandom => exact absurd rfl hg.2.1
  case ansiSeedInput => exact absurd rfl hg.2.2
  case ansiEquation =>
    obtain ⟨s, -, f, -, h⟩ := h
    revert h
    cases p.ansi f s <;> intro h <;> cases h <;> rfl
  case curveAny =>
    split at h
    · cases h; rfl
    · cases h
  all_goals first
    | (cases h; rfl)
    | (obtain ⟨f, -, h⟩ := h; cases h; rfl)
    | (obtain ⟨E, -, h⟩ := h; exact hord _ _ _ _ h)
    | (obtain ⟨E, -, n, -, h⟩ := h; exact hgen _ _ _ _ _ h)
    | exact hpts _ _ _ h

/-- the generators of the later stages -/
theorem later_stages (c : Config) (hc : Covered c) (s : Nat) (hs : 1 ≤ s) (g : Gen) (h : (stageOf (exhaustiveSetup c).gens s).bind id = some g) :
    g ≠ .ansiSeedArgument ∧ g ≠ .ansiSeedRandom ∧ g ≠ .ansiSeedInput := by
  unfold stageOf at h
  split at h
  · omega
  · rw [table_field c hc] at h
    cases h
    cases has c.random RANDOM_FIELD <;> decide
  · rcases table_a c hc with ⟨-, -, ⟨-, e⟩ | ⟨-, e⟩⟩ | ⟨-, -, e | e⟩ | ⟨-, e⟩ <;> rw [e] at h <;> cases h <;> decide
  · rcases table_b c hc with ⟨-, -, e⟩ | ⟨-, -, e⟩ | ⟨-, e⟩
    · rw [e] at h; cases h; decide
    · rcases e with e | e <;> rw [e] at h <;> cases h <;> decide
    · rw [e] at h; cases h; decide
  · rw [table_curve c hc] at h
    cases h
    decide
  · rcases table_order c hc with ⟨-, e⟩ | ⟨-, -, e⟩ | ⟨-, -, -, e⟩ | ⟨-, -, -, ⟨-, -, e⟩ | e⟩ <;> rw [e] at h <;> cases h <;> decide
  · rcases table_gens c hc with ⟨-, e⟩ | ⟨-, -, e⟩ | ⟨-, -, e⟩ <;> rw [e] at h <;> cases h <;> decide
  · have e : (exhaustiveSetup c).gens.points = some (pointsChoice c) := rfl
    rw [e] at h
    cases h
    unfold pointsChoice
    split
    · split <;> decide
    all_goals decide
  · have e : (exhaustiveSetup c).gens.metadata = some (if c.metadata then .metadata else .skip) := rfl
    rw [e] at h
    cases h
    cases c.metadata <;> decide
  · cases h

theorem act_seed (P : Pari) (c : Config) (hc : Covered c) (p : Pick) (s : Nat) (hs : 1 ≤ s) (x x' : Cur) (d : Int) (h : act P c p s x = some (x', d)) : x'.seed = x.seed := by
  unfold act at h
  obtain ⟨g, h1, h2⟩ := Option.bind_eq_some_iff.1 h
  exact call_seed P _ _ _ _ _ _ g (later_stages c hc s hs g h1) h2

/-- the first stage stores the seed of the call -/
theorem act_first (P : Pari) (c : Config) (hc : Covered c) (ha : c.seedAlgo = .ansi) (p : Pick) (x : Cur) :
    act P c p 0 x = some ({ x with seed := some p.seed }, 1) := by
  rcases table_seed c hc with ⟨h1, -⟩ | ⟨-, g, h1, h2⟩
  · rw [ha] at h1; cases h1
  · rcases h2 with rfl | rfl | rfl <;> simp only [act, stageOf, h1, Option.bind_some, id, call]

theorem cleaned_seed (P : Pari) (c : Config) (lo : Nat) : ∀ (hi : Nat) (w : W), (Engine.Spec.cleaned (setup P c) lo hi w).cur.seed = w.cur.seed := by
  intro hi
  induction hi with
  | zero => exact fun w => rfl
  | succ i ih =>
    intro w
    unfold Engine.Spec.cleaned
    split
    · rw [ih]
      change (unroll (i + 1) w.cur).seed = _
      unfold unroll
      split <;> first | rfl | omega
    · rfl

/-- the checks leave the curve alone -/
theorem check_cur (w : W) (k : Check) : (check w k).1.cur = w.cur ∧ (check w k).1.tape = w.tape := by
  unfold check
  split
  · split <;> exact ⟨rfl, rfl⟩
  · exact ⟨rfl, rfl⟩
  · exact ⟨rfl, rfl⟩

theorem passes_cur {cs : List (W → W × Int)} (h : ∀ k ∈ cs, ∀ w : W, (k w).1.cur = w.cur) {w w' : W} (hp : Engine.Spec.Passes cs w w') : w'.cur = w.cur := by
  induction hp with
  | nil => rfl
  | cons _ _ ih => exact (ih fun k hk => h k (by simp [hk])).trans (h _ (by simp) _)

theorem rejects_cur {cs : List (W → W × Int)} (h : ∀ k ∈ cs, ∀ w : W, (k w).1.cur = w.cur) {w w' : W} {d : Int} (hp : Engine.Spec.Rejects cs w d w') : w'.cur = w.cur := by
  induction hp with
  | here _ => exact h _ (by simp) _
  | later _ _ ih => exact (ih fun k hk => h k (by simp [hk])).trans (h _ (by simp) _)

theorem setup_checks_cur (P : Pari) (c : Config) (s : Nat) : ∀ k ∈ (setup P c).checks s, ∀ w : W, (k w).1.cur = w.cur := by
  intro k hk w
  obtain ⟨g, -, rfl⟩ := List.mem_map.1 hk
  exact (check_cur w g).1

/-- what the checks return when they refuse -/
theorem nonzero_verdict (w : W) (h : (check w .curveNonzero).2 ≤ 0) : (check w .curveNonzero).2 = -3 ∨ (check w .curveNonzero).2 = Engine.INT_MIN := by
  unfold check at h ⊢
  cases hx : w.cur.crv with
  | none => exact Or.inr rfl
  | some E =>
    rw [hx] at h
    dsimp only at h ⊢
    split at h
    · rename_i he
      exact Or.inl (if_pos he)
    · omega

theorem hex_verdict (c : Config) (w : W) (hp : w.pick.Ok c) (h : (check w .hexParam).2 ≤ 0) : (check w .hexParam).2 = -6 := by
  unfold check at h ⊢
  dsimp only at h ⊢
  cases hx : w.pick.verdict with
  | none => rw [hx, Option.getD_none] at h; omega
  | some d => exact hp.verdict d hx

/-- what is true of a search by `--ansi` in which the timer never expires and the first stages do not fail -/
def Kept (c : Config) (T : Nat → Pick) (p0 : Nat) (s : Nat) (v : W) : Prop :=
  (s ≤ 9 ∧ Inv c T s v.cur ∧ Behaves c T v) ∧ (s = 0 → v.pos = p0) ∧ (1 ≤ s → v.cur.seed = some (T p0).seed)

open Engine.Spec in
theorem kept_ok (P : Pari) (hP : P.Ok) (c : Config) (hc : Covered c) (ha : c.seedAlgo = .ansi) (T : Nat → Pick) (hcut : ∀ i, (T i).cut = none)
    (p0 s : Nat) (v : W) (d : Int) (v' : W) (hs : s < 9) (hv : Kept c T p0 s v) (h : Succeeds (setup P c) s v d v') : Kept c T p0 (s + d.toNat) v' := by
  obtain ⟨⟨h9, hi, hb⟩, h0, h1⟩ := hv
  obtain ⟨rfl, k1, k2⟩ := keep_ok P hP c hc T s v d v' hs hi hb h
  refine ⟨⟨by simp only [Int.toNat_one]; omega, k1, k2⟩, fun h => by simp only [Int.toNat_one] at h; omega, fun _ => ?_⟩
  obtain ⟨w1, e1, e2, e3⟩ := h
  rw [passes_cur (setup_checks_cur P c s) e3]
  obtain ⟨ht, hT⟩ := hb
  rcases gen_cases P c s v w1 _ e1 with ⟨x, hx, -⟩ | ⟨d', hf, -, hr⟩ | ⟨x, d', hx, rfl, hr⟩ | ⟨-, hr⟩
  · rw [W.pick, ht, hcut] at hx; cases hx
  · cases hr
    have := (failures_spec s _ ((hT.picks v.pos).fail s _ (by rw [← ht]; exact hf))).1
    omega
  · change x.seed = _
    by_cases hs0 : s = 0
    · subst hs0
      rw [act_first P c hc ha] at hx
      cases hx
      change some v.pick.seed = _
      rw [W.pick, ht, h0 rfl]
    · rw [act_seed P c hc _ s (by omega) _ _ _ hx]
      exact h1 (by omega)
  · cases hr

open Engine.Spec in
theorem kept_back (P : Pari) (hP : P.Ok) (c : Config) (hc : Covered c) (ha : c.seedAlgo = .ansi) (hf : c.field = FIELD_PRIME) (T : Nat → Pick)
    (hcut : ∀ i, (T i).cut = none) (hfl : ∀ i s, s < 4 → (T i).fail s = none)
    (p0 s : Nat) (v : W) (d : Int) (v' : W) (hs : s < 9) (hv : Kept c T p0 s v) (h : Fails (setup P c) 0 s v d v') (hz : 0 ≤ (s : Int) + d) :
    Kept c T p0 (max ((s : Int) + d).toNat 0) (cleaned (setup P c) (max ((s : Int) + d).toNat 0) s v') := by
  obtain ⟨⟨h9, hi, hb⟩, h0, h1⟩ := hv
  have key : (s : Int) + d = 1 ∧ 1 ≤ s ∧ v'.cur.seed = v.cur.seed := by
    obtain ⟨ht, hT⟩ := hb
    have hc' : v.pick.cut = none := by rw [W.pick, ht]; exact hcut _
    have hgen : ∀ w1 r, (setup P c).gen s v = (w1, .ret r) → r ≠ Engine.INT_MIN → w1.cur.seed = v.cur.seed ∨ (s = 0 ∧ r = 1) := by
      intro w1 r h hr0
      rcases gen_cases P c s v w1 _ h with ⟨x, hx, -⟩ | ⟨d', hf, rfl, hr⟩ | ⟨x, d', hx, rfl, hr⟩ | ⟨-, hr⟩
      · rw [hc'] at hx; cases hx
      · exact Or.inl rfl
      · by_cases hs0 : s = 0
        · subst hs0
          rw [act_first P c hc ha] at hx
          cases hx
          cases hr
          exact Or.inr ⟨rfl, rfl⟩
        · exact Or.inl (act_seed P c hc _ s (by omega) _ _ _ hx)
      · cases hr
        exact absurd rfl hr0
    rcases h with ⟨e1, -⟩ | ⟨e1, e2⟩ | ⟨w1, g, e1, e2, e3⟩
    · rcases gen_cases P c s v v' _ e1 with ⟨x, hx, -⟩ | ⟨d', -, -, hr⟩ | ⟨x, d', -, -, hr⟩ | ⟨-, hr⟩
      · rw [hc'] at hx; cases hx
      all_goals cases hr
    · have hmin : d ≠ Engine.INT_MIN := fun h => by rw [h] at hz; simp only [Engine.INT_MIN] at hz; omega
      have hsd := (hgen v' d e1 hmin).resolve_right fun h => by omega
      rcases gen_cases P c s v v' _ e1 with ⟨x, hx, -⟩ | ⟨d', hd, -, hr⟩ | ⟨x, d', hx, rfl, hr⟩ | ⟨-, hr⟩
      · rw [hc'] at hx; cases hx
      · cases hr
        rw [W.pick, ht] at hd
        have h4 : 4 ≤ s := by
          by_contra hlt
          rw [hfl _ _ (by omega)] at hd
          cases hd
        have := (hT.picks v.pos).fail s d hd
        refine ⟨?_, by omega, hsd⟩
        match s, hs with
        | 4, _ => simp [failures] at this; omega
        | 5, _ => simp [failures] at this; omega
        | 6, _ => simp [failures] at this; omega
        | 7, _ => simp [failures] at this
        | 8, _ => simp [failures] at this; omega
      · cases hr
        rw [W.pick, ht] at hx
        have := act_fails_one P hP c hc (Or.inr hf) hT v.pos s hs _ hi x d e2 hx
        refine ⟨this, by omega, hsd⟩
      · cases hr
        exact absurd rfl hmin
    · have hmin : g ≠ Engine.INT_MIN := fun h => by rw [h] at e2; simp only [Engine.INT_MIN] at e2; omega
      rw [rejects_cur (setup_checks_cur P c s) e3]
      rw [table_checks P c hc.algo] at e3
      split at e3
      · rename_i hs4
        have hsd := (hgen w1 g e1 hmin).resolve_right fun h => by omega
        refine ⟨?_, by omega, hsd⟩
        cases e3 with
        | here h10 =>
          rcases nonzero_verdict w1 h10 with e | e
          · rw [e, hs4]; decide
          · rw [e] at hz
            simp only [Engine.INT_MIN] at hz
            omega
        | later _ h11 => cases h11
      · split at e3
        · rename_i hs7
          have hsd := (hgen w1 g e1 hmin).resolve_right fun h => by omega
          refine ⟨?_, by omega, hsd⟩
          have hw1 : w1.tape = T := by
            have := (gen_pos P c s v).2
            rw [e1] at this
            exact this.trans ht
          cases e3 with
          | here h10 =>
            rw [hex_verdict c w1 (by rw [W.pick, hw1]; exact hT.picks _) h10, hs7.1]
            decide
          | later _ h11 => cases h11
        · cases e3
  obtain ⟨k1, k2, k3⟩ := key
  obtain ⟨m1, m2⟩ := keep_fail P hP c hc T s v d v' hs hi hb h
  have e' : max ((s : Int) + d).toNat 0 = 1 := by omega
  rw [e']
  obtain ⟨e1, e2, e3⟩ := cleaned_keeps P c 1 s v'
  refine ⟨⟨by omega, ?_, by rw [e3]; exact m1.1, m1.2⟩, fun h => by omega, fun _ => ?_⟩
  · rcases m2 hz with ⟨k, hk, e, h3⟩ | ⟨rfl, h3⟩
    · obtain rfl : k = 1 := by omega
      exact inv_low hk (e1 ▸ h3.quiet) (e2 ▸ h3.noseed) (fun hk => e2 ▸ h3.seed (by omega))
    · obtain rfl : s = 1 := by omega
      exact inv_low (Nat.le_refl 1) (e1 ▸ h3 ▸ hi.quiet) (e2 ▸ h3 ▸ hi.noseed) (fun hk => e2 ▸ h3 ▸ hi.seed (by omega))
  · rw [cleaned_seed, k3]
    exact h1 k2

/-- **C103** In a search by `--ansi` over prime fields in which the timer does not expire and the first stages do not fail, the seed of the first call is the
seed of every later state: whatever fails afterwards, the search goes back to the field and never asks for another seed. -/
theorem ansi_seed_kept (P : Pari) (hP : P.Ok) (n : Int) (os : List Opt) (c : Config) (hcl : commandLine n os = some c) (ha : c.seedAlgo = .ansi)
    (hf : c.field = FIELD_PRIME) (w : W) (hT : TapeOk c w.tape) (hcut : ∀ i, (w.tape i).cut = none) (hfl : ∀ i s, s < 4 → (w.tape i).fail s = none)
    (st : St W) (hr : Reaches (setup P c) 0 9 0 (Engine.init 0 { w with cur := {} }) st) (hs : 1 ≤ st.state) :
    st.w.cur.seed = some (w.tape w.pos).seed := by
  have hcov := covered n os c hcl (Or.inr ha) fun _ h' => by rw [ha] at h'; cases h'
  exact (Engine.reaches_inv (setup P c) 0 9 0 (Kept c w.tape w.pos)
    (fun s v d v' _ => kept_ok P hP c hcov ha w.tape hcut w.pos s v d v')
    (fun s v d v' _ => kept_back P hP c hcov ha hf w.tape hcut hfl w.pos s v d v') _ st (Nat.zero_le _)
    ⟨⟨Nat.zero_le _, inv_low (Nat.zero_le _) (fun _ => rfl) (fun _ => rfl) (fun h => by cases h), rfl, hT⟩, fun _ => rfl, fun h => absurd h (Nat.not_succ_le_zero 0)⟩ hr).2.2.2 hs

/-- the curves that belong to a seed, and are of the size and order asked for: the coefficients are what X9.62 accepts for the seed -/
structure Hit (c : Config) (S : List Bool) (E : Crv) : Prop where
  field : FieldAsked c E.field.1
  related : Related c.bits S E.field.1 (eltV E.a) (eltV E.b)
  nonsingular : E.eqn.Δ ≠ 0
  order : OrderAsked c (Nat.card E.Pt)

/-- at the end of such a search a curve of the first seed has been found -/
theorem kept_hit {c : Config} (ha : c.seedAlgo = .ansi) {T : Nat → Pick} (hT : TapeOk c T) {p0 : Nat} {v : W} (h : Kept c T p0 9 v) : ∃ E, Hit c (T p0).seed.val E := by
  obtain ⟨⟨-, hi, -⟩, -, hk⟩ := h
  obtain ⟨i, j, f, a, b, e1, e2, e3, e4, e5⟩ := hi.derived (by omega) ha
  obtain ⟨f', e6, hfa, hcf⟩ := hi.field (by omega)
  rw [e2] at e6; cases e6
  obtain ⟨f', a', b', e7, e8, e9, e10, e11⟩ := hi.crv (by omega)
  rw [e2] at e7; rw [e3] at e8; rw [e4] at e9
  cases e7; cases e8; cases e9
  obtain ⟨E, e12, -, e13⟩ := hi.order (by omega)
  rw [e10] at e12; cases e12
  have hrel := tape_related hT ha hcf e5
  rw [Option.some.inj (e1.symm.trans (hk (by omega)))] at hrel
  exact ⟨⟨f, a, b⟩, hfa, hrel, e11, e13⟩

/-- **C103** If no curve with the size and the order asked for belongs to the first seed, the search returns no curve, however long it runs and whatever the
later calls bring. -/
theorem ansi_never_returns (P : Pari) (hP : P.Ok) (n : Int) (os : List Opt) (c : Config) (hcl : commandLine n os = some c) (ha : c.seedAlgo = .ansi)
    (hf : c.field = FIELD_PRIME) (w : W) (hT : TapeOk c w.tape) (hcut : ∀ i, (w.tape i).cut = none) (hfl : ∀ i s, s < 4 → (w.tape i).fail s = none)
    (hno : ∀ E, ¬ Hit c (w.tape w.pos).seed.val E) (fuel : Nat) (st : St W) : Engine.gen (setup P c) 0 9 fuel { w with cur := {} } ≠ some (1, st) := by
  intro hg
  have hcov := covered n os c hcl (Or.inr ha) fun _ h' => by rw [ha] at h'; cases h'
  unfold Engine.gen Engine.genRetry at hg
  rw [if_neg (by decide), if_neg (by decide)] at hg
  rcases Engine.loop_inv (setup P c) 0 9 0 (Kept c w.tape w.pos) (fun _ => True)
    (fun s v d v' _ => kept_ok P hP c hcov ha w.tape hcut w.pos s v d v')
    (fun s v d v' _ => kept_back P hP c hcov ha hf w.tape hcut hfl w.pos s v d v') (fun _ _ _ _ _ _ _ _ => trivial) fuel _ (Nat.zero_le _)
    ⟨⟨Nat.zero_le _, inv_low (Nat.zero_le _) (fun _ => rfl) (fun _ => rfl) (fun h => by cases h), rfl, hT⟩, fun _ => rfl, fun h => absurd h (Nat.not_succ_le_zero 0)⟩ 1 st hg
    with ⟨-, h1, h2⟩ | ⟨h1, -⟩
  · have : st.state = 9 := by have := h2.1.1; omega
    rw [this] at h2
    obtain ⟨E, hE⟩ := kept_hit ha hT h2
    exact hno E hE
  · cases h1

/-- **C103** If no curve with the size and the order asked for belongs to the first seed, and the numbers derived from the seeds have inverses, the search
never ends. -/
theorem ansi_never_ends (P : Pari) (hP : P.Ok) (n : Int) (os : List Opt) (c : Config) (hcl : commandLine n os = some c) (ha : c.seedAlgo = .ansi)
    (hf : c.field = FIELD_PRIME) (hh : c.hexCheck = none) (hp : c.pointsType = .none ∨ c.pointsType = .prime)
    (w : W) (hub : w.ub = false) (hT : TapeOk c w.tape) (hcalm : ∀ i, Calm (w.tape i)) (hinv : Invertible c w.tape)
    (hno : ∀ E, ¬ Hit c (w.tape w.pos).seed.val E) (fuel : Nat) :
    Engine.gen (setup P c) 0 9 fuel { w with cur := {} } = none := by
  have hcov := covered n os c hcl (Or.inr ha) fun _ h' => by rw [ha] at h'; cases h'
  have hq : StagesFine c w.tape := ⟨hinv, by unfold PointsFine; tauto⟩
  have hcut : ∀ i, (w.tape i).cut = none := fun i => (hcalm i).1
  have key : ∀ (fuel : Nat) (st : St W), Kept c w.tape w.pos st.state st.w → st.w.ub = false → Engine.loop (setup P c) 0 9 0 fuel st = none := by
    intro fuel
    induction fuel with
    | zero =>
      intro st hk _
      unfold Engine.loop
      have := hk.1.1
      by_cases h9 : st.state = 9
      · rw [h9] at hk
        obtain ⟨E, hE⟩ := kept_hit ha hT hk
        exact absurd hE (hno E)
      · rw [if_pos (by omega)]
    | succ fuel ih =>
      intro st hk hu
      have := hk.1.1
      by_cases h9 : st.state = 9
      · rw [h9] at hk
        obtain ⟨E, hE⟩ := kept_hit ha hT hk
        exact absurd hE (hno E)
      · have hlt : st.state < 9 := by omega
        have ht : st.w.tape = w.tape := hk.1.2.2.1
        obtain ⟨st', h1, -, h2⟩ := step_clean P hP c hcov (Or.inr hf) hh w.tape hq st hlt ⟨hk.1, hu⟩ (by rw [W.pick, ht]; exact hcut _)
          (by rw [W.pick, ht]; exact (hcalm _).2 _)
        unfold Engine.loop
        rw [if_pos hlt, h1]
        exact ih st' ((Engine.step_inv (setup P c) 0 9 0 (Kept c w.tape w.pos) (fun _ => True)
          (fun s v d v' _ => kept_ok P hP c hcov ha w.tape hcut w.pos s v d v')
          (fun s v d v' _ => kept_back P hP c hcov ha hf w.tape hcut (fun i s _ => (hcalm i).2 s) w.pos s v d v') (fun _ _ _ _ _ _ _ _ => trivial) st
          (Nat.zero_le _) hlt hk).1 st' h1).2 h2.2
  unfold Engine.gen Engine.genRetry
  rw [if_neg (by decide), if_neg (by decide)]
  exact key fuel _ ⟨⟨Nat.zero_le _, inv_low (Nat.zero_le _) (fun _ => rfl) (fun _ => rfl) (fun h => by cases h), rfl, hT⟩, fun _ => rfl,
    fun h => absurd h (Nat.not_succ_le_zero 0)⟩ hub

/-! ### A seed all of whose curves are singular -/

/-- if `p` divides `4r + 27`, the equations over the field of `p` elements that belong to the seed are singular -/
theorem singular_seed (bits : Nat) (S : List Bool) (p : Nat) (hp : Good (.prime p)) (hd : p ∣ 4 * Bits.ofBits (Ansi.Spec.expandFp S bits) + 27) (a b : Elt)
    (h : Related bits S (.prime p) (eltV a) (eltV b)) : (Crv.mk ⟨.prime p, hp⟩ a b).eqn.Δ = 0 := by
  have h1 : ((Bits.ofBits (Ansi.Spec.expandFp S bits) : ZMod p)) * (eltV b : ZMod p) ^ 2 = (eltV a : ZMod p) ^ 3 := by
    have := (ZMod.natCast_eq_natCast_iff _ _ _).2 h.2.2
    push_cast at this
    exact this
  have h2 : (4 * (Bits.ofBits (Ansi.Spec.expandFp S bits) : ZMod p) + 27) = 0 := by
    have := (ZMod.natCast_eq_zero_iff _ _).2 hd
    push_cast at this
    exact this
  have key : WeierstrassCurve.Δ (⟨0, 0, 0, (eltV a : ZMod p), (eltV b : ZMod p)⟩ : WeierstrassCurve (ZMod p)) = 0 := by
    simp only [WeierstrassCurve.Δ, WeierstrassCurve.b₂, WeierstrassCurve.b₄, WeierstrassCurve.b₆, WeierstrassCurve.b₈]
    linear_combination (-16 * (eltV b : ZMod p) ^ 2) * h2 + 64 * h1
  exact key

/-- **C103** a seed whose number `r` has `4r + 27` divisible by every prime of the size asked for belongs to no curve at all -/
theorem ansi_singular_seed (c : Config) (hf : c.field = FIELD_PRIME) (S : List Bool)
    (hd : ∀ p : Nat, p.Prime → FieldAsked c (.prime p) → p ∣ 4 * Bits.ofBits (Ansi.Spec.expandFp S c.bits) + 27) (E : Crv) : ¬ Hit c S E := by
  rintro ⟨h1, h2, h3, -⟩
  obtain ⟨⟨fv, hg⟩, a, b⟩ := E
  cases fv with
  | prime p => exact h3 (singular_seed c.bits S p hg (hd p hg h1) a b h2)
  | binary m e1 e2 e3 => exact absurd (h1.1.symm.trans hf) (by decide)

/-- the seed 00…01 -/
def one1 : Bits.Bits := (Bits.fromHex (List.replicate 39 '0' ++ ['1'])).get (by decide +kernel)

theorem one1_some : Bits.fromHex (List.replicate 39 '0' ++ ['1']) = some one1 := (Option.some_get _).symm

theorem one1_seed : AnsiSeed one1 := Or.inr ⟨List.replicate 39 '0' ++ ['1'], by decide, by decide, by decide, one1_some⟩

/-- the number derived from the seed for fields of three bits: 2 -/
theorem one1_r : Bits.ofBits (Ansi.Spec.expandFp one1.val 3) = 2 := by
  unfold Ansi.Spec.expandFp SeedSpec.H
  rw [Sha1.Eval.sha1_eq _ (by decide +kernel)]
  decide +kernel

/-- with 7 drawn for `a` and the number 2 derived, the coefficients found are 7 and 2 -/
theorem two_call (s : Bits.Bits) (hs : AnsiSeed s) (hr : Bits.ofBits (Ansi.Spec.expandFp s.val 3) = 2) : AnsiCall 3 F5 s (.coeffs (.int 7) (.int 2)) := by
  have hg := (ansi_seed_good hs).1
  obtain ⟨sd, h1, -⟩ := Ansi.mkSeed_spec s hg 3
  refine ⟨0, sd, h1, ops5, fun _ => 7, 1, ops5_spec, fun _ => ⟨show 2 ^ (3 - 1) ≤ 7 by decide, show 7 ≤ 2 ^ 3 by decide⟩, ?_⟩
  have : Ansi.genEquationFp 0 ops5 (fun _ => 7) 1 sd = some (some (2, 7, 2)) := by
    unfold Ansi.genEquationFp
    rw [Ansi.derivedR_spec 0 s hg 3 (by decide) sd h1, hr]
    decide +kernel
  rw [this]
  rfl

/-- every call: no failures, the field, the seed and the coefficients -/
noncomputable def pickS (s : Bits.Bits) : Pick := { always ⟨F5, .int 7, .int 2⟩ 1 [] 1 with seed := s, ansi := fun _ _ => .coeffs (.int 7) (.int 2) }

theorem pickS_tape (c : Config) (hc : c.seedAlgo = .ansi) (hf : c.field = 1) (hb : c.bits = 3) (s : Bits.Bits) (hs : AnsiSeed s)
    (hr : Bits.ofBits (Ansi.Spec.expandFp s.val 3) = 2) (hl : s.bitlen ≠ 0) : TapeOk c fun _ => pickS s := by
  have hn : ¬ (c.koblitz = true ∧ c.seedAlgo = .none) := fun h => by rw [hc] at h; cases h.2
  have hF5 : ∀ f, ComesField (fun _ => pickS s) f → f = F5 := by rintro f ⟨_, h1 | h1⟩ <;> exact h1
  have hg : ∀ E : Crv, ComesField (fun _ => pickS s) E.field → ComesA c (fun _ => pickS s) E.field E.a → ComesB c (fun _ => pickS s) E.field E.b → E.eqn.Δ = 0 := by
    intro E h1 h2 h3
    rw [ComesA, if_neg hn, if_neg (by rw [hc]; decide)] at h2
    rw [ComesB, if_neg hn, if_neg (by rw [hc]; decide)] at h3
    obtain ⟨-, -, _, h2⟩ := h2
    obtain ⟨-, -, _, h3⟩ := h3
    have hF := hF5 _ h1
    obtain ⟨f, a, b⟩ := E
    simp only [pickS, Derived.coeffs.injEq] at h2 h3 hF
    obtain ⟨rfl, -⟩ := h2
    obtain ⟨-, rfl⟩ := h3
    subst hF
    refine singular_seed 3 s.val 5 (show Nat.Prime 5 by decide) (by rw [hr]; decide) _ _ ?_
    refine ⟨by decide, by decide, ?_⟩
    simp only
    rw [hr]
    decide
  have h5 : ∀ d : Config, d.field = 1 → d.bits = 3 → FieldAsked d (.prime 5) := fun d h1 h2 => ⟨h1, fun _ _ => by rw [h2]; decide, by rw [h2]; decide⟩
  refine ⟨fun _ => ⟨fun x h => (nomatch h), fun s d h => (nomatch h), ⟨(ansi_seed_good hs).1.1, hl⟩, h5 _ hf hb, h5 _ hf hb,
    fun f => always_elt ⟨F5, .int 7, .int 2⟩ 1 (by decide) [] 1 f, fun _ => hs,
    fun n i h => h, fun o i j h => ⟨Nat.le_refl 1, ?_⟩, ⟨fun x h => (nomatch h), List.nodup_nil⟩, fun d h => (nomatch h)⟩, fun _ _ _ f hf => ?_,
    fun _ E h1 h2 h3 h4 => absurd (hg E h1 h2 h3) h4, fun _ E h1 h2 h3 h4 => absurd (hg E h1 h2 h3) h4⟩
  · change 1 ≤ o - 1
    omega
  · obtain rfl := hF5 f hf
    rw [hb]
    exact two_call s hs hr

theorem pickS_invertible (c : Config) (hb : c.bits = 3) (s : Bits.Bits) (hr : Bits.ofBits (Ansi.Spec.expandFp s.val 3) = 2) : Invertible c fun _ => pickS s := by
  rintro - j f p ⟨_, h | h⟩ e
  all_goals
    subst h
    obtain rfl : p = 5 := by cases e; rfl
    change ¬ 5 ∣ Bits.ofBits (Ansi.Spec.expandFp s.val c.bits)
    rw [hb, hr]
    decide

/-- the random primes of three bits are 5 and 7, and both divide `4 · 2 + 27` -/
theorem two_none (c : Config) (hf : c.field = FIELD_PRIME) (hr : c.random &&& 2 ≠ 0) (hb : c.bits = 3) (S : List Bool)
    (hS : Bits.ofBits (Ansi.Spec.expandFp S 3) = 2) (E : Crv) : ¬ Hit c S E := by
  refine ansi_singular_seed c hf S (fun p hp h => ?_) E
  rw [hb, hS]
  have hs : p.size = 3 := (h.2.1 hr (by omega)).trans hb
  have h1 : p < 2 ^ 3 := Nat.size_le.1 (by omega)
  have h2 : 2 ^ 2 ≤ p := Nat.lt_size.1 (by omega)
  have : p = 4 ∨ p = 5 ∨ p = 6 ∨ p = 7 := by omega
  rcases this with rfl | rfl | rfl | rfl
  · exact absurd hp (by decide)
  · decide
  · exact absurd hp (by decide)
  · decide

/-- `--fp --random --ansi=00…01 3` -/
def cs : Config := (commandLine 4 [.fp, .random none, .ansi (some (List.replicate 39 '0' ++ ['1'])), .arg "3".toList]).get (by decide +kernel)

theorem cs_some : commandLine 4 [.fp, .random none, .ansi (some (List.replicate 39 '0' ++ ['1'])), .arg "3".toList] = some cs := (Option.some_get _).symm

theorem cs_tape : TapeOk cs fun _ => pickS one1 :=
  pickS_tape cs (by decide +kernel) (by decide +kernel) (by decide +kernel) one1 one1_seed one1_r (by decide +kernel)

theorem cs_invertible : Invertible cs fun _ => pickS one1 := pickS_invertible cs (by decide +kernel) one1 one1_r

theorem cs_none (E : Crv) : ¬ Hit cs one1.val E := two_none cs (by decide +kernel) (by decide +kernel) (by decide +kernel) _ one1_r E

/-- **C103, met**: `ecgen --fp --random --ansi=00…01 3` never ends. The number derived from the seed is 2, `4 · 2 + 27 = 35`, and the primes of three bits are 5
and 7. -/
theorem ansi_never_ends_met : ∃ (n : Int) (os : List Opt) (c : Config) (w : W), commandLine n os = some c ∧ c.seedAlgo = .ansi ∧ c.field = FIELD_PRIME ∧
    c.hexCheck = none ∧ c.pointsType = .prime ∧ w.ub = false ∧ TapeOk c w.tape ∧ (∀ i, Calm (w.tape i)) ∧ Invertible c w.tape ∧
    (∀ E, ¬ Hit c (w.tape w.pos).seed.val E) ∧ ∀ fuel, Engine.gen (setup pari c) 0 9 fuel { w with cur := {} } = none := by
  refine ⟨4, _, cs, ⟨{}, fun _ => pickS one1, 0, false⟩, cs_some, by decide +kernel, by decide +kernel, by decide +kernel, by decide +kernel, rfl, cs_tape,
    fun _ => ⟨rfl, fun _ => rfl⟩, cs_invertible, cs_none, fun fuel => ?_⟩
  exact ansi_never_ends pari pari_ok 4 _ cs cs_some (by decide +kernel) (by decide +kernel) (by decide +kernel) (Or.inr (by decide +kernel))
    ⟨{}, fun _ => pickS one1, 0, false⟩ rfl cs_tape (fun _ => ⟨rfl, fun _ => rfl⟩) cs_invertible cs_none fuel

/-- **C103, met** (`ansi_seed_kept`): the same search after its first call -/
theorem ansi_seed_kept_met : ∃ (n : Int) (os : List Opt) (c : Config) (w : W) (st : St W), commandLine n os = some c ∧ c.seedAlgo = .ansi ∧ c.field = FIELD_PRIME ∧
    TapeOk c w.tape ∧ (∀ i, (w.tape i).cut = none) ∧ (∀ i s, s < 4 → (w.tape i).fail s = none) ∧
    Reaches (setup pari c) 0 9 0 (Engine.init 0 { w with cur := {} }) st ∧ 1 ≤ st.state ∧ st.w.pos = 1 := by
  have hcov := covered 4 _ cs cs_some (Or.inr (by decide +kernel)) fun _ h' => absurd h' (by decide +kernel)
  obtain ⟨st, h1, h2, -⟩ := step_clean pari pari_ok cs hcov (Or.inr (by decide +kernel)) (by decide +kernel) (fun _ => pickS one1)
    ⟨cs_invertible, Or.inr (Or.inl (by decide +kernel))⟩
    (Engine.init 0 (⟨{}, fun _ => pickS one1, 0, false⟩ : W)) (by decide)
    ⟨⟨Nat.zero_le _, inv_low (Nat.zero_le _) (fun _ => rfl) (fun _ => rfl) (fun h => by cases h), rfl, cs_tape⟩, rfl⟩ rfl rfl
  refine ⟨4, _, cs, ⟨{}, fun _ => pickS one1, 0, false⟩, st, cs_some, by decide +kernel, by decide +kernel, cs_tape, fun _ => rfl, fun _ _ _ => rfl,
    .next .refl (by decide) h1, ?_, (step_pos pari cs hcov (by decide +kernel) _ _ h1).1⟩
  rcases h2 with h2 | h2
  · rw [h2]; exact Nat.le_add_left 1 _
  · rw [h2]

/-! ### Random seeds -/

/-- the seed drawn, of 160 bits: `2^159 + k` -/
def drawn (k : Nat) : Option Bits.Bits := Bits.fromI ((2 ^ 159 + k : Nat) : Int)

def lucky : Bits.Bits := (drawn 0).get (by decide +kernel)
def unlucky : Bits.Bits := (drawn 1).get (by decide +kernel)

theorem lucky_seed : AnsiSeed lucky := Or.inl ⟨2 ^ 159 + 0, by decide, by decide, (Option.some_get _).symm⟩
theorem unlucky_seed : AnsiSeed unlucky := Or.inl ⟨2 ^ 159 + 1, by decide, by decide, (Option.some_get _).symm⟩

theorem lucky_r : Bits.ofBits (Ansi.Spec.expandFp lucky.val 3) = 3 := by
  unfold Ansi.Spec.expandFp SeedSpec.H
  rw [Sha1.Eval.sha1_eq _ (by decide +kernel)]
  decide +kernel

theorem unlucky_r : Bits.ofBits (Ansi.Spec.expandFp unlucky.val 3) = 2 := by
  unfold Ansi.Spec.expandFp SeedSpec.H
  rw [Sha1.Eval.sha1_eq _ (by decide +kernel)]
  decide +kernel

theorem lucky_related : Related 3 lucky.val (.prime 5) 7 1 := by
  refine ⟨by decide, by decide, ?_⟩
  simp only
  rw [lucky_r]
  decide

/-- `--fp --random --ansi 3` -/
def cr : Config := (commandLine 4 [.fp, .random none, .ansi none, .arg "3".toList]).get (by decide +kernel)

theorem cr_some : commandLine 4 [.fp, .random none, .ansi none, .arg "3".toList] = some cr := (Option.some_get _).symm

/-- **No search gets stuck (C100) is false for `--ansi`**: with `ecgen --fp --random --ansi 3` there are seeds with curves, but once the seed `2^159 + 1` has been drawn
the search returns no curve, whatever the calls still to come bring (the timer not expiring). Such a search, of calls that behave, exists, and never ends. -/
theorem ansi_stuck_false : ∃ (os : List Opt) (c : Config) (lucky unlucky : Bits.Bits), commandLine 4 os = some c ∧ c.seedAlgo = .ansi ∧ c.seed = none ∧
    AnsiSeed lucky ∧ (∃ E, Hit c lucky.val E) ∧ AnsiSeed unlucky ∧
    (∀ (P : Pari) (_ : P.Ok) (w : W), TapeOk c w.tape → (∀ i, (w.tape i).cut = none) → (∀ i s, s < 4 → (w.tape i).fail s = none) →
      (w.tape w.pos).seed = unlucky → ∀ fuel st, Engine.gen (setup P c) 0 9 fuel { w with cur := {} } ≠ some (1, st)) ∧
    ∃ w : W, TapeOk c w.tape ∧ (∀ i, Calm (w.tape i)) ∧ (w.tape w.pos).seed = unlucky ∧ ∀ fuel, Engine.gen (setup pari c) 0 9 fuel { w with cur := {} } = none := by
  have hno : ∀ E, ¬ Hit cr unlucky.val E := two_none cr (by decide +kernel) (by decide +kernel) (by decide +kernel) _ unlucky_r
  have hT : TapeOk cr fun _ => pickS unlucky :=
    pickS_tape cr (by decide +kernel) (by decide +kernel) (by decide +kernel) unlucky unlucky_seed unlucky_r (by decide +kernel)
  refine ⟨_, cr, lucky, unlucky, cr_some, by decide +kernel, by decide +kernel, lucky_seed, ⟨Ea, ?_, ?_, Ea_delta, ?_⟩, unlucky_seed, ?_, ?_⟩
  · exact ⟨by decide +kernel, fun _ _ => by decide +kernel, by decide +kernel⟩
  · rw [show cr.bits = 3 by decide +kernel]
    exact lucky_related
  · exact ⟨fun h => absurd h (by decide +kernel), fun h => absurd h (by decide +kernel), fun h => absurd h (by decide +kernel)⟩
  · intro P hP w h1 h2 h3 h4 fuel st
    exact ansi_never_returns P hP 4 _ cr cr_some (by decide +kernel) (by decide +kernel) w h1 h2 h3 (by rw [h4]; exact hno) fuel st
  · exact ⟨⟨{}, fun _ => pickS unlucky, 0, false⟩, hT, fun _ => ⟨rfl, fun _ => rfl⟩, rfl, fun fuel =>
      ansi_never_ends pari pari_ok 4 _ cr cr_some (by decide +kernel) (by decide +kernel) (by decide +kernel) (Or.inr (by decide +kernel))
        ⟨{}, fun _ => pickS unlucky, 0, false⟩ rfl hT (fun _ => ⟨rfl, fun _ => rfl⟩) (pickS_invertible cr (by decide +kernel) unlucky unlucky_r) hno fuel⟩

end Ecgen.Whole
