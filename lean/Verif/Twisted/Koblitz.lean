import Verif.Twisted.Defined

/-!
# `--twist` with `--koblitz` (C87)

The twist has the coefficients of PARI's curve object, which are elements of the field. `order_gen_koblitz` takes the first of them for an integer,
order.c:108.
-/

namespace Ecgen.Twisted

open Whole Output Output.Spec Cli

/-- `--twist --koblitz` without `--prime`, `--cofactor` and `--smooth` -/
structure Both (c : Config) : Prop where
  method : c.method = METHOD_TWIST
  algo : c.seedAlgo = .none
  koblitz : c.koblitz = true
  value : c.koblitzValue = 0 ∨ c.koblitzValue = 1
  prime : c.prime = false
  cofactor : c.cofactor = false
  smooth : c.smooth = false

theorem both_tables (c : Config) (h : Both c) :
    (stageOf (exhaustiveSetup c).gens 0).bind id = some .skip ∧
    ((stageOf (exhaustiveSetup c).gens 1).bind id = some .fieldRandom ∨ (stageOf (exhaustiveSetup c).gens 1).bind id = some .fieldInput) ∧
    ((stageOf (exhaustiveSetup c).gens 2).bind id = some .aZero ∨ (stageOf (exhaustiveSetup c).gens 2).bind id = some .aOne) ∧
    (stageOf (exhaustiveSetup c).gens 3).bind id = some .bOne ∧
    (stageOf (exhaustiveSetup c).gens 4).bind id = some .curveAnyTwist ∧
    (stageOf (exhaustiveSetup c).gens 5).bind id = some .orderKoblitz := by
  refine ⟨?_, ?_, ?_, ?_, ?_, ?_⟩
  · simp [stageOf, exhaustiveSetup, ginit, ginitMethod, h.method, h.algo, METHOD_TWIST, METHOD_FAMILY, h.koblitz]
  · cases hr : has c.random RANDOM_FIELD <;> simp [stageOf, exhaustiveSetup, ginit, ginitMethod, h.method, h.algo, METHOD_TWIST, METHOD_FAMILY, h.koblitz, hr]
  · rcases h.value with hv | hv <;> simp [stageOf, exhaustiveSetup, ginit, ginitMethod, h.method, h.algo, METHOD_TWIST, METHOD_FAMILY, h.koblitz, hv]
  · simp [stageOf, exhaustiveSetup, ginit, ginitMethod, h.method, h.algo, METHOD_TWIST, METHOD_FAMILY, h.koblitz]
  · simp [stageOf, exhaustiveSetup, ginit, h.method]
  · simp [stageOf, exhaustiveSetup, ginit, ginitMethod, h.method, h.algo, METHOD_TWIST, METHOD_FAMILY, orderChoiceKoblitz, h.prime, h.cofactor, h.smooth, h.koblitz]

/-- the first coefficient is not an integer -/
def Odd (x : Cur) : Prop := ∃ e, x.a = some e ∧ ∀ n, e ≠ .int n

/-- what is known at the beginning of a stage -/
def K (T : Nat → Pick) (tw : Nat → Crv → Crv) (s : Nat) (w : W) : Prop :=
  s ≤ 5 ∧ (s = 5 → Odd w.base.cur) ∧ w.base.tape = T ∧ w.tw = tw

theorem act_early (P : Pari) (c : Config) (h : Both c) (p : Pick) (s : Nat) (hs : s < 4) (x x' : Cur) (d : Int) (ha : act P c p s x = some (x', d)) :
    d = 1 := by
  obtain ⟨t0, t1, t2, t3, -, -⟩ := both_tables c h
  unfold act at ha
  match s, hs with
  | 0, _ => rw [t0] at ha; cases ha; rfl
  | 1, _ => rcases t1 with t | t <;> rw [t] at ha <;> cases ha <;> rfl
  | 2, _ => rcases t2 with t | t <;> rw [t] at ha <;> cases ha <;> rfl
  | 3, _ => rw [t3] at ha; cases ha; rfl

theorem act_order_none (P : Pari) (c : Config) (h : Both c) (p : Pick) (x : Cur) (hx : Odd x) : act P c p 5 x = none := by
  obtain ⟨-, -, -, -, -, t5⟩ := both_tables c h
  obtain ⟨e, h1, h2⟩ := hx
  unfold act
  rw [t5]
  simp only [Option.bind_some, call]
  cases x.crv with
  | none => rfl
  | some E =>
    simp only [Option.bind_some, orderStage, h1]
    cases e with
    | int n => exact absurd rfl (h2 n)
    | intmod _ _ => rfl
    | ff _ => rfl

/-- **the order stage is undefined**, unless it is cut off or fails -/
theorem order_undefined (P : Pari) (c : Config) (h : Both c) (w : W) (hx : Odd w.base.cur) (h1 : w.base.pick.cut = none) (h2 : w.base.pick.fail 5 = none) :
    (setup P c).gen 5 w = ({ w with base := { w.base.next with ub := true } }, .ret Engine.INT_MIN) := by
  change gen P c.bits (exhaustiveSetup c) 5 w = _
  unfold gen
  rw [if_neg (by decide)]
  split
  · rfl
  · have : Whole.gen (if 5 = 5 then cached P w.cache else P) c.bits (exhaustiveSetup c) 5 w.base =
        ({ w.base.next with ub := true }, .ret Engine.INT_MIN) := by
      unfold Whole.gen
      simp only [h1, h2]
      change Whole.done w.base (act _ c w.base.pick 5 w.base.cur) = _
      rw [act_order_none _ c h _ _ hx]
      rfl
    rw [this]

open Classical in
theorem curve_odd (S : Setup) (tw : Crv → Crv) (ht : ∀ E n, (tw E).a ≠ .int n) (x x' : Cur) (k k' : Option (Crv × Int)) (d : Int)
    (ha : curveAct S tw x k = some ((x', k'), d)) : (d = 1 ∧ Odd x') ∨ d = -3 := by
  unfold curveAct at ha
  split at ha
  · unfold curveStage at ha
    split at ha
    · split at ha
      · cases ha; exact Or.inr rfl
      · split at ha
        · cases ha; exact Or.inl ⟨rfl, _, rfl, ht _⟩
        · cases ha; exact Or.inl ⟨rfl, _, rfl, ht _⟩
    · cases ha
  · cases ha

open Engine (GenRes) in
/-- what a generator returns -/
theorem gen_koblitz (P : Pari) (c : Config) (h : Both c) (T : Nat → Pick) (tw : Nat → Crv → Crv) (hT : ∀ i s d, (T i).fail s = some d → d ∈ failures s)
    (ht : ∀ j E n, (tw j E).a ≠ .int n) (s : Nat) (w w1 : W) (r : GenRes) (hk : K T tw s w) (hg : (setup P c).gen s w = (w1, r)) :
    (w1.base.tape = T ∧ w1.tw = tw) ∧ (r = .timeout ∨ (r = .ret 1 ∧ s ≤ 4 ∧ (s = 4 → Odd w1.base.cur)) ∨
      (∃ d, r = .ret d ∧ d ≤ 0 ∧ (s = 5 → d = 0 → Odd w1.base.cur))) := by
  obtain ⟨h5, ho, rfl, rfl⟩ := hk
  by_cases h4 : s = 4
  · subst h4
    rcases gen_curve P c w w1 r hg with ⟨x, e1, rfl, e2⟩ | ⟨d, e1, rfl, e2⟩ | ⟨x, k, d, e1, rfl, e2⟩ | ⟨rfl, e2⟩
    · exact ⟨⟨rfl, rfl⟩, Or.inl e2⟩
    · exact ⟨⟨rfl, rfl⟩, Or.inr (Or.inr ⟨d, e2, (failures_spec 4 d (hT _ _ _ e1)).1, fun h => absurd h (by decide)⟩)⟩
    · rcases curve_odd _ _ (ht _) _ _ _ _ _ e1 with ⟨rfl, g⟩ | rfl
      · exact ⟨⟨rfl, rfl⟩, Or.inr (Or.inl ⟨e2, Nat.le_refl _, fun _ => g⟩)⟩
      · exact ⟨⟨rfl, rfl⟩, Or.inr (Or.inr ⟨-3, e2, by decide, fun h => absurd h (by decide)⟩)⟩
    · exact ⟨⟨rfl, rfl⟩, Or.inr (Or.inr ⟨_, e2, by decide, fun h => absurd h (by decide)⟩)⟩
  · change gen P c.bits (exhaustiveSetup c) s w = _ at hg
    unfold gen at hg
    rw [if_neg h4] at hg
    split at hg
    · cases hg
      exact ⟨⟨rfl, rfl⟩, Or.inr (Or.inr ⟨_, rfl, by decide, fun _ h => by cases h⟩)⟩
    · cases hr : Whole.gen (if s = 5 then cached P w.cache else P) c.bits (exhaustiveSetup c) s w.base with
      | mk b r' =>
        rw [hr] at hg
        simp only [Prod.mk.injEq] at hg
        obtain ⟨rfl, rfl⟩ := hg
        rcases Whole.gen_cases (if s = 5 then cached P w.cache else P) c s w.base b r' hr with ⟨x, e1, rfl, e3⟩ | ⟨d, e1, rfl, e3⟩ | ⟨x, d, e1, rfl, e3⟩ | ⟨rfl, e3⟩
        · exact ⟨⟨rfl, rfl⟩, Or.inl e3⟩
        · exact ⟨⟨rfl, rfl⟩, Or.inr (Or.inr ⟨d, e3, (failures_spec s d (hT _ _ _ e1)).1, fun h _ => ho h⟩)⟩
        · rcases Nat.lt_or_ge s 4 with hs | hs
          · obtain rfl := act_early _ c h _ s hs _ _ _ e1
            exact ⟨⟨rfl, rfl⟩, Or.inr (Or.inl ⟨e3, by omega, fun h => absurd h h4⟩)⟩
          · have : s = 5 := by omega
            subst this
            rw [act_order_none _ c h _ _ (ho rfl)] at e1
            cases e1
        · exact ⟨⟨rfl, rfl⟩, Or.inr (Or.inr ⟨_, e3, by simp [Engine.INT_MIN], fun _ h => by cases h⟩)⟩

theorem both_checks (P : Pari) (c : Config) (h : Both c) (s : Nat) (hs : s ≤ 5) : (setup P c).checks s = if s = 4 then [check .curveNonzero] else [] := by
  have hc : (exhaustiveSetup c).checks =
      { Table.const [] with curve := [.curveNonzero], points := if c.hexCheck.isSome then [.hexParam] else [] } := by
    simp [exhaustiveSetup, cinit, h.method, METHOD_SEED, METHOD_TWIST]
  change (((stageOf (exhaustiveSetup c).checks s).getD []).map check) = _
  rw [hc]
  match s, hs with
  | 0, _ | 1, _ | 2, _ | 3, _ | 4, _ | 5, _ => rfl

/-- an accepted command line of this kind -/
theorem both (n : Int) (os : List Opt) (c : Config) (h : commandLine n os = some c) (hm : c.method = METHOD_TWIST) (hk : c.koblitz = true)
    (h1 : c.prime = false) (h2 : c.cofactor = false) (h3 : c.smooth = false) : Both c := by
  have hc := consistent n os c h
  refine ⟨hm, ?_, hk, hc.koblitz, h1, h2, h3⟩
  by_contra hne
  have := hc.algo.1.2 hne
  rw [hm] at this
  cases this

open Engine Engine.Spec in
/-- **C87, refuted for Koblitz curves** With `--twist --koblitz` and none of `--prime`, `--cofactor` and `--smooth`, no search ever comes past the order
stage: it never finds a curve, whatever happens, since the order stage (`order_undefined`) takes an element of the field for an integer. -/
theorem koblitz_never_found (P : Pari) (n : Int) (os : List Opt) (c : Config) (hcl : commandLine n os = some c) (hm : c.method = METHOD_TWIST)
    (hkob : c.koblitz = true) (h1 : c.prime = false) (h2 : c.cofactor = false) (h3 : c.smooth = false) (w : W)
    (hT : ∀ i s d, (w.base.tape i).fail s = some d → d ∈ failures s) (ht : ∀ j E n, (w.tw j E).a ≠ .int n) (fuel : Nat) (r : Int) (st : St W)
    (hg : Engine.gen (setup P c) 0 9 fuel (fresh w) = some (r, st)) : r = 0 := by
  have h := both n os c hcl hm hkob h1 h2 h3
  unfold Engine.gen Engine.genRetry at hg
  rw [if_neg (by decide), if_neg (by decide)] at hg
  have hstart : K w.base.tape w.tw 0 (fresh w) := ⟨by omega, fun h => absurd h (by decide), rfl, rfl⟩
  have := Engine.loop_inv (setup P c) 0 9 0 (K w.base.tape w.tw) (fun _ => True)
    (by
      rintro s v d v' - hs hk ⟨v1, g1, g2, g3⟩
      obtain ⟨⟨k1, k2⟩, k3 | ⟨k3, k4, k5⟩ | ⟨d', k3, k4, -⟩⟩ := gen_koblitz P c h _ _ hT ht s v v1 _ hk g1
      · cases k3
      · cases k3
        rw [both_checks P c h s (by omega)] at g3
        by_cases h4 : s = 4
        · rw [if_pos h4] at g3
          cases g3 with
          | cons g4 g5 =>
            cases g5
            have hw : (check .curveNonzero v1).1.base.cur = v1.base.cur ∧ (check .curveNonzero v1).1.base.tape = v1.base.tape ∧
                (check .curveNonzero v1).1.tw = v1.tw := by
              simp only [check, Whole.check]
              cases v1.base.cur.crv <;> exact ⟨rfl, rfl, trivial⟩
            exact ⟨by simp only [Int.toNat_one]; omega, fun _ => by rw [hw.1]; exact k5 h4, by rw [hw.2.1]; exact k1, by rw [hw.2.2]; exact k2⟩
        · rw [if_neg h4] at g3
          cases g3
          exact ⟨by simp only [Int.toNat_one]; omega, fun h' => by simp only [Int.toNat_one] at h'; omega, k1, k2⟩
      · cases k3; omega)
    (by
      rintro s v d v' - hs hk hf h0
      have keep : v'.base.tape = w.base.tape ∧ v'.tw = w.tw ∧ d ≤ 0 ∧ (s = 5 → d = 0 → Odd v'.base.cur) := by
        rcases hf with ⟨g1, rfl⟩ | ⟨g1, g2⟩ | ⟨v1, g, g1, g2, g3⟩
        · obtain ⟨⟨k1, k2⟩, -⟩ := gen_koblitz P c h _ _ hT ht s v v' _ hk g1
          exact ⟨k1, k2, by omega, fun h5 h6 => by omega⟩
        · obtain ⟨⟨k1, k2⟩, k3 | ⟨k3, k4, k5⟩ | ⟨d', k3, k4, k5⟩⟩ := gen_koblitz P c h _ _ hT ht s v v' _ hk g1
          · cases k3
          · cases k3; omega
          · cases k3; exact ⟨k1, k2, k4, k5⟩
        · obtain ⟨⟨k1, k2⟩, k3 | ⟨k3, k4, k5⟩ | ⟨d', k3, k4, -⟩⟩ := gen_koblitz P c h _ _ hT ht s v v1 _ hk g1
          · cases k3
          · cases k3
            rw [both_checks P c h s (by omega)] at g3
            by_cases h4 : s = 4
            · rw [if_pos h4] at g3
              cases g3 with
              | here g4 =>
                refine ⟨?_, ?_, g4, fun h5 => by omega⟩
                all_goals
                  simp only [check, Whole.check]
                  cases v1.base.cur.crv <;> first | exact k1 | exact k2
              | later _ g5 => cases g5
            · rw [if_neg h4] at g3
              cases g3
          · cases k3; omega
      obtain ⟨k1, k2, k3, k4⟩ := keep
      have hk5 := hk.1
      obtain ⟨-, -, -, e4, e5⟩ := cleaned_keeps P c (max ((s : Int) + d).toNat 0) s v'
      refine ⟨by omega, fun h5 => ?_, by rw [e4]; exact k1, by rw [e5]; exact k2⟩
      have hd : d = 0 := by omega
      have hs5 : s = 5 := by omega
      subst hd hs5
      rw [show max (((5 : Nat) : Int) + 0).toNat 0 = 5 from rfl, cleaned_self]
      exact k4 rfl rfl)
    (fun _ _ _ _ _ _ _ _ => trivial)
    fuel _ (Nat.zero_le _) hstart r st hg
  rcases this with ⟨-, g1, g2, -⟩ | ⟨rfl, -⟩
  · have : 9 ≤ st.state := by omega
    omega
  · rfl

/-- **C87, met**: `ecgen --fp --random --twist --koblitz=1 3` is such a command line -/
theorem koblitz_met : ∃ (os : List Opt) (c : Config), commandLine 5 os = some c ∧ c.method = METHOD_TWIST ∧ c.koblitz = true ∧ c.prime = false ∧
    c.cofactor = false ∧ c.smooth = false := by
  refine ⟨[.fp, .random none, .twist, .koblitz (some "1".toList), .arg "3".toList],
    (commandLine 5 [.fp, .random none, .twist, .koblitz (some "1".toList), .arg "3".toList]).get (by decide +kernel), (Option.some_get _).symm, ?_⟩
  decide +kernel

end Ecgen.Twisted
