import Verif.Whole.MetaRun
import Verif.Ordered.Cyclic

/-!
# C112: the metadata of a run of `--order`
-/

namespace Ecgen.Ordered

open Whole Output Output.Spec Cli
open Seeded (Fp curveOf)
open Special (obj)
open Engine (Reaches)

/-! ### Specification -/

/-- the metadata of `y² = x³ + ax + b` over the field of `p` elements, if it has `N` points -/
def Described (p N a b : Nat) (info : List (String × Text)) : Prop :=
  ∃ (j d k : Nat) (D g : Int), j < p ∧ d < p ∧ (d : ZMod p) = -16 * (4 * (a : ZMod p) ^ 3 + 27 * (b : ZMod p) ^ 2) ∧ (j : ZMod p) * d = (-48 * (a : ZMod p)) ^ 3 ∧
    Degree p N k ∧ Fundamental D ∧ D < 0 ∧ D * g ^ 2 = ((p : Int) + 1 - N) ^ 2 - 4 * p ∧
    info = [("j", decimal j), ("discriminant", decimal d), ("embedding_degree", decimal k), ("frobenius", decimal ((p : Int) + 1 - N)),
      ("cm_discriminant", decimal D), ("conductor", decimal g)]

/-- the metadata but for the discriminant of the equation -/
def apart (info : List (String × Text)) : List (String × Text) := info.filter fun i => i.1 ≠ "discriminant"

/-! ### The search -/

variable {prime : Bool} {N : Nat} {T : Nat → Pick}

/-- wherever the search from `w` computes the metadata, the texts are those of the curve at hand -/
def MetaRight (P : Pari) (c : Config) (zn : Nat → Nat → Nat) (core2 : Int → Int × Int) (w : W) : Prop :=
  ∀ st, Reaches (setup P c) 0 9 0 (Engine.init 0 (fresh w)) st → st.state = 8 → st.w.pick.cut = none → st.w.pick.fail 8 = none →
    ∀ E n, st.w.cur.crv = some E → st.w.cur.order = some n → ∀ t, metaText zn core2 E n = some t → st.w.pick.info = t

/-- what is known in the course of a search -/
theorem reached (P : Pari) (hP : P.Ok) (c : Config) (h : c.method = METHOD_CM) (hacc : accepted P c = some (N, prime)) (hT : TapeOk P c prime N T) (w : W) (hw : Behaves T w)
    (st : Engine.St W) (hr : Reaches (setup P c) 0 9 0 (Engine.init 0 (fresh w)) st) : Inv P c prime N T st.state st.w.cur ∧ Behaves T st.w := by
  refine (Engine.reaches_inv (setup P c) 0 9 0 (fun s v => s ≤ 9 ∧ Inv P c prime N T s v.cur ∧ Behaves T v) ?_ ?_ _ st (Nat.zero_le _)
    ⟨Nat.zero_le _, inv_low (Nat.zero_le 4) (fun _ => rfl) rfl, hw⟩ hr).2.2
  · rintro s v d v' - hs ⟨-, hi, hb⟩ hsucc
    obtain ⟨rfl, h1, h2⟩ := keep_ok P hP c h hacc hT s v d v' hs hi hb hsucc
    exact ⟨by simp only [Int.toNat_one]; omega, h1, h2⟩
  · rintro s v d v' - hs ⟨-, hi, hb⟩ hf h0
    obtain ⟨h1, h2⟩ := keep_fail P hP c h hacc hT s v d v' hs hi hb hf
    obtain ⟨k, hk, e, h3⟩ := h2 h0
    have e' : max ((s : Int) + d).toNat 0 = k := by omega
    rw [e']
    exact ⟨by omega, cleaned_inv hk h3, (cleaned_keeps P c k s v').2.2.trans h1⟩

theorem act_info (P : Pari) (hP : P.Ok) (c : Config) (h : c.method = METHOD_CM) (hacc : accepted P c = some (N, prime)) (hm : c.metadata = true) (p : Pick) (x x' : Cur) (d : Int)
    (ha : act P c p 8 x = some (x', d)) : x' = { x with info := p.info } := by
  have htab := (table hP h hacc).2.2.2.2.2.2.2.2.1
  simp only [act, stageOf, htab, hm, if_true, Option.bind_some, id, call, Whole.call, Option.some.injEq, Prod.mk.injEq] at ha
  exact ha.1.symm

theorem meta_own (P : Pari) (hP : P.Ok) (c : Config) (h : c.method = METHOD_CM) (hacc : accepted P c = some (N, prime)) (hT : TapeOk P c prime N T) (hm : c.metadata = true)
    (zn : Nat → Nat → Nat) (core2 : Int → Int × Int) (w : W) (hw : Behaves T w) (hr : MetaRight P c zn core2 w) (st : Engine.St W)
    (hst : Reaches (setup P c) 0 9 0 (Engine.init 0 (fresh w)) st) (h9 : 9 ≤ st.state) : Own zn core2 st.w.cur := by
  cases hst with
  | refl => exact absurd h9 (Nat.not_succ_le_zero 8)
  | next h1 h2 h3 =>
    rename_i b
    obtain ⟨hi, hb⟩ := reached P hP c h hacc hT w hw b h1
    rcases Engine.step_cases (setup P c) 0 b (Nat.zero_le _) with ⟨s1, d, w', e1, e2, e3, e4⟩ | ⟨s1, d, w', e1, e2, e0, e3, e4⟩ | ⟨s1, d, w', e1, -⟩
    · rw [h3] at e1
      cases e1
      obtain ⟨rfl, -, hb'⟩ := keep_ok P hP c h hacc hT _ _ d w' h2 hi hb e2
      rw [e4]
      rw [e3] at h9
      obtain ⟨w1, hg, -, hpass⟩ := e2
      have hs : b.state = 8 := by
        simp only [Int.toNat_one] at h9
        omega
      have hgc := hg
      rcases gen_cases P c b.state b.w w1 _ hg with ⟨x, -, -, k⟩ | ⟨d, k1, -, k2⟩ | ⟨x, d, k1, rfl, -⟩ | ⟨-, k⟩
      · cases k
      · cases k2
        have := (failures_spec _ _ ((pick_ok hT hb).fail b.state 1 k1)).1
        omega
      · rw [checks_eq] at hpass
        rw [(passes_spec _ _ _ hpass).1]
        rw [hs] at k1
        obtain rfl := act_info P hP c h hacc hm _ _ _ _ k1
        have hcut : b.w.pick.cut = none := by
          cases hc : b.w.pick.cut with
          | none => rfl
          | some y =>
            change gen P c (tables P c) b.state b.w = _ at hgc
            simp only [gen, hc] at hgc
            cases congrArg Prod.snd hgc
        have hfl : b.w.pick.fail 8 = none := by
          cases hf : b.w.pick.fail 8 with
          | none => rfl
          | some y =>
            change gen P c (tables P c) b.state b.w = _ at hgc
            simp only [gen, hcut, hs, hf] at hgc
            cases congrArg Prod.snd hgc
            have := (failures_spec _ _ ((pick_ok hT hb).fail 8 1 hf)).1
            omega
        intro E n q1 q2 t ht
        exact hr b h1 hs hcut hfl E n q1 q2 t ht
      · cases k
    · rw [h3] at e1
      cases e1
      obtain ⟨hb', e5⟩ := keep_fail P hP c h hacc hT _ _ d w' h2 hi hb e2
      obtain ⟨k, hk, e, -⟩ := e5 e0
      have e6 : st.state = k := by
        rw [e3, e]
        simp
      omega
    · rw [h3] at e1
      cases e1

/-- the worlds in which the searches of a run begin -/
inductive Begins (P : Pari) (c : Config) (fuel : Nat) (w : W) : W → Prop
  | first : Begins P c fuel w w
  | next {w' v w''} : Begins P c fuel w w' → one P c fuel w' = (some v, w'') → Begins P c fuel w w''

/-- a printed curve has the texts of the curve that was constructed -/
def Carried (P : Pari) (prime : Bool) (N : Nat) (T : Nat → Pick) (zn : Nat → Nat → Nat) (core2 : Int → Int × Int) (v : Output.Curve) : Prop :=
  ∃ i r, built P (T i) prime N = some r ∧ ∃ hp : r.p.Prime, (obj r.p hp r.a.val r.b.val).eqn.Δ ≠ 0 ∧ (curveV v).field = .prime r.p ∧ (curveV v).a = r.a.val ∧
    (curveV v).b = r.b.val ∧ v.order = N ∧ ∀ t, metaText zn core2 (obj r.p hp r.a.val r.b.val) N = some t → v.info = t

theorem meta_one (P : Pari) (hP : P.Ok) (c : Config) (h : c.method = METHOD_CM) (hacc : accepted P c = some (N, prime)) (hT : TapeOk P c prime N T) (hm : c.metadata = true)
    (zn : Nat → Nat → Nat) (core2 : Int → Int × Int) (w : W) (hw : Behaves T w) (hr : MetaRight P c zn core2 w) (fuel : Nat) (v : Output.Curve) (w' : W)
    (h1 : one P c fuel w = (some v, w')) : Behaves T w' ∧ Carried P prime N T zn core2 v := by
  unfold one at h1
  cases hg : Engine.gen (setup P c) 0 9 fuel (fresh w) with
  | none => rw [hg] at h1; cases h1
  | some r =>
    obtain ⟨r, st⟩ := r
    rw [hg] at h1
    simp only [Prod.mk.injEq] at h1
    obtain ⟨h1, rfl⟩ := h1
    have hgg := hg
    obtain ⟨hbb, ⟨rfl, hi⟩ | rfl⟩ := search P hP c h hacc hT fuel (fresh w) hw (inv_low (by decide) (fun _ => rfl) rfl) r st hg
    · rw [if_neg (by decide)] at h1
      unfold Engine.gen Engine.genRetry at hgg
      rw [if_neg (by decide), if_neg (by decide)] at hgg
      obtain ⟨k1, k2⟩ := loop_reaches _ _ _ _ _ _ hgg
      have ho := meta_own P hP c h hacc hT hm zn core2 w hw hr st k1 k2
      refine ⟨hbb, ?_⟩
      obtain ⟨r, hp, hk⟩ := hi.known (by omega)
      obtain ⟨i, hb⟩ := hk.built
      have hord := hk.order (by omega)
      unfold outCurve at h1
      rw [hk.field, hk.a, hk.b, hord] at h1
      split at h1
      · rename_i g1 g2 g3 g4 g5
        cases g1
        cases g2
        cases g3
        cases g4
        obtain ⟨gs, -, rfl⟩ := Option.map_eq_some_iff.1 h1
        have : Fact r.p.Prime := ⟨hp⟩
        exact ⟨i, r, hb, hp, hk.disc, fieldV_out (Fp r.p hp), Nat.mod_eq_of_lt (ZMod.val_lt _), Nat.mod_eq_of_lt (ZMod.val_lt _), rfl, fun t ht => ho _ _ hk.crv hord t ht⟩
      · cases h1
    · rw [if_pos rfl] at h1
      cases h1

theorem meta_carried (P : Pari) (hP : P.Ok) (c : Config) (h : c.method = METHOD_CM) (hacc : accepted P c = some (N, prime)) (hm : c.metadata = true)
    (zn : Nat → Nat → Nat) (core2 : Int → Int × Int) (fuel : Nat) (w : W) (hT : TapeOk P c prime N w.tape) (hr : ∀ w', Begins P c fuel w w' → MetaRight P c zn core2 w') :
    ∀ v ∈ Json.objects (produce P c fuel w).1, Carried P prime N w.tape zn core2 v := by
  intro v hv
  unfold produce at hv
  rw [hacc] at hv
  dsimp only at hv
  rw [(Json.generate_objects _ _ _).1] at hv
  generalize toSize c.count = n at hv
  have key : ∀ (n : Nat) (w' : W), Begins P c fuel w w' → Behaves w.tape w' → v ∈ Json.generated (one P c fuel) n w' → Carried P prime N w.tape zn core2 v := by
    intro n
    induction n with
    | zero => intro w' _ _ hv; cases hv
    | succ n ih =>
      intro w' hb ht hv
      unfold Json.generated at hv
      cases ho : one P c fuel w' with
      | mk o w'' =>
        rw [ho] at hv
        cases o with
        | none => cases hv
        | some u =>
          obtain ⟨k1, k2⟩ := meta_one P hP c h hacc hT hm zn core2 w' ht (hr w' hb) fuel u w'' ho
          simp only [List.mem_cons] at hv
          rcases hv with rfl | hv
          · exact k2
          · exact ih w'' (.next hb ho) k1 hv
  exact key n w .first rfl hv

/-! ### Numbers -/

theorem disc_short {p : Nat} [Fact p.Prime] (a b : ZMod p) : (Invalid.primeCurve a b).Δ = -16 * (4 * a ^ 3 + 27 * b ^ 2) := by
  simp only [WeierstrassCurve.Δ, WeierstrassCurve.b₂, WeierstrassCurve.b₄, WeierstrassCurve.b₆, WeierstrassCurve.b₈, Invalid.primeCurve]
  ring

theorem c4_short {p : Nat} [Fact p.Prime] (a b : ZMod p) : (Invalid.primeCurve a b).c₄ = -48 * a := by
  simp only [WeierstrassCurve.c₄, WeierstrassCurve.b₂, WeierstrassCurve.b₄, Invalid.primeCurve]
  ring

/-- the texts of a curve over a prime field -/
theorem metaText_prime (zn : Nat → Nat → Nat) (hz : Order.ZnSpec zn) (core2 : Int → Int × Int) (hc : Meta.CorediscSpec core2) (p n : Nat) (hp : p.Prime) (h50 : 50 ≤ n)
    (hh : ((p : Int) + 1 - n) ^ 2 ≤ 4 * p) : ∃ (k : Nat) (D g : Int), Degree p n k ∧ Fundamental D ∧ D < 0 ∧ D * g ^ 2 = ((p : Int) + 1 - n) ^ 2 - 4 * p ∧
      ∀ a b, metaText zn core2 (obj p hp a b) n = some [("j", decimal (num (Fp p hp) ((obj p hp a b).eqn.c₄ ^ 3 / (obj p hp a b).eqn.Δ))),
        ("discriminant", decimal (num (Fp p hp) (obj p hp a b).eqn.Δ)), ("embedding_degree", decimal k), ("frobenius", decimal ((p : Int) + 1 - n)),
        ("cm_discriminant", decimal D), ("conductor", decimal g)] := by
  have hp1 : (1 : Int) < p := by exact_mod_cast hp.one_lt
  have h50' : (50 : Int) ≤ n := by exact_mod_cast h50
  have hle : n ≤ 2 * p + 1 := by
    by_contra hlt
    have : (2 * p + 2 : Int) ≤ n := by exact_mod_cast (by omega : 2 * p + 2 ≤ n)
    nlinarith
  have hne : n ≠ 2 * p := by
    intro e
    have e' : (n : Int) = 2 * p := by exact_mod_cast e
    rw [e'] at hh h50'
    nlinarith
  obtain ⟨k, D, g, e1, e2, e3, e4⟩ := prime_meta zn hz core2 hc p n hp (by omega) hle hne
  refine ⟨k, D, g, e4, e3, ?_, e2, fun a b => ?_⟩
  · have hneq : ((p : Int) + 1 - n) ^ 2 ≠ 4 * p := by
      intro e
      obtain ⟨y, hy⟩ : (2 : Int) ∣ (p : Int) + 1 - n := Int.prime_two.dvd_of_dvd_pow (n := 2) ⟨2 * p, by rw [e]; ring⟩
      rw [hy] at e
      exact (Nat.prime_iff_prime_int.1 hp).irreducible.not_isSquare ⟨y, by linarith⟩
    have hlt : D * g ^ 2 < 0 := by
      rw [e2]
      have := lt_of_le_of_ne hh hneq
      omega
    by_contra hD
    have := mul_nonneg (not_lt.1 hD) (sq_nonneg g)
    omega
  · have e : metaText zn core2 (obj p hp a b) n = (Meta.genPrime zn core2 p n).map (texts (num (Fp p hp) ((obj p hp a b).eqn.c₄ ^ 3 / (obj p hp a b).eqn.Δ))
        (num (Fp p hp) (obj p hp a b).eqn.Δ)) := rfl
    rw [e, e1]
    rfl

/-- **C112** With `--metadata`, every curve that `--order` prints comes with the j-invariant and the discriminant of its equation, and with the embedding degree, the trace, the fundamental
discriminant and the conductor that belong to the order that was asked for. -/
theorem order_meta_run (P : Pari) (hP : P.Ok) (c : Config) (h : c.method = METHOD_CM) (hacc : accepted P c = some (N, prime)) (h50 : 50 ≤ N) (hm : c.metadata = true)
    (zn : Nat → Nat → Nat) (hz : Order.ZnSpec zn) (core2 : Int → Int × Int) (hc : Meta.CorediscSpec core2) (fuel : Nat) (w : W) (hT : TapeOk P c prime N w.tape)
    (hC : Calls.Ok P w.tape) (hr : ∀ w', Begins P c fuel w w' → MetaRight P c zn core2 w') :
    ∀ v ∈ Json.objects (produce P c fuel w).1, ∃ p, p.Prime ∧ (curveV v).field = .prime p ∧ (curveV v).order = N ∧ Described p N (curveV v).a (curveV v).b v.info := by
  intro v hv
  obtain ⟨i, r, hb, hp, hd, f1, f2, f3, f4, f5⟩ := meta_carried P hP c h hacc hm zn core2 fuel w hT hr v hv
  refine ⟨r.p, hp, f1, f4, ?_⟩
  obtain ⟨k, D, g, e1, e2, e3, e4, e5⟩ := metaText_prime zn hz core2 hc r.p N hp h50 (built_hasse hP hC hb)
  have : Fact r.p.Prime := ⟨hp⟩
  have hE := Special.eqn_obj r.p hp r.a.val r.b.val
  have hΔ : ((num (Fp r.p hp) (obj r.p hp r.a.val r.b.val).eqn.Δ : Nat) : ZMod r.p) = -16 * (4 * ((r.a.val : Nat) : ZMod r.p) ^ 3 + 27 * ((r.b.val : Nat) : ZMod r.p) ^ 2) :=
    (elem_num (Fp r.p hp) _).trans ((congrArg WeierstrassCurve.Δ hE).trans (disc_short _ _))
  refine ⟨_, _, k, D, g, num_lt (Fp r.p hp) _, num_lt (Fp r.p hp) _, ?_, ?_, e1, e2, e3, e4, f5 _ (e5 _ _)⟩
  · rw [f2, f3]
    exact hΔ
  · rw [f2]
    have h4 : (obj r.p hp r.a.val r.b.val).eqn.c₄ = (-48 * ((r.a.val : Nat) : ZMod r.p) : ZMod r.p) := (congrArg WeierstrassCurve.c₄ hE).trans (c4_short _ _)
    have hj := elem_num (Fp r.p hp) ((obj r.p hp r.a.val r.b.val).eqn.c₄ ^ 3 / (obj r.p hp r.a.val r.b.val).eqn.Δ)
    have hdd := elem_num (Fp r.p hp) ((obj r.p hp r.a.val r.b.val).eqn.Δ)
    have : elem (Fp r.p hp) (num (Fp r.p hp) ((obj r.p hp r.a.val r.b.val).eqn.c₄ ^ 3 / (obj r.p hp r.a.val r.b.val).eqn.Δ)) *
        elem (Fp r.p hp) (num (Fp r.p hp) ((obj r.p hp r.a.val r.b.val).eqn.Δ)) = (obj r.p hp r.a.val r.b.val).eqn.c₄ ^ 3 := by
      rw [hj, hdd, div_mul_cancel₀ _ hd]
    rw [h4] at this
    rw [← h4] at this ⊢
    exact this

/-- isomorphic curves have the same j-invariant -/
theorem same_j {p : Nat} [Fact p.Prime] (a b u : ZMod p) (hu : u ≠ 0) :
    (Invalid.primeCurve (u ^ 4 * a) (u ^ 6 * b)).c₄ ^ 3 / (Invalid.primeCurve (u ^ 4 * a) (u ^ 6 * b)).Δ = (Invalid.primeCurve a b).c₄ ^ 3 / (Invalid.primeCurve a b).Δ := by
  rw [c4_short, c4_short, disc_short, disc_short]
  have h1 : (-48 * (u ^ 4 * a)) ^ 3 = u ^ 12 * (-48 * a) ^ 3 := by ring
  have h2 : -16 * (4 * (u ^ 4 * a) ^ 3 + 27 * (u ^ 6 * b) ^ 2) = u ^ 12 * (-16 * (4 * a ^ 3 + 27 * b ^ 2)) := by ring
  rw [h1, h2, mul_div_mul_left _ _ (pow_ne_zero 12 hu)]

/-- **C112** Whatever two runs of `--order` with `--metadata` for the same order do: but for the discriminant of the equation the metadata that they print are the same. (Partial as
C110: odd orders of at least 50 that leave the remainder 2 modulo 3.) -/
theorem order_meta_agree_partial (P : Pari) (hP : P.Ok) (ns : List Nat) (h50 : 50 ≤ ns.prod) (h3 : ns.prod % 3 = 2) (hodd : ns.prod % 2 = 1)
    (zn : Nat → Nat → Nat) (hz : Order.ZnSpec zn) (core2 : Int → Int × Int) (hc : Meta.CorediscSpec core2)
    (n : Int) (os : List Opt) (c : Config) (h : commandLine n os = some c) (ha : c.method = METHOD_CM) (hf : ∀ s, Opt.order s ∈ os → Factors s ns) (hm : c.metadata = true)
    (n' : Int) (os' : List Opt) (c' : Config) (h' : commandLine n' os' = some c') (ha' : c'.method = METHOD_CM) (hf' : ∀ s, Opt.order s ∈ os' → Factors s ns) (hm' : c'.metadata = true)
    (fuel : Nat) (w : W) (hT : ∀ N prime, accepted P c = some (N, prime) → TapeOk P c prime N w.tape) (hC : Calls.Ok P w.tape)
    (hd : ¬ (ns.length = 1 ∧ ns.prod.Prime) → Decided P ns.prod w.tape) (hr : ∀ x, Begins P c fuel w x → MetaRight P c zn core2 x)
    (fuel' : Nat) (w' : W) (hT' : ∀ N prime, accepted P c' = some (N, prime) → TapeOk P c' prime N w'.tape) (hC' : Calls.Ok P w'.tape)
    (hd' : ¬ (ns.length = 1 ∧ ns.prod.Prime) → Decided P ns.prod w'.tape) (hr' : ∀ x, Begins P c' fuel' w' x → MetaRight P c' zn core2 x)
    (v v' : Output.Curve) (hv : v ∈ Json.objects (produce P c fuel w).1) (hv' : v' ∈ Json.objects (produce P c' fuel' w').1) :
    apart v.info = apart v'.info := by
  obtain ⟨p, hp, e1, e2, ⟨u, hu, eu, ev⟩, -⟩ := order_runs_agree_partial P hP ns h50 h3 hodd n os c h ha hf n' os' c' h' ha' hf' fuel w hT hC hd fuel' w' hT' hC' hd' v v' hv hv'
  have acc : ∀ {n : Int} {os : List Opt} {c : Config} {fuel : Nat} {w : W} {v : Output.Curve}, commandLine n os = some c → c.method = METHOD_CM → (∀ s, Opt.order s ∈ os → Factors s ns) →
      v ∈ Json.objects (produce P c fuel w).1 → ∃ prime, accepted P c = some (ns.prod, prime) := by
    intro n os c fuel w v h ha hf hv
    unfold produce at hv
    split at hv
    · cases hv
    · rename_i q hacc
      obtain ⟨N, prime⟩ := q
      obtain ⟨rfl, -⟩ := accepted_factors hP ns (typed n os c h ha ns hf) hacc
      exact ⟨prime, hacc⟩
  obtain ⟨prime, hacc⟩ := acc h ha hf hv
  obtain ⟨prime', hacc'⟩ := acc h' ha' hf' hv'
  obtain ⟨i, r, hb, hp1, -, f1, f2, f3, -, f5⟩ := meta_carried P hP c ha hacc hm zn core2 fuel w (hT _ _ hacc) hr v hv
  obtain ⟨i', r', hb', hp1', -, f1', f2', f3', -, f5'⟩ := meta_carried P hP c' ha' hacc' hm' zn core2 fuel' w' (hT' _ _ hacc') hr' v' hv'
  have g1 : r.p = p := by rw [f1] at e1; exact FieldV.prime.inj e1
  have g2 : r'.p = p := by rw [f1'] at e2; exact FieldV.prime.inj e2
  have hh := built_hasse hP hC hb
  obtain ⟨D, q, a, b⟩ := r
  obtain ⟨D', q', a', b'⟩ := r'
  dsimp only at g1 g2 f1 f2 f3 f5 f1' f2' f3' f5' hh
  subst g1
  subst g2
  obtain ⟨k, D, g, -, -, -, -, e5⟩ := metaText_prime zn hz core2 hc q' ns.prod hp h50 hh
  rw [f5 _ (e5 _ _), f5' _ (e5 _ _)]
  have : Fact q'.Prime := ⟨hp⟩
  have hj : (obj q' hp a'.val b'.val).eqn.c₄ ^ 3 / (obj q' hp a'.val b'.val).eqn.Δ = (obj q' hp a.val b.val).eqn.c₄ ^ 3 / (obj q' hp a.val b.val).eqn.Δ := by
    have k1 := Special.eqn_obj q' hp a.val b.val
    have k2 := Special.eqn_obj q' hp a'.val b'.val
    rw [f2, f2'] at eu
    rw [f3, f3'] at ev
    rw [eu, ev] at k2
    have k3 := same_j ((a.val : Nat) : ZMod q') ((b.val : Nat) : ZMod q') u hu
    rw [← k1, ← k2] at k3
    exact k3
  rw [hj]
  rfl

/-! ### The hypotheses can be met -/

/-- PARI's functions, with the values needed here filled in -/
theorem functionsN : ∃ zn core2, Order.ZnSpec zn ∧ Meta.CorediscSpec core2 ∧ zn 131 125 = 25 ∧ core2 (-475) = (-19, 5) := by
  obtain ⟨zn, hz⟩ := Order.zn_inhabited
  obtain ⟨core2, hc⟩ := coredisc_inhabited
  refine ⟨fun p n => if p = 131 ∧ n = 125 then 25 else zn p n, fun x => if x = -475 then (-19, 5) else core2 x, ?_, ?_, by simp, by simp⟩
  · intro p n hn hco
    by_cases h : p = 131 ∧ n = 125
    · obtain ⟨rfl, rfl⟩ := h
      have key : ∀ j : Fin 25, 0 < j.1 → ¬ 125 ∣ 131 ^ j.1 - 1 := by decide +kernel
      exact ⟨show 0 < 25 by decide, show 125 ∣ 131 ^ 25 - 1 by decide +kernel, fun j h0 h1 => key ⟨j, h1⟩ h0⟩
    · simp only [if_neg h]
      exact hz p n hn hco
  · intro x h0 h4
    by_cases h : x = -475
    · subst h
      refine ⟨show (-475 : Int) = -19 * 5 ^ 2 by decide, Or.inl ⟨show (-19 : Int) % 4 = 1 by decide, ?_⟩⟩
      refine Irreducible.squarefree (Prime.irreducible (Int.prime_iff_natAbs_prime.2 ?_))
      exact (by norm_num : Nat.Prime 19)
    · simp only [if_neg h]
      exact hc x h0 h4

/-- the metadata of `y² = x³ + 90x + 6` over the field of 131 elements -/
def infoN : List (String × Text) := [("j", "38".toList), ("discriminant", "80".toList), ("embedding_degree", "25".toList), ("frobenius", "7".toList),
  ("cm_discriminant", "-19".toList), ("conductor", "5".toList)]

theorem numbers_131 : -16 * (4 * ((90 : Nat) : ZMod 131) ^ 3 + 27 * ((6 : Nat) : ZMod 131) ^ 2) = ((80 : Nat) : ZMod 131) ∧ -48 * ((90 : Nat) : ZMod 131) = ((3 : Nat) : ZMod 131) ∧
    ((3 : Nat) : ZMod 131) ^ 3 = ((38 : Nat) : ZMod 131) * ((80 : Nat) : ZMod 131) := by decide +kernel

theorem metaTextN (zn : Nat → Nat → Nat) (core2 : Int → Int × Int) (h1 : zn 131 125 = 25) (h2 : core2 (-475) = (-19, 5)) : metaText zn core2 (obj 131 p131 90 6) 125 = some infoN := by
  have hE := Special.eqn_obj 131 p131 90 6
  have : Fact (Nat.Prime 131) := ⟨p131⟩
  have hd : (obj 131 p131 90 6).eqn.Δ = elem (Fp 131 p131) 80 := by
    exact (congrArg WeierstrassCurve.Δ hE).trans ((disc_short _ _).trans numbers_131.1)
  have hc : (obj 131 p131 90 6).eqn.c₄ = elem (Fp 131 p131) 3 := by
    exact (congrArg WeierstrassCurve.c₄ hE).trans ((c4_short _ _).trans numbers_131.2.1)
  have hj : (obj 131 p131 90 6).eqn.c₄ ^ 3 / (obj 131 p131 90 6).eqn.Δ = elem (Fp 131 p131) 38 := by
    have h0 : (obj 131 p131 90 6).eqn.Δ ≠ 0 := deltaN
    rw [div_eq_iff h0, hc, hd]
    exact numbers_131.2.2
  have hn : ∀ m, m < 131 → num (Fp 131 p131) (elem (Fp 131 p131) m) = m := fun m hm => num_elem (Fp 131 p131) m hm
  have hg : Meta.genPrime zn core2 131 125 = some ⟨some 25, 7, some (-19), some 5⟩ := by
    have : Meta.embedding? zn 131 125 = some 25 := by unfold Meta.embedding?; rw [if_neg (by decide), if_pos (by decide), h1]
    unfold Meta.genPrime
    rw [this]
    simp only [show (((131 : Nat) : Int) + 1 - (125 : Nat)) ^ 2 - ((131 : Nat) : Int) * 4 = -475 by decide, h2]
    rfl
  have e : metaText zn core2 (obj 131 p131 90 6) 125 = (Meta.genPrime zn core2 131 125).map
      (texts (num (Fp 131 p131) ((obj 131 p131 90 6).eqn.c₄ ^ 3 / (obj 131 p131 90 6).eqn.Δ)) (num (Fp 131 p131) (obj 131 p131 90 6).eqn.Δ)) := rfl
  rw [e, hg, hj, hd, hn 38 (by decide), hn 80 (by decide)]
  exact congrArg some (by decide +kernel)

/-- `--fp --metadata --order=125 8` -/
def cI : Config := (commandLine 4 [.fp, .metadata, .order "125".toList, .arg "8".toList]).get (by decide +kernel)

theorem cI_some : commandLine 4 [.fp, .metadata, .order "125".toList, .arg "8".toList] = some cI := (Option.some_get _).symm

theorem cI_method : cI.method = METHOD_CM := by decide +kernel

theorem accI : accepted pariN cI = some (125, false) := by
  have e : ∀ c : Config, c.bits = cN.bits → c.cmOrder = cN.cmOrder → accepted pariN c = accepted pariN cN := fun c h1 h2 => by unfold accepted; rw [h1, h2]
  rw [e cI (by decide +kernel) (by decide +kernel), accN]

noncomputable def pickI : Pick := { pickN with info := infoN }

theorem builtI : built pariN pickI false 125 = some ⟨-19, 131, 90, 6⟩ := builtN

theorem callsI : Calls.Ok pariN fun _ => pickI := ⟨callsN.cornacchia2, callsN.traces, callsN.roots, callsN.twist, callsN.rand, callsN.rands⟩

theorem tapeI : TapeOk pariN cI false 125 fun _ => pickI :=
  ⟨fun i => { (tapeN cI).picks i with info := by decide +kernel }, fun i j r hp hb hd => (tapeN cI).gens i j r hp hb hd⟩

theorem rightI (zn : Nat → Nat → Nat) (core2 : Int → Int × Int) (h1 : zn 131 125 = 25) (h2 : core2 (-475) = (-19, 5)) (w : W) (hw : Behaves (fun _ => pickI) w) :
    MetaRight pariN cI zn core2 w := by
  intro st hst h8 _ _ E n hE hn t hm
  obtain ⟨hi, hb⟩ := reached pariN pariN_ok cI cI_method accI tapeI w hw st hst
  have hpick : st.w.pick = pickI := pick_eq hb
  obtain ⟨r, hp, hk⟩ := hi.known (by omega)
  obtain ⟨j, hbt⟩ := hk.built
  rw [hk.crv] at hE
  rw [hk.order (by omega)] at hn
  obtain rfl := Option.some.inj hn
  have hbt' : built pariN pickI false 125 = some r := hbt
  rw [builtI] at hbt'
  cases hbt'
  obtain rfl := Option.some.inj hE
  rw [hpick]
  exact Option.some.inj ((metaTextN zn core2 h1 h2).symm.trans hm)

theorem beginsI (w : W) (h : Begins pariN cI 9 ⟨{}, fun _ => pickI, 0, false⟩ w) : Behaves (fun _ => pickI) w := by
  induction h with
  | first => rfl
  | next h3 h4 ih =>
    unfold one at h4
    rename_i y z y'
    cases hg : Engine.gen (setup pariN cI) 0 9 9 (fresh y) with
    | none => rw [hg] at h4; cases h4
    | some q =>
      rw [hg] at h4
      dsimp only at h4
      obtain rfl := (Prod.mk.inj h4).2
      exact (search pariN pariN_ok cI cI_method accI tapeI 9 (fresh y) ih (inv_low (by decide) (fun _ => rfl) rfl) q.1 q.2 hg).1

/-- **C112, met**: `ecgen --fp --metadata --order=125 8` can print a curve over the field of 131 elements with its metadata -/
theorem order_meta_met : ∃ (zn : Nat → Nat → Nat) (core2 : Int → Int × Int) (w : W) (v : Output.Curve), commandLine 4 [.fp, .metadata, .order "125".toList, .arg "8".toList] = some cI ∧
    cI.method = METHOD_CM ∧ cI.metadata = true ∧ (∀ s, Opt.order s ∈ [Opt.fp, .metadata, .order "125".toList, .arg "8".toList] → Factors s [125]) ∧ pariN.Ok ∧
    accepted pariN cI = some (125, false) ∧ Order.ZnSpec zn ∧ Meta.CorediscSpec core2 ∧ TapeOk pariN cI false 125 w.tape ∧ Calls.Ok pariN w.tape ∧ Decided pariN 125 w.tape ∧
    (∀ x, Begins pariN cI 9 w x → MetaRight pariN cI zn core2 x) ∧ v ∈ Json.objects (produce pariN cI 9 w).1 ∧ v.info = infoN := by
  obtain ⟨zn, core2, hz, hc, h1, h2⟩ := functionsN
  have hr : ∀ x, Begins pariN cI 9 ⟨{}, fun _ => pickI, 0, false⟩ x → MetaRight pariN cI zn core2 x := fun x hx => rightI zn core2 h1 h2 x (beginsI x hx)
  have hf : Fine pariN cI false 125 fun _ => pickI := by
    intro i r hp hb hd
    refine ⟨fun h => absurd h (by decide +kernel), fun h => ?_⟩
    rcases h with h | h
    · exact absurd h (by decide +kernel)
    · exact absurd h (by decide +kernel)
  obtain ⟨st, hst⟩ := order_search_ends pariN pariN_ok cI cI_method accI ⟨{}, fun _ => pickI, 0, false⟩ tapeI callsI hf
    ⟨fun _ => rfl, fun _ _ => rfl, fun _ => rfl⟩ (fun _ => ⟨_, builtI, p131, deltaN⟩) (fun h => absurd h (by decide +kernel))
  obtain h0 | ⟨v, hv⟩ := order_found_is_printed_partial pariN pariN_ok cI cI_method accI (Or.inl (by decide +kernel)) 9 _ tapeI 1 st hst
  · cases h0
  have hmem : v ∈ Json.objects (produce pariN cI 9 ⟨{}, fun _ => pickI, 0, false⟩).1 := by
    simp only [produce, accI]
    rw [(Json.generate_objects _ _ _).1, show toSize cI.count = 1 by decide +kernel]
    simp only [Json.generated, hv, List.mem_singleton]
  refine ⟨zn, core2, ⟨{}, fun _ => pickI, 0, false⟩, v, cI_some, cI_method, by decide +kernel, ?_, pariN_ok, accI, hz, hc, tapeI, callsI, decidedN, hr, hmem, ?_⟩
  · intro s hs
    simp only [List.mem_cons, List.not_mem_nil, or_false, reduceCtorEq, false_or, Opt.order.injEq] at hs
    exact factors_125 s hs
  · obtain ⟨i, r, hb, hp, -, -, -, -, -, f5⟩ := meta_carried pariN pariN_ok cI cI_method accI (by decide +kernel) zn core2 9 _ tapeI hr v hmem
    have hb' : built pariN pickI false 125 = some r := hb
    rw [builtI] at hb'
    cases hb'
    exact f5 _ (metaTextN zn core2 h1 h2)

/-! ### The wrong curve of C88 -/

/-- `--fp --metadata --order=61 6` -/
def cY : Config := (commandLine 4 [.fp, .metadata, .order "61".toList, .arg "6".toList]).get (by decide +kernel)

theorem cY_some : commandLine 4 [.fp, .metadata, .order "61".toList, .arg "6".toList] = some cY := (Option.some_get _).symm

theorem cY_method : cY.method = METHOD_CM := by decide +kernel

theorem accY : accepted pariX cY = some (61, true) := by
  have e : ∀ c : Config, c.bits = cX.bits → c.cmOrder = cX.cmOrder → accepted pariX c = accepted pariX cX := fun c h1 h2 => by unfold accepted; rw [h1, h2]
  rw [e cY (by decide +kernel) (by decide +kernel), accX]

noncomputable def pickY (i : List (String × Text)) : Pick := { pickX with info := i }

theorem builtY (i : List (String × Text)) : built pariX (pickY i) true 61 = some ⟨-3, 61, 0, 8⟩ := builtX

theorem rightY (zn : Nat → Nat → Nat) (core2 : Int → Int × Int) (i : List (String × Text)) (hi : metaText zn core2 (obj 61 p61 (0 : ZMod 61).val (8 : ZMod 61).val) 61 = some i)
    (hT : TapeOk pariX cY true 61 fun _ => pickY i) (w : W) (hw : Behaves (fun _ => pickY i) w) : MetaRight pariX cY zn core2 w := by
  intro st hst h8 _ _ E n hE hn t hm
  obtain ⟨hk, hb⟩ := reached pariX (pari_ok _ _) cY cY_method accY hT w hw st hst
  have hpick : st.w.pick = pickY i := pick_eq hb
  obtain ⟨r, hp, hk⟩ := hk.known (by omega)
  obtain ⟨j, hbt⟩ := hk.built
  rw [hk.crv] at hE
  rw [hk.order (by omega)] at hn
  obtain rfl := Option.some.inj hn
  have hbt' : built pariX (pickY i) true 61 = some r := hbt
  rw [builtY] at hbt'
  cases hbt'
  obtain rfl := Option.some.inj hE
  rw [hpick]
  exact Option.some.inj (hi.symm.trans hm)

theorem beginsY (i : List (String × Text)) (hT : TapeOk pariX cY true 61 fun _ => pickY i) (w : W) (h : Begins pariX cY 9 ⟨{}, fun _ => pickY i, 0, false⟩ w) :
    Behaves (fun _ => pickY i) w := by
  induction h with
  | first => rfl
  | next h3 h4 ih =>
    unfold one at h4
    rename_i y z y'
    cases hg : Engine.gen (setup pariX cY) 0 9 9 (fresh y) with
    | none => rw [hg] at h4; cases h4
    | some q =>
      rw [hg] at h4
      dsimp only at h4
      obtain rfl := (Prod.mk.inj h4).2
      exact (search pariX (pari_ok _ _) cY cY_method accY hT 9 (fresh y) ih (inv_low (by decide) (fun _ => rfl) rfl) q.1 q.2 hg).1

/-- **C112, where it fails**: the metadata of `--order` belong to the order that was asked for, also when the curve has another number of points (C88). `ecgen --fp --metadata --order=61 6`
can print `y² = x³ + 8` over the field of 61 elements with the embedding degree 0 and the trace 1 of an anomalous curve; the curve has 76 points and the trace -14. -/
theorem wrong_meta_printed : ∃ (zn : Nat → Nat → Nat) (core2 : Int → Int × Int) (w : W) (v : Output.Curve), commandLine 4 [.fp, .metadata, .order "61".toList, .arg "6".toList] = some cY ∧
    cY.method = METHOD_CM ∧ cY.metadata = true ∧ pariX.Ok ∧ accepted pariX cY = some (61, true) ∧ Order.ZnSpec zn ∧ Meta.CorediscSpec core2 ∧ TapeOk pariX cY true 61 w.tape ∧
    Calls.Ok pariX w.tape ∧ (∀ x, Begins pariX cY 9 w x → MetaRight pariX cY zn core2 x) ∧ v ∈ Json.objects (produce pariX cY 9 w).1 ∧
    (curveV v).field = .prime 61 ∧ (curveV v).a = 0 ∧ (curveV v).b = 8 ∧ Nat.card (curveOf 61 p61 0 8).Point = 76 ∧
    ("embedding_degree", decimal 0) ∈ v.info ∧ ("frobenius", decimal 1) ∈ v.info := by
  obtain ⟨zn, hz⟩ := Order.zn_inhabited
  obtain ⟨core2, hc⟩ := coredisc_inhabited
  obtain ⟨k, D, g, k1, -, -, -, e5⟩ := metaText_prime zn hz core2 hc 61 61 p61 (by decide) (by decide)
  obtain rfl : k = 0 := by
    rcases k1 with ⟨-, h, -⟩ | ⟨h1, h2, -⟩
    · exact h
    · exfalso
      have h3 := Nat.dvd_sub (dvd_pow_self 61 (by omega : k ≠ 0)) h2
      rw [Nat.sub_sub_self (Nat.one_le_pow _ _ (by decide))] at h3
      exact absurd (Nat.dvd_one.1 h3) (by decide)
  have hi := e5 (0 : ZMod 61).val (8 : ZMod 61).val
  generalize decimal (num (Fp 61 p61) ((obj 61 p61 (0 : ZMod 61).val (8 : ZMod 61).val).eqn.c₄ ^ 3 / (obj 61 p61 (0 : ZMod 61).val (8 : ZMod 61).val).eqn.Δ)) = tj at hi
  generalize decimal (num (Fp 61 p61) (obj 61 p61 (0 : ZMod 61).val (8 : ZMod 61).val).eqn.Δ) = td at hi
  have et : ((61 : Nat) : Int) + 1 - (61 : Nat) = 1 := by decide
  rw [et] at hi
  generalize hI : [("j", tj), ("discriminant", td), ("embedding_degree", decimal ((0 : Nat) : Int)), ("frobenius", decimal 1), ("cm_discriminant", decimal D), ("conductor", decimal g)] = I at hi
  have hT : TapeOk pariX cY true 61 fun _ => pickY I := by
    refine ⟨fun i => { pick_behaves cY 2 61 (0, 1) (2, 3) 9 with info := ?_ }, fun i j r hp hb hd => ?_⟩
    · change (∀ x ∈ I, x.1 ∈ Parson.metaNames) ∧ (I.map (·.1)).Nodup
      rw [← hI]
      simp only [List.forall_mem_cons, List.map_cons, List.map_nil]
      exact ⟨⟨by decide, by decide, by decide, by decide, by decide, by decide, fun _ h => nomatch h⟩, by decide⟩
    · have hb' : built pariX (pickY I) true 61 = some r := hb
      rw [builtY] at hb'
      cases hb'
      exact gensBy_spec _ gensX
  have hC : Calls.Ok pariX fun _ => pickY I := by
    obtain ⟨a1, a2, a3, a4, a5, a6⟩ := (wrong_order_printed (fun n => List.replicate n 0) fun n => List.length_replicate).2.2.1
    exact ⟨a1, a2, a3, a4, a5, a6⟩
  have hr : ∀ x, Begins pariX cY 9 ⟨{}, fun _ => pickY I, 0, false⟩ x → MetaRight pariX cY zn core2 x := fun x hx => rightY zn core2 I hi hT x (beginsY I hT x hx)
  have hf : Fine pariX cY true 61 fun _ => pickY I := by
    intro i r hp hb hd
    refine ⟨fun h => (nomatch h), fun h => ?_⟩
    rcases h with h | h <;> cases h
  obtain ⟨st, hst⟩ := order_search_ends pariX (pari_ok _ _) cY cY_method accY ⟨{}, fun _ => pickY I, 0, false⟩ hT hC hf
    ⟨fun _ => rfl, fun _ _ => rfl, fun _ => rfl⟩ (fun _ => ⟨_, builtY I, p61, deltaX⟩) (fun h => absurd h (by decide +kernel))
  obtain h0 | ⟨v, hv⟩ := order_found_is_printed_partial pariX (pari_ok _ _) cY cY_method accY (Or.inr (Or.inr rfl)) 9 _ hT 1 st hst
  · cases h0
  have hmem : v ∈ Json.objects (produce pariX cY 9 ⟨{}, fun _ => pickY I, 0, false⟩).1 := by
    simp only [produce, accY]
    rw [(Json.generate_objects _ _ _).1, show toSize cY.count = 1 by decide +kernel]
    simp only [Json.generated, hv, List.mem_singleton]
  obtain ⟨i, r, hb, hp, -, f1, f2, f3, -, f5⟩ := meta_carried pariX (pari_ok _ _) cY cY_method accY (by decide +kernel) zn core2 9 _ hT hr v hmem
  have hb' : built pariX (pickY I) true 61 = some r := hb
  rw [builtY] at hb'
  cases hb'
  have hv' := f5 _ hi
  refine ⟨zn, core2, ⟨{}, fun _ => pickY I, 0, false⟩, v, cY_some, cY_method, by decide +kernel, pari_ok _ _, accY, hz, hc, hT, hC, hr, hmem, f1, f2, f3, cardX, ?_, ?_⟩ <;>
    rw [hv', ← hI] <;> simp

end Ecgen.Ordered
