import Verif.Whole.MetaRun
import Verif.Special.Examples

/-!
# C111: the metadata of anomalous and supersingular curves

As C109 for the searches of `--anomalous`, `--supersingular` and `--family`. For the first two nearly all of the metadata are known beforehand.
-/

namespace Ecgen.Special

open Whole Output Output.Spec Cli
open Seeded (Fp)
open Engine (Reaches)

/-! ### Specification -/

/-- the metadata of a curve over the field of `p` elements with the embedding degree `k`, the trace `t` and the fundamental discriminant `D` -/
def Listed (p k : Nat) (t D : Int) (info : List (String × Text)) : Prop :=
  ∃ (j d : Nat) (g : Int), j < p ∧ d < p ∧ D * g ^ 2 = t ^ 2 - 4 * p ∧
    info = [("j", decimal j), ("discriminant", decimal d), ("embedding_degree", decimal k), ("frobenius", decimal t), ("cm_discriminant", decimal D), ("conductor", decimal g)]

/-! ### The search -/

variable {T : Nat → Pick}

/-- wherever the search from `w` computes the metadata, the texts are those of the curve at hand -/
def MetaRight (P : Pari) (c : Config) (zn : Nat → Nat → Nat) (core2 : Int → Int × Int) (w : W) : Prop :=
  ∀ st, Reaches (setup P c) 0 9 0 (Engine.init 0 (fresh w)) st → st.state = 8 → st.w.pick.cut = none → st.w.pick.fail 8 = none →
    ∀ E n, st.w.st.cur.crv = some E → st.w.st.cur.order = some n → ∀ t, metaText zn core2 E n = some t → st.w.pick.info = t

/-- what is known in the course of a search -/
theorem reached (P : Pari) (hP : P.toPari.Ok) (c : Config) (h : Covered c) (hT : TapeOk P c T) (hC : Cited P c T) (w : W) (hw : Behaves T w) (st : Engine.St W)
    (hr : Reaches (setup P c) 0 9 0 (Engine.init 0 (fresh w)) st) : Inv P c T st.state st.w.st ∧ Behaves T st.w := by
  refine (Engine.reaches_inv (setup P c) 0 9 0 (fun s v => s ≤ 9 ∧ Inv P c T s v.st ∧ Behaves T v) ?_ ?_ _ st (Nat.zero_le _)
    ⟨Nat.zero_le _, inv_low (Nat.zero_le 1) (fun _ => rfl) (fun _ => rfl) (fun h => absurd h Nat.zero_ne_one), hw⟩ hr).2.2
  · rintro s v d v' - hs ⟨-, hi, hb⟩ hsucc
    obtain ⟨rfl, h1, h2⟩ := keep_ok P hP c h hT hC s v d v' hs hi hb hsucc
    exact ⟨by simp only [Int.toNat_one]; omega, h1, h2⟩
  · rintro s v d v' - hs ⟨-, hi, hb⟩ hf h0
    obtain ⟨h1, h2⟩ := keep_fail P hP c h hT hC s v d v' hs hi hb hf
    obtain ⟨k, hk, e, h3⟩ := h2 h0
    have e' : max ((s : Int) + d).toNat 0 = k := by omega
    rw [e']
    exact ⟨by omega, cleaned_inv hk h3, (cleaned_keeps P c k s v').2.2.2.2.trans h1⟩

theorem act_info (P : Pari) (c : Config) (h : Covered c) (hm : c.metadata = true) (p : Pick) (x x' : St) (d : Int) (ha : act P c p 8 x = some (x', d)) :
    x' = { x with cur := { x.cur with info := p.info } } := by
  have htab := (table_common c h).2.2.2.2.2
  simp only [act, stageOf, htab, hm, if_true, Option.bind_some, id, call, Whole.call, Option.map_some, Option.some.injEq, Prod.mk.injEq] at ha
  exact ha.1.symm

theorem meta_own (P : Pari) (hP : P.toPari.Ok) (c : Config) (h : Covered c) (hT : TapeOk P c T) (hC : Cited P c T) (hm : c.metadata = true) (zn : Nat → Nat → Nat)
    (core2 : Int → Int × Int) (w : W) (hw : Behaves T w) (hr : MetaRight P c zn core2 w) (st : Engine.St W)
    (hst : Reaches (setup P c) 0 9 0 (Engine.init 0 (fresh w)) st) (h9 : 9 ≤ st.state) : Own zn core2 st.w.st.cur := by
  cases hst with
  | refl => exact absurd h9 (Nat.not_succ_le_zero 8)
  | next h1 h2 h3 =>
    rename_i b
    obtain ⟨hi, hb⟩ := reached P hP c h hT hC w hw b h1
    rcases Engine.step_cases (setup P c) 0 b (Nat.zero_le _) with ⟨s1, d, w', e1, e2, e3, e4⟩ | ⟨s1, d, w', e1, e2, e0, e3, e4⟩ | ⟨s1, d, w', e1, -⟩
    · rw [h3] at e1
      cases e1
      obtain ⟨rfl, -, hb'⟩ := keep_ok P hP c h hT hC _ _ d w' h2 hi hb e2
      rw [e4]
      rw [e3] at h9
      obtain ⟨w1, hg, -, hpass⟩ := e2
      have hs : b.state = 8 := by
        simp only [Int.toNat_one] at h9
        omega
      have hgc := hg
      rcases gen_cases P c b.state b.w w1 _ hg with ⟨x, -, -, k⟩ | ⟨d, k1, -, k2⟩ | ⟨x, d, k1, rfl, -⟩ | ⟨-, k⟩
      · cases k
      · cases k2
        have := (failures_spec _ _ ((pick_ok hT hb).fail b.state 1 k1)).1
        omega
      · rw [checks_eq] at hpass
        rw [(passes_spec _ _ _ hpass).1]
        rw [hs] at k1
        obtain rfl := act_info P c h hm _ _ _ _ k1
        have hcut : b.w.pick.cut = none := by
          cases hc : b.w.pick.cut with
          | none => rfl
          | some y =>
            change gen P c (tables c) b.state b.w = _ at hgc
            simp only [gen, hc] at hgc
            cases congrArg Prod.snd hgc
        have hfl : b.w.pick.fail 8 = none := by
          cases hf : b.w.pick.fail 8 with
          | none => rfl
          | some y =>
            change gen P c (tables c) b.state b.w = _ at hgc
            simp only [gen, hcut, hs, hf] at hgc
            cases congrArg Prod.snd hgc
            have := (failures_spec _ _ ((pick_ok hT hb).fail 8 1 hf)).1
            omega
        intro E n q1 q2 t ht
        exact hr b h1 hs hcut hfl E n q1 q2 t ht
      · cases k
    · rw [h3] at e1
      cases e1
      obtain ⟨hb', e5⟩ := keep_fail P hP c h hT hC _ _ d w' h2 hi hb e2
      obtain ⟨k, hk, e, -⟩ := e5 e0
      have e6 : st.state = k := by
        rw [e3, e]
        simp
      omega
    · rw [h3] at e1
      cases e1

/-- the worlds in which the searches of a run begin -/
inductive Begins (P : Pari) (c : Config) (fuel : Nat) (w : W) : W → Prop
  | first : Begins P c fuel w w
  | next {w' v w''} : Begins P c fuel w w' → one P c fuel w' = (some v, w'') → Begins P c fuel w w''

/-- **C111, one curve** -/
theorem meta_one (P : Pari) (hP : P.toPari.Ok) (c : Config) (h : Covered c) (hT : TapeOk P c T) (hC : Cited P c T) (hm : c.metadata = true) (zn : Nat → Nat → Nat)
    (hz : Order.ZnSpec zn) (core2 : Int → Int × Int) (hc : Meta.CorediscSpec core2) (w : W) (hw : Behaves T w) (hr : MetaRight P c zn core2 w) (fuel : Nat) (v : Output.Curve) (w' : W)
    (h1 : one P c fuel w = (some v, w')) : ∃ x, Inv P c T 9 x ∧ outCurve x.cur = some v ∧ ∃ f : Fld, v.field = out f.1 ∧ MetaOk f (eltV v.a) (eltV v.b) v.order v.info := by
  unfold one at h1
  cases hg : Engine.gen (setup P c) 0 9 fuel (fresh w) with
  | none => rw [hg] at h1; cases h1
  | some r =>
    obtain ⟨r, st⟩ := r
    rw [hg] at h1
    simp only [Prod.mk.injEq] at h1
    obtain ⟨h1, -⟩ := h1
    have hgg := hg
    obtain ⟨-, ⟨rfl, hi⟩ | rfl⟩ := search P hP c h hT hC fuel (fresh w) hw (inv_low (by decide) (fun _ => rfl) (fun _ => rfl) (fun h => absurd h (by decide))) r st hg
    · rw [if_neg (by decide)] at h1
      unfold Engine.gen Engine.genRetry at hgg
      rw [if_neg (by decide), if_neg (by decide)] at hgg
      obtain ⟨k1, k2⟩ := loop_reaches _ _ _ _ _ _ hgg
      have ho := meta_own P hP c h hT hC hm zn core2 w hw hr st k1 k2
      refine ⟨_, hi, h1, ?_⟩
      obtain ⟨q, hq, hk⟩ := hi.known (by omega)
      obtain ⟨a, b, q2, q3, -, -, hab⟩ := hk.ab (by omega)
      obtain ⟨q4, q5⟩ := hab.crv (by omega)
      obtain ⟨q7, -⟩ := hab.order (by omega)
      unfold outCurve at h1
      rw [hk.field, q2, q3, q7] at h1
      split at h1
      · rename_i g1 g2 g3 g4 g5
        cases g1
        cases g2
        cases g3
        cases g4
        obtain ⟨gs, -, rfl⟩ := Option.map_eq_some_iff.1 h1
        exact ⟨Fp q hq, rfl, own_meta zn hz core2 hc (Fp q hq) (.intmod a q) (.intmod b q) q5 _ fun t ht => ho _ _ q4 q7 t ht⟩
      · cases h1
    · rw [if_pos rfl] at h1
      cases h1

theorem run_each (P : Pari) (hP : P.toPari.Ok) (c : Config) (h : Covered c) (hT : TapeOk P c T) (hC : Cited P c T) (fuel : Nat) (w : W) (hw : Behaves T w) (Q : Output.Curve → Prop)
    (hq : ∀ w', Begins P c fuel w w' → Behaves T w' → ∀ v w'', one P c fuel w' = (some v, w'') → Q v) : ∀ v ∈ Json.objects (produce P c fuel w).1, Q v := by
  intro v hv
  unfold produce at hv
  rw [(Json.generate_objects _ _ _).1] at hv
  generalize toSize c.count = n at hv
  have key : ∀ (n : Nat) (w' : W), Begins P c fuel w w' → Behaves T w' → v ∈ Json.generated (one P c fuel) n w' → Q v := by
    intro n
    induction n with
    | zero => intro w' _ _ hv; cases hv
    | succ n ih =>
      intro w' hb ht hv
      unfold Json.generated at hv
      cases ho : one P c fuel w' with
      | mk o w'' =>
        rw [ho] at hv
        cases o with
        | none => cases hv
        | some u =>
          simp only [List.mem_cons] at hv
          rcases hv with rfl | hv
          · exact hq w' hb ht v w'' ho
          · refine ih w'' (.next hb ho) ?_ hv
            unfold one at ho
            cases hg : Engine.gen (setup P c) 0 9 fuel (fresh w') with
            | none => rw [hg] at ho; cases ho
            | some r =>
              obtain ⟨r, st⟩ := r
              rw [hg] at ho
              simp only [Prod.mk.injEq] at ho
              obtain ⟨-, rfl⟩ := ho
              exact (search P hP c h hT hC fuel (fresh w') ht (inv_low (by decide) (fun _ => rfl) (fun _ => rfl) (fun h => absurd h (by decide))) r st hg).1
  exact key n w .first hw hv

/-- **C111** every curve printed with `--metadata` by `--anomalous`, `--supersingular` or `--family` comes with its own invariants -/
theorem meta_run (P : Pari) (hP : P.toPari.Ok) (c : Config) (h : Covered c) (hm : c.metadata = true) (zn : Nat → Nat → Nat) (hz : Order.ZnSpec zn)
    (core2 : Int → Int × Int) (hc : Meta.CorediscSpec core2) (fuel : Nat) (w : W) (hT : TapeOk P c w.tape) (hC : Cited P c w.tape)
    (hr : ∀ w', Begins P c fuel w w' → MetaRight P c zn core2 w') :
    ∀ v ∈ Json.objects (produce P c fuel w).1, ∃ f : Fld, v.field = out f.1 ∧ MetaOk f (eltV v.a) (eltV v.b) v.order v.info :=
  run_each P hP c h hT hC fuel w rfl _ fun w' hb ht v w'' ho =>
    (meta_one P hP c h hT hC hm zn hz core2 hc w' ht (hr w' hb) fuel v w'' ho).elim fun _ h => h.2.2

/-! ### Discriminants -/

/-- a fundamental discriminant that is `-q` or `-4q` up to squares, for a prime `q` -/
theorem fundamental_prime (q : Nat) (hq : q.Prime) (hq2 : q % 2 = 1) (D g m : Int) (hD : Fundamental D) (hm : m ≠ 0) (h : D * g ^ 2 = -q * m ^ 2) :
    D = if q % 4 = 3 then -(q : Int) else -4 * q := by
  have hqI : Prime (q : Int) := Nat.prime_iff_prime_int.1 hq
  have hg : g ≠ 0 := by
    rintro rfl
    have : (q : Int) * m ^ 2 = 0 := by linarith
    rcases mul_eq_zero.1 this with h' | h'
    · exact hqI.ne_zero h'
    · exact hm (pow_eq_zero_iff (by decide) |>.1 h')
  have h1 : (-q * D) * g ^ 2 = (q * m) ^ 2 := by linear_combination -(q : Int) * h
  obtain ⟨k, hk⟩ : g ∣ q * m := (Int.pow_dvd_pow_iff (n := 2) (by decide)).1 ⟨-q * D, by linarith⟩
  have h2 : -q * D = k ^ 2 := by
    have : (-q * D) * g ^ 2 = k ^ 2 * g ^ 2 := by rw [h1, hk]; ring
    exact mul_right_cancel₀ (pow_ne_zero 2 hg) this
  obtain ⟨l, rfl⟩ : (q : Int) ∣ k := hqI.dvd_of_dvd_pow (n := 2) ⟨-D, by linarith⟩
  have h3 : D = -q * l ^ 2 := by
    have : (q : Int) * D = q * (-q * l ^ 2) := by linear_combination -h2
    exact mul_left_cancel₀ hqI.ne_zero this
  rcases hD with ⟨d1, d2⟩ | ⟨n, rfl, d1, d2⟩
  · have hl := d2 l ⟨-q, by rw [h3]; ring⟩
    have : l ^ 2 = 1 := by rcases Int.isUnit_iff.1 hl with rfl | rfl <;> rfl
    rw [this, mul_one] at h3
    rw [if_pos (by omega), h3]
  · have hl2 : (2 : Int) ∣ l := by
      have : (2 : Int) ∣ q * l ^ 2 := ⟨-2 * n, by linarith⟩
      rcases Int.prime_two.dvd_or_dvd this with h' | h'
      · omega
      · exact Int.prime_two.dvd_of_dvd_pow h'
    obtain ⟨k, rfl⟩ := hl2
    have h4 : n = -q * k ^ 2 := by linarith
    have hl := d2 k ⟨-q, by rw [h4]; ring⟩
    have : k ^ 2 = 1 := by rcases Int.isUnit_iff.1 hl with rfl | rfl <;> rfl
    rw [this, mul_one] at h4
    rw [if_neg (by omega), h4]
    ring

theorem degree_anomalous (p k : Nat) (hp : p.Prime) (h : Degree p p k) : k = 0 := by
  rcases h with ⟨-, h, -⟩ | ⟨h1, h2, -⟩
  · exact h
  · exfalso
    have h3 := Nat.dvd_sub (dvd_pow_self p (by omega : k ≠ 0)) h2
    rw [Nat.sub_sub_self (Nat.one_le_pow _ _ hp.pos)] at h3
    exact hp.one_lt.ne' (Nat.dvd_one.1 h3)

theorem degree_super (p k : Nat) (hp : p.Prime) (h : Degree p (p + 1) k) : k = 2 := by
  have hp2 := hp.two_le
  have d2 : p + 1 ∣ p ^ 2 - 1 := ⟨p - 1, by
    obtain ⟨n, rfl⟩ : ∃ n, p = n + 1 := ⟨p - 1, by omega⟩
    simp only [Nat.add_sub_cancel]
    rw [Nat.sub_eq_iff_eq_add (Nat.one_le_pow _ _ (by omega))]
    ring⟩
  have d1 : ¬ p + 1 ∣ p ^ 1 - 1 := by
    rw [pow_one]
    intro h
    have := Nat.le_of_dvd (by omega) h
    omega
  rcases h with ⟨h, -⟩ | ⟨h1, h2, h3⟩
  · omega
  · have : ¬ 2 < k := fun h => h3 2 (by decide) h d2
    have : k ≠ 1 := by rintro rfl; exact d1 h2
    omega

/-- **C111** the metadata of a curve printed by `--anomalous` -/
theorem anomalous_meta_run (P : Pari) (hP : P.toPari.Ok) (n : Int) (os : List Opt) (c : Config) (h : commandLine n os = some c) (ha : c.method = METHOD_ANOMALOUS)
    (hm : c.metadata = true) (zn : Nat → Nat → Nat) (hz : Order.ZnSpec zn) (core2 : Int → Int × Int) (hc : Meta.CorediscSpec core2) (fuel : Nat) (w : W)
    (hT : TapeOk P c w.tape) (hG : Gross P c w.tape) (hr : ∀ w', Begins P c fuel w w' → MetaRight P c zn core2 w') :
    ∀ v ∈ Json.objects (produce P c fuel w).1, ∃ p, (curveV v).field = .prime p ∧ p.Prime ∧ Listed p 0 1 (-163) v.info := by
  have hcov := covered n os c h (Or.inl ha)
  have hC : Cited P c w.tape := ⟨fun _ => hG, fun h => absurd (ha ▸ h) (by decide)⟩
  refine run_each P hP c hcov hT hC fuel w rfl _ fun w' hb ht v w'' ho => ?_
  obtain ⟨x, hi, hv, f, e1, e2⟩ := meta_one P hP c hcov hT hC hm zn hz core2 hc w' ht (hr w' hb) fuel v w'' ho
  obtain ⟨-, p, hp, ⟨s1, -⟩, s2, ⟨b, s3⟩, -⟩ := anomalous_asked ha x hi v hv
  refine ⟨p, s1, hp, ?_⟩
  have ef : f.1 = .prime p := by
    have : fieldV (out f.1) = .prime p := by rw [← e1]; exact s1
    rw [fieldV_out] at this
    exact this
  obtain ⟨f, hf⟩ := f
  change f = .prime p at ef
  subst ef
  obtain ⟨j, d, ⟨j1, j2, -⟩, e3⟩ := e2
  have s2' : v.order = p := s2
  obtain ⟨k, D, g, k1, k2, k3, k4⟩ := e3 (by have := hp.pos; omega)
  rw [s2'] at k1 k3 k4
  obtain rfl := degree_anomalous p k hp k1
  have et : (p : Int) + 1 - p = 1 := by ring
  rw [et] at k3 k4
  have hD : D = -163 := by
    have := fundamental_prime 163 (by norm_num) (by decide) D g (2 * b + 1) k2 (by omega) (by rw [k3, s3]; push_cast; ring)
    exact this
  subst hD
  exact ⟨j, d, g, j1, j2, k3, k4⟩

/-- **C111** the metadata of a curve printed by `--supersingular` -/
theorem supersingular_meta_run (P : Pari) (hP : P.toPari.Ok) (n : Int) (os : List Opt) (c : Config) (h : commandLine n os = some c) (ha : c.method = METHOD_SUPERSINGULAR)
    (hm : c.metadata = true) (zn : Nat → Nat → Nat) (hz : Order.ZnSpec zn) (core2 : Int → Int × Int) (hc : Meta.CorediscSpec core2) (fuel : Nat) (w : W)
    (hT : TapeOk P c w.tape) (hG : Deuring P c w.tape) (hr : ∀ w', Begins P c fuel w w' → MetaRight P c zn core2 w') :
    ∀ v ∈ Json.objects (produce P c fuel w).1, ∃ p, (curveV v).field = .prime p ∧ p.Prime ∧ Listed p 2 0 (if p % 4 = 3 then -p else -4 * p) v.info := by
  have hcov := covered n os c h (Or.inr (Or.inl ha))
  have hC : Cited P c w.tape := ⟨fun h => absurd (ha ▸ h) (by decide), fun _ => hG⟩
  refine run_each P hP c hcov hT hC fuel w rfl _ fun w' hb ht v w'' ho => ?_
  obtain ⟨x, hi, hv, f, e1, e2⟩ := meta_one P hP c hcov hT hC hm zn hz core2 hc w' ht (hr w' hb) fuel v w'' ho
  obtain ⟨-, p, hp, ⟨s1, -⟩, -, s2, s3, -⟩ := supersingular_asked ha x hi v hv
  refine ⟨p, s1, hp, ?_⟩
  have ef : f.1 = .prime p := by
    have : fieldV (out f.1) = .prime p := by rw [← e1]; exact s1
    rw [fieldV_out] at this
    exact this
  obtain ⟨f, hf⟩ := f
  change f = .prime p at ef
  subst ef
  obtain ⟨j, d, ⟨j1, j2, -⟩, e3⟩ := e2
  have s2' : v.order = p + 1 := s2
  have hodd : p % 2 = 1 := (hp.eq_two_or_odd).resolve_left s3
  obtain ⟨k, D, g, k1, k2, k3, k4⟩ := e3 (by have := hp.two_le; omega)
  rw [s2'] at k1 k3 k4
  obtain rfl := degree_super p k hp k1
  have et : (p : Int) + 1 - (p + 1 : Nat) = 0 := by push_cast; ring
  rw [et] at k3 k4
  have hD := fundamental_prime p hp hodd D g 2 k2 (by decide) (by rw [k3]; ring)
  subst hD
  exact ⟨j, d, g, j1, j2, k3, k4⟩

/-! ### The hypotheses can be met -/

/-- a search whose rounds are known reaches nothing else -/
theorem reaches_chain {σ : Type} (S : Engine.Setup σ) (n : Nat) (cfg : Nat → Nat × σ) (h : ∀ i, i < n → (cfg i).1 < 9 ∧ Move S (cfg i) (cfg (i + 1))) (h9 : (cfg n).1 = 9)
    (st0 st : Engine.St σ) (hs : st0.state = (cfg 0).1) (hw : st0.w = (cfg 0).2) (hr : Reaches S 0 9 0 st0 st) : ∃ i, i ≤ n ∧ st.state = (cfg i).1 ∧ st.w = (cfg i).2 := by
  induction hr with
  | refl => exact ⟨0, Nat.zero_le _, hs, hw⟩
  | next h1 h2 h3 ih =>
    obtain ⟨i, e1, e2, e3⟩ := ih
    have hi : i < n := by
      rcases Nat.lt_or_eq_of_le e1 with h' | rfl
      · exact h'
      · omega
    obtain ⟨st', k1, k2, k3⟩ := step_move S _ (cfg (i + 1)) (by rw [e2, e3]; exact (h i hi).2)
    rw [h3] at k1
    cases k1
    exact ⟨i + 1, hi, k2, k3⟩

/-- PARI's functions, with the value needed here filled in -/
theorem functionsA : ∃ zn core2, Order.ZnSpec zn ∧ Meta.CorediscSpec core2 ∧ core2 (-163) = (-163, 1) := by
  obtain ⟨zn, hz⟩ := Order.zn_inhabited
  obtain ⟨core2, hc⟩ := coredisc_inhabited
  refine ⟨zn, fun x => if x = -163 then (-163, 1) else core2 x, hz, ?_, by simp⟩
  intro x h0 h4
  by_cases h : x = -163
  · subst h
    refine ⟨show (-163 : Int) = -163 * 1 ^ 2 by decide, Or.inl ⟨show (-163 : Int) % 4 = 1 by decide, ?_⟩⟩
    refine Irreducible.squarefree (Prime.irreducible (Int.prime_iff_natAbs_prime.2 ?_))
    exact (by norm_num : Nat.Prime 163)
  · simp only [if_neg h]
    exact hc x h0 h4

/-- the metadata of `y² = x³ + 13x + 36` over the field of 41 elements -/
def infoA : List (String × Text) := [("j", "10".toList), ("discriminant", "5".toList), ("embedding_degree", "0".toList), ("frobenius", "1".toList),
  ("cm_discriminant", "-163".toList), ("conductor", "1".toList)]

theorem metaTextA (zn : Nat → Nat → Nat) (core2 : Int → Int × Int) (h2 : core2 (-163) = (-163, 1)) : metaText zn core2 EA 41 = some infoA := by
  have hE := eqn_obj 41 p41 13 36
  have hd : EA.eqn.Δ = elem (Fp 41 p41) 5 := by
    have : (Invalid.primeCurve ((13 : Nat) : ZMod 41) ((36 : Nat) : ZMod 41)).Δ = ((5 : Nat) : ZMod 41) := by
      simp only [WeierstrassCurve.Δ, WeierstrassCurve.b₂, WeierstrassCurve.b₄, WeierstrassCurve.b₆, WeierstrassCurve.b₈, Invalid.primeCurve]
      decide +kernel
    exact (congrArg WeierstrassCurve.Δ hE).trans this
  have hc : EA.eqn.c₄ = elem (Fp 41 p41) 32 := by
    have : (Invalid.primeCurve ((13 : Nat) : ZMod 41) ((36 : Nat) : ZMod 41)).c₄ = ((32 : Nat) : ZMod 41) := by
      simp only [WeierstrassCurve.c₄, WeierstrassCurve.b₂, WeierstrassCurve.b₄, Invalid.primeCurve]
      decide +kernel
    exact (congrArg WeierstrassCurve.c₄ hE).trans this
  have hj : EA.eqn.c₄ ^ 3 / EA.eqn.Δ = elem (Fp 41 p41) 10 := by
    rw [div_eq_iff EA_delta, hc, hd]
    have : ((32 : Nat) : ZMod 41) ^ 3 = ((10 : Nat) : ZMod 41) * ((5 : Nat) : ZMod 41) := by decide +kernel
    exact this
  have hn : ∀ m, m < 41 → num (Fp 41 p41) (elem (Fp 41 p41) m) = m := fun m hm => num_elem (Fp 41 p41) m hm
  have hg : Meta.genPrime zn core2 41 41 = some ⟨some 0, 1, some (-163), some 1⟩ := by
    have : Meta.embedding? zn 41 41 = some 0 := by unfold Meta.embedding?; rw [if_pos rfl]
    unfold Meta.genPrime
    rw [this]
    simp only [show (((41 : Nat) : Int) + 1 - (41 : Nat)) ^ 2 - ((41 : Nat) : Int) * 4 = -163 by decide, h2]
    rfl
  have e : metaText zn core2 EA 41 = (Meta.genPrime zn core2 41 41).map (texts (num (Fp 41 p41) (EA.eqn.c₄ ^ 3 / EA.eqn.Δ)) (num (Fp 41 p41) EA.eqn.Δ)) := rfl
  rw [e, hg, hj, hd, hn 10 (by decide), hn 5 (by decide)]
  exact congrArg some (by decide +kernel)

/-- `--fp --anomalous --random --metadata --points=none 7` -/
def cM : Config := (commandLine 6 [.fp, .anomalous, .random none, .metadata, .points "none".toList, .arg "7".toList]).get (by decide +kernel)

theorem cM_some : commandLine 6 [.fp, .anomalous, .random none, .metadata, .points "none".toList, .arg "7".toList] = some cM := (Option.some_get _).symm

theorem cM_method : cM.method = METHOD_ANOMALOUS := by decide +kernel

theorem cM_covered : Covered cM := covered _ _ _ cM_some (Or.inl cM_method)

noncomputable def pickI : Pick := { pickA with info := infoA }

theorem drawnM (q : Nat) (h : Drawn pari cM (fun _ => pickI) q) : q = 41 := by
  obtain ⟨i, n, e⟩ := h.1 cM_method
  have : Cm.anomalousP 163 0 = 41 := by decide
  rw [show (pickI.bs n) = 0 from rfl, this] at e
  exact_mod_cast e

theorem tapeM : TapeOk pari cM fun _ => pickI where
  picks _ := { pick_behaves cM (Fp 41 p41) 1 0 1 (fun h => absurd (cM_method ▸ h) (by decide)) fun _ => ⟨0, 0,
    ⟨by decide, by decide +kernel, fun b h1 h2 => by omega, by decide +kernel, fun b hb => by
      have : ((2 : Int) ^ cM.bits - ((163 : Int) + 1).tdiv 4).tdiv 163 = 0 := by decide +kernel
      rw [this]
      nlinarith⟩, by decide, by decide⟩ with info := by decide +kernel }
  gens i q hq a b h1 h2 h3 := by
    have e := drawnM q h1
    subst e
    have h4 : Nat.card (obj 41 hq a b).Pt = 41 := h3.1 cM_method
    obtain ⟨g, e1, e2, -⟩ := gensOf_spec (obj 41 hq a b) (cyclic_two 41 1 p41 (Or.inr rfl) (by decide) (by rw [h4])) (by rw [h4]; decide)
    change Group.GensSpec _ (gensOf _)
    rw [e1]
    exact e2

theorem grossM : Gross pari cM fun _ => pickI := by
  intro q hq h
  have e := drawnM q h
  subst e
  have : Count.card (-34790720 : ZMod 41) 78984748304 = 41 + 2 := by decide +kernel
  exact this

/-- the states of the run -/
noncomputable def courseI (g : EA.Pt) (s : Nat) : St :=
  if s ≤ 6 then courseA s else
    { cur := { (courseA 6).cur with gens := some ⟨EA, [⟨⟨g, addOrderOf g, 41 / addOrderOf g⟩, []⟩]⟩, info := if s = 9 then infoA else [] } }

theorem courseI_act (g : EA.Pt) (hg : gensOf EA = [g]) (s : Nat) (hs : s < 9) : act pari cM pickI s (courseI g s) = some (courseI g (s + 1), 1) := by
  obtain ⟨-, -, t1, t2, -, t3⟩ := table_common cM cM_covered
  by_cases h6 : s < 6
  · have e1 : ∀ s : Fin 6, stageOf (tables cM).gens s.1 = stageOf (tables cA).gens s.1 := by decide +kernel
    have e2 : (tables cM).genArgs = (tables cA).genArgs := by decide +kernel
    have e3 : cM.bits = cA.bits := by decide +kernel
    have e5 : cM.family = cA.family := by decide +kernel
    have e4 : ∀ s : Fin 6, ((stageOf (tables cA).gens s.1).bind id).all (· ≠ .metadata) = true := by decide +kernel
    have := courseA_act s h6
    unfold courseI
    rw [if_pos (by omega), if_pos (by omega), ← this]
    unfold act
    rw [e1 ⟨s, h6⟩, e2]
    have h' := e4 ⟨s, h6⟩
    dsimp only at h' ⊢
    cases hh : (stageOf (tables cA).gens s).bind id with
    | none => rfl
    | some k =>
      rw [hh] at h'
      have hk : k ≠ .metadata := by simpa using h'
      simp only [Option.bind_some]
      cases k <;> first | exact absurd rfl hk | (simp only [call, e3, e5]; done) | (simp only [call, e3, e5]; rfl)
  · rcases (show s = 6 ∨ s = 7 ∨ s = 8 by omega) with rfl | rfl | rfl
    · have hu : (view cM).unique = false := by decide +kernel
      rw [hu] at t1
      have hpg : pickI.gens = gensOf := rfl
      have hE : (courseI g 6).cur.crv = some EA := rfl
      have ho : (courseI g 6).cur.order = some 41 := rfl
      simp only [Bool.false_eq_true, if_false, act, stageOf, t1, Option.bind_some, id, call, Whole.call, hE, ho, gensStage, Option.map_some, hpg, hg,
        found, Group.gensOne, Group.gensAny, List.map_cons, List.map_nil, Group.gensPoint, bare]
      rfl
    · have hc : pointsChoice cM = .skip := by decide +kernel
      rw [hc] at t2
      simp only [act, stageOf, t2, Option.bind_some, id, call, Whole.call, Option.map_some]
      rfl
    · have hm : cM.metadata = true := by decide +kernel
      rw [hm, if_pos rfl] at t3
      simp only [act, stageOf, t3, Option.bind_some, id, call, Whole.call, Option.map_some]
      rfl

theorem courseI_move (g : EA.Pt) (hg : gensOf EA = [g]) (j i : Nat) (hi : i < 9) :
    i < 9 ∧ Move (setup pari cM) (i, world pickI (courseI g i) (j + i)) (i + 1, world pickI (courseI g (i + 1)) (j + (i + 1))) :=
  ⟨hi, move_ok pari cM _ rfl (fun _ => rfl) i _ _ (courseI_act g hg i hi)
    (fun k hk => accepted cM cM_covered (by decide +kernel) i _ (fun e => by subst e; exact ⟨EA, rfl, EA_delta⟩) k hk) (j + i)⟩

/-- every search of this run takes the same course -/
theorem cM_right (zn : Nat → Nat → Nat) (core2 : Int → Int × Int) (h2 : core2 (-163) = (-163, 1)) (g : EA.Pt) (hg : gensOf EA = [g]) (w : W) (j : Nat)
    (hw : fresh w = world pickI {} j) : MetaRight pari cM zn core2 w := by
  intro st hst h8 _ _ E n hE hn t hm
  rw [hw] at hst
  obtain ⟨i, -, e1, e2⟩ := reaches_chain (setup pari cM) 9 (fun i => (i, world pickI (courseI g i) (j + i))) (courseI_move g hg j) rfl _ st rfl rfl hst
  dsimp only at e1 e2
  obtain rfl : i = 8 := e1.symm.trans h8
  rw [e2] at hE hn ⊢
  obtain rfl : EA = E := Option.some.inj hE
  obtain rfl : 41 = n := Option.some.inj hn
  exact Option.some.inj ((metaTextA zn core2 h2).symm.trans hm)

theorem cM_search (g : EA.Pt) (hg : gensOf EA = [g]) (w : W) (j : Nat) (hw : fresh w = world pickI {} j) :
    one pari cM 9 w = (outCurve (courseI g 9).cur, world pickI (courseI g 9) (j + 9)) := by
  obtain ⟨st, h1, h2⟩ := loop_chain (setup pari cM) 9 (fun i => (i, world pickI (courseI g i) (j + i))) (courseI_move g hg j) rfl (Engine.init 0 (world pickI {} j)) rfl rfl
  have hgen : Engine.gen (setup pari cM) 0 9 9 (fresh w) = some (1, st) := by
    rw [hw]
    unfold Engine.gen Engine.genRetry
    rw [if_neg (by decide), if_neg (by decide)]
    exact h1
  simp only [one, hgen]
  rw [if_neg (by decide), h2]
  rfl

/-- **C111, met**: `ecgen --fp --anomalous --random --metadata --points=none 7` can print `y² = x³ + 13x + 36` over the field of 41 elements with its metadata -/
theorem anomalous_meta_met : ∃ (os : List Opt) (c : Config) (w : W) (zn : Nat → Nat → Nat) (core2 : Int → Int × Int) (v : Output.Curve), commandLine 6 os = some c ∧
    c.method = METHOD_ANOMALOUS ∧ c.metadata = true ∧ Order.ZnSpec zn ∧ Meta.CorediscSpec core2 ∧ TapeOk pari c w.tape ∧ Gross pari c w.tape ∧
    (∀ w', Begins pari c 9 w w' → MetaRight pari c zn core2 w') ∧ v ∈ Json.objects (produce pari c 9 w).1 ∧ v.order = 41 ∧ v.info = infoA := by
  obtain ⟨zn, core2, hz, hc, h2⟩ := functionsA
  obtain ⟨g, hg, -, ho⟩ := gensOf_spec EA (cyclic_two 41 1 p41 (Or.inr rfl) (by decide) (by rw [EA_card])) (by rw [EA_card]; decide)
  have hbeg : ∀ w', Begins pari cM 9 (world pickI {} 0) w' → ∃ j, fresh w' = world pickI {} j := by
    intro w' hb
    induction hb with
    | first => exact ⟨0, rfl⟩
    | next h3 h4 ih =>
      obtain ⟨j, hj⟩ := ih
      rw [cM_search g hg _ j hj] at h4
      obtain rfl := (Prod.mk.inj h4).2
      exact ⟨j + 9, rfl⟩
  obtain ⟨u, v, -, -, -, hout⟩ := out_printed { (courseI g 9).cur with info := [] } 41 p41 13 36 41 g (by decide) (by rw [ho, EA_card]) rfl rfl rfl rfl rfl rfl
  have hp : outCurve (courseI g 9).cur = some { printed none 41 13 36 41 u v with info := infoA } := by
    have := outCurve_info { (courseI g 9).cur with info := [] } infoA
    rw [hout] at this
    exact this
  have ho := cM_search g hg (world pickI {} 0) 0 rfl
  rw [hp] at ho
  refine ⟨_, cM, world pickI {} 0, zn, core2, { printed none 41 13 36 41 u v with info := infoA }, cM_some, cM_method, by decide +kernel, hz, hc, tapeM, grossM,
    fun w' hb => (hbeg w' hb).elim fun j hj => cM_right zn core2 h2 g hg w' j hj, ?_, rfl, rfl⟩
  rw [produce, (Json.generate_objects _ _ _).1, show toSize cM.count = 1 by decide +kernel, generated_one _ _ _ _ _ _ ho]
  exact List.mem_singleton.2 rfl

/-! The same for a supersingular curve -/

/-- PARI's functions, with the values needed here filled in -/
theorem functionsS : ∃ zn core2, Order.ZnSpec zn ∧ Meta.CorediscSpec core2 ∧ zn 13 14 = 2 ∧ core2 (-52) = (-52, 1) := by
  obtain ⟨zn, hz⟩ := Order.zn_inhabited
  obtain ⟨core2, hc⟩ := coredisc_inhabited
  refine ⟨zn, fun x => if x = -52 then (-52, 1) else core2 x, hz, ?_, degree_super 13 _ p13 (Or.inr (hz 13 14 (by decide) (by decide))), by simp⟩
  intro x h0 h4
  by_cases h : x = -52
  · subst h
    refine ⟨show (-52 : Int) = -52 * 1 ^ 2 by decide, Or.inr ⟨-13, show (-52 : Int) = 4 * -13 by decide, by decide, ?_⟩⟩
    refine Irreducible.squarefree (Prime.irreducible (Int.prime_iff_natAbs_prime.2 ?_))
    exact (by norm_num : Nat.Prime 13)
  · simp only [if_neg h]
    exact hc x h0 h4

/-- the metadata of `y² = x³ + 9x + 4` over the field of 13 elements -/
def infoS : List (String × Text) := [("j", "5".toList), ("discriminant", "5".toList), ("embedding_degree", "2".toList), ("frobenius", "0".toList),
  ("cm_discriminant", "-52".toList), ("conductor", "1".toList)]

theorem metaTextS (zn : Nat → Nat → Nat) (core2 : Int → Int × Int) (h1 : zn 13 14 = 2) (h2 : core2 (-52) = (-52, 1)) : metaText zn core2 ES 14 = some infoS := by
  have hE := eqn_obj 13 p13 9 4
  have hd : ES.eqn.Δ = elem (Fp 13 p13) 5 := by
    have : (Invalid.primeCurve ((9 : Nat) : ZMod 13) ((4 : Nat) : ZMod 13)).Δ = ((5 : Nat) : ZMod 13) := by
      simp only [WeierstrassCurve.Δ, WeierstrassCurve.b₂, WeierstrassCurve.b₄, WeierstrassCurve.b₆, WeierstrassCurve.b₈, Invalid.primeCurve]
      decide +kernel
    exact (congrArg WeierstrassCurve.Δ hE).trans this
  have hc : ES.eqn.c₄ = elem (Fp 13 p13) 10 := by
    have : (Invalid.primeCurve ((9 : Nat) : ZMod 13) ((4 : Nat) : ZMod 13)).c₄ = ((10 : Nat) : ZMod 13) := by
      simp only [WeierstrassCurve.c₄, WeierstrassCurve.b₂, WeierstrassCurve.b₄, Invalid.primeCurve]
      decide +kernel
    exact (congrArg WeierstrassCurve.c₄ hE).trans this
  have hj : ES.eqn.c₄ ^ 3 / ES.eqn.Δ = elem (Fp 13 p13) 5 := by
    rw [div_eq_iff ES_delta, hc, hd]
    have : ((10 : Nat) : ZMod 13) ^ 3 = ((5 : Nat) : ZMod 13) * ((5 : Nat) : ZMod 13) := by decide +kernel
    exact this
  have hn : ∀ m, m < 13 → num (Fp 13 p13) (elem (Fp 13 p13) m) = m := fun m hm => num_elem (Fp 13 p13) m hm
  have hg : Meta.genPrime zn core2 13 14 = some ⟨some 2, 0, some (-52), some 1⟩ := by
    have : Meta.embedding? zn 13 14 = some 2 := by unfold Meta.embedding?; rw [if_neg (by decide), if_pos (by decide), h1]
    unfold Meta.genPrime
    rw [this]
    simp only [show (((13 : Nat) : Int) + 1 - (14 : Nat)) ^ 2 - ((13 : Nat) : Int) * 4 = -52 by decide, h2]
    rfl
  have e : metaText zn core2 ES 14 = (Meta.genPrime zn core2 13 14).map (texts (num (Fp 13 p13) (ES.eqn.c₄ ^ 3 / ES.eqn.Δ)) (num (Fp 13 p13) ES.eqn.Δ)) := rfl
  rw [e, hg, hj, hd, hn 5 (by decide)]
  exact congrArg some (by decide +kernel)

/-- `--fp --supersingular --metadata --points=none 4` -/
def cN : Config := (commandLine 5 [.fp, .supersingular, .metadata, .points "none".toList, .arg "4".toList]).get (by decide +kernel)

theorem cN_some : commandLine 5 [.fp, .supersingular, .metadata, .points "none".toList, .arg "4".toList] = some cN := (Option.some_get _).symm

theorem cN_method : cN.method = METHOD_SUPERSINGULAR := by decide +kernel

theorem cN_covered : Covered cN := covered _ _ _ cN_some (Or.inr (Or.inl cN_method))

noncomputable def pickT : Pick := { pickS with info := infoS }

theorem drawnN (q : Nat) (h : Drawn pari cN (fun _ => pickT) q) : q = 13 := by
  obtain ⟨i, e | e⟩ := h.2.1 cN_method
  · cases e; rfl
  · cases e; rfl

theorem tapeN : TapeOk pari cN fun _ => pickT where
  picks _ := { pick_behaves cN (Fp 13 p13) 1 0 1
    (fun _ => ⟨⟨by decide +kernel, by decide +kernel, by decide +kernel⟩, by decide +kernel, by decide +kernel, by decide +kernel⟩)
    (fun h => absurd (cN_method ▸ h) (by decide)) with info := by decide +kernel }
  gens i q hq a b h1 h2 h3 := by
    have e := drawnN q h1
    subst e
    have h4 : Nat.card (obj 13 hq a b).Pt = 14 := h3.2.1 cN_method
    obtain ⟨g, e1, e2, -⟩ := gensOf_spec (obj 13 hq a b) (cyclic_two 2 7 Nat.prime_two (Or.inl (by decide)) (by decide) (by rw [h4])) (by rw [h4]; decide)
    change Group.GensSpec _ (gensOf _)
    rw [e1]
    exact e2

theorem deuringN : Deuring pari cN fun _ => pickT := by
  intro i q n hq h e
  have := drawnN q h
  subst this
  rw [show pickT.fuel = 9 from rfl, searchS] at e
  cases e
  intro j hj
  have : j = 5 := by simpa [pari] using hj
  subst this
  have : ∀ a b : ZMod 13, Cm.HasJ a b ((5 : Nat) : ZMod 13) → Count.card a b = 13 + 1 := by
    unfold Cm.HasJ
    decide +kernel
  exact this

/-- the states of the run -/
noncomputable def courseT (g : ES.Pt) (s : Nat) : St :=
  if s ≤ 6 then courseS s else
    { cur := { (courseS 6).cur with gens := some ⟨ES, [⟨⟨g, addOrderOf g, 14 / addOrderOf g⟩, []⟩]⟩, info := if s = 9 then infoS else [] } }

theorem courseT_act (g : ES.Pt) (hg : gensOf ES = [g]) (s : Nat) (hs : s < 9) : act pari cN pickT s (courseT g s) = some (courseT g (s + 1), 1) := by
  obtain ⟨-, -, t1, t2, -, t3⟩ := table_common cN cN_covered
  by_cases h6 : s < 6
  · have e1 : ∀ s : Fin 6, stageOf (tables cN).gens s.1 = stageOf (tables cS).gens s.1 := by decide +kernel
    have e2 : (tables cN).genArgs = (tables cS).genArgs := by decide +kernel
    have e3 : cN.bits = cS.bits := by decide +kernel
    have e5 : cN.family = cS.family := by decide +kernel
    have e4 : ∀ s : Fin 6, ((stageOf (tables cS).gens s.1).bind id).all (· ≠ .metadata) = true := by decide +kernel
    have := courseS_act s h6
    unfold courseT
    rw [if_pos (by omega), if_pos (by omega), ← this]
    unfold act
    rw [e1 ⟨s, h6⟩, e2]
    have h' := e4 ⟨s, h6⟩
    dsimp only at h' ⊢
    cases hh : (stageOf (tables cS).gens s).bind id with
    | none => rfl
    | some k =>
      rw [hh] at h'
      have hk : k ≠ .metadata := by simpa using h'
      simp only [Option.bind_some]
      cases k <;> first | exact absurd rfl hk | (simp only [call, e3, e5]; done) | (simp only [call, e3, e5]; rfl)
  · rcases (show s = 6 ∨ s = 7 ∨ s = 8 by omega) with rfl | rfl | rfl
    · have hu : (view cN).unique = false := by decide +kernel
      rw [hu] at t1
      have hpg : pickT.gens = gensOf := rfl
      have hE : (courseT g 6).cur.crv = some ES := rfl
      have ho : (courseT g 6).cur.order = some 14 := rfl
      simp only [Bool.false_eq_true, if_false, act, stageOf, t1, Option.bind_some, id, call, Whole.call, hE, ho, gensStage, Option.map_some, hpg, hg,
        found, Group.gensOne, Group.gensAny, List.map_cons, List.map_nil, Group.gensPoint, bare]
      rfl
    · have hc : pointsChoice cN = .skip := by decide +kernel
      rw [hc] at t2
      simp only [act, stageOf, t2, Option.bind_some, id, call, Whole.call, Option.map_some]
      rfl
    · have hm : cN.metadata = true := by decide +kernel
      rw [hm, if_pos rfl] at t3
      simp only [act, stageOf, t3, Option.bind_some, id, call, Whole.call, Option.map_some]
      rfl

theorem courseT_move (g : ES.Pt) (hg : gensOf ES = [g]) (j i : Nat) (hi : i < 9) :
    i < 9 ∧ Move (setup pari cN) (i, world pickT (courseT g i) (j + i)) (i + 1, world pickT (courseT g (i + 1)) (j + (i + 1))) :=
  ⟨hi, move_ok pari cN _ rfl (fun _ => rfl) i _ _ (courseT_act g hg i hi)
    (fun k hk => accepted cN cN_covered (by decide +kernel) i _ (fun e => by subst e; exact ⟨ES, rfl, ES_delta⟩) k hk) (j + i)⟩

/-- every search of this run takes the same course -/
theorem cN_right (zn : Nat → Nat → Nat) (core2 : Int → Int × Int) (h1 : zn 13 14 = 2) (h2 : core2 (-52) = (-52, 1)) (g : ES.Pt) (hg : gensOf ES = [g]) (w : W) (j : Nat)
    (hw : fresh w = world pickT {} j) : MetaRight pari cN zn core2 w := by
  intro st hst h8 _ _ E n hE hn t hm
  rw [hw] at hst
  obtain ⟨i, -, e1, e2⟩ := reaches_chain (setup pari cN) 9 (fun i => (i, world pickT (courseT g i) (j + i))) (courseT_move g hg j) rfl _ st rfl rfl hst
  dsimp only at e1 e2
  obtain rfl : i = 8 := e1.symm.trans h8
  rw [e2] at hE hn ⊢
  obtain rfl : ES = E := Option.some.inj hE
  obtain rfl : 14 = n := Option.some.inj hn
  exact Option.some.inj ((metaTextS zn core2 h1 h2).symm.trans hm)

theorem cN_search (g : ES.Pt) (hg : gensOf ES = [g]) (w : W) (j : Nat) (hw : fresh w = world pickT {} j) :
    one pari cN 9 w = (outCurve (courseT g 9).cur, world pickT (courseT g 9) (j + 9)) := by
  obtain ⟨st, h1, h2⟩ := loop_chain (setup pari cN) 9 (fun i => (i, world pickT (courseT g i) (j + i))) (courseT_move g hg j) rfl (Engine.init 0 (world pickT {} j)) rfl rfl
  have hgen : Engine.gen (setup pari cN) 0 9 9 (fresh w) = some (1, st) := by
    rw [hw]
    unfold Engine.gen Engine.genRetry
    rw [if_neg (by decide), if_neg (by decide)]
    exact h1
  simp only [one, hgen]
  rw [if_neg (by decide), h2]
  rfl

/-- **C111, met**: `ecgen --fp --supersingular --metadata --points=none 4` can print `y² = x³ + 9x + 4` over the field of 13 elements with its metadata -/
theorem supersingular_meta_met : ∃ (os : List Opt) (c : Config) (w : W) (zn : Nat → Nat → Nat) (core2 : Int → Int × Int) (v : Output.Curve), commandLine 5 os = some c ∧
    c.method = METHOD_SUPERSINGULAR ∧ c.metadata = true ∧ Order.ZnSpec zn ∧ Meta.CorediscSpec core2 ∧ TapeOk pari c w.tape ∧ Deuring pari c w.tape ∧
    (∀ w', Begins pari c 9 w w' → MetaRight pari c zn core2 w') ∧ v ∈ Json.objects (produce pari c 9 w).1 ∧ v.order = 14 ∧ v.info = infoS := by
  obtain ⟨zn, core2, hz, hc, h1, h2⟩ := functionsS
  obtain ⟨g, hg, -, ho⟩ := gensOf_spec ES (cyclic_two 2 7 Nat.prime_two (Or.inl (by decide)) (by decide) (by rw [ES_card])) (by rw [ES_card]; decide)
  have hbeg : ∀ w', Begins pari cN 9 (world pickT {} 0) w' → ∃ j, fresh w' = world pickT {} j := by
    intro w' hb
    induction hb with
    | first => exact ⟨0, rfl⟩
    | next h3 h4 ih =>
      obtain ⟨j, hj⟩ := ih
      rw [cN_search g hg _ j hj] at h4
      obtain rfl := (Prod.mk.inj h4).2
      exact ⟨j + 9, rfl⟩
  obtain ⟨u, v, -, -, -, hout⟩ := out_printed { (courseT g 9).cur with info := [] } 13 p13 9 4 14 g (by decide) (by rw [ho, ES_card]) rfl rfl rfl rfl rfl rfl
  have hp : outCurve (courseT g 9).cur = some { printed none 13 9 4 14 u v with info := infoS } := by
    have := outCurve_info { (courseT g 9).cur with info := [] } infoS
    rw [hout] at this
    exact this
  have ho := cN_search g hg (world pickT {} 0) 0 rfl
  rw [hp] at ho
  refine ⟨_, cN, world pickT {} 0, zn, core2, { printed none 13 9 4 14 u v with info := infoS }, cN_some, cN_method, by decide +kernel, hz, hc, tapeN, deuringN,
    fun w' hb => (hbeg w' hb).elim fun j hj => cN_right zn core2 h1 h2 g hg w' j hj, ?_, rfl, rfl⟩
  rw [produce, (Json.generate_objects _ _ _).1, show toSize cN.count = 1 by decide +kernel, generated_one _ _ _ _ _ _ ho]
  exact List.mem_singleton.2 rfl

end Ecgen.Special
