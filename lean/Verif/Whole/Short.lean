import Verif.Whole.Bound
import Verif.Parson.Length

/-!
# Texts of curves over small fields are short
-/

namespace Ecgen.Whole

open Output Output.Spec Cli

theorem hex_length (n k : Nat) (h : n ≤ 2 ^ k) : (hexText n).length ≤ k + 1 := by
  rw [hexText_eq, Nat.length_toDigits_le_iff (by decide) (by omega)]
  calc n ≤ 2 ^ k := h
    _ < 2 ^ (4 * (k + 1)) := Nat.pow_lt_pow_right (by decide) (by omega)
    _ = 16 ^ (k + 1) := by rw [pow_mul]; norm_num

/-- a point over a small field has small coordinates -/
theorem point_fits (E : Crv) (k : Nat) (hk : fieldSize E.field.1 ≤ 2 ^ k) (co : Option Nat) (g : Group.Pt E.Pt)
    (v : Output.Point) (h : outPoint E co g = some v) (ho : g.order ≤ 2 ^ k) (hc : ∀ n, co = some n → n ≤ 2 ^ k) : Parson.PointFits (k + 1) v := by
  unfold outPoint at h
  split at h
  · cases h
  · rename_i x y _ _
    have hx := num_lt E.field x
    have hy := num_lt E.field y
    obtain ⟨ex, h1, -, h2⟩ := ielement_out E.field (num E.field x) hx
    obtain ⟨ey, h3, -, h4⟩ := ielement_out E.field (num E.field y) hy
    simp only [h1, h3, Option.some.injEq] at h
    subst h
    refine ⟨hex_length _ _ ?_, hex_length _ _ ?_, hex_length _ _ ho, fun n hn => hex_length _ _ (hc n hn)⟩
    · change elementi ex ≤ _
      rw [elementi_eq, h2]
      omega
    · change elementi ey ≤ _
      rw [elementi_eq, h4]
      omega

/-- all numbers of a curve are at most `2 ^ k`, and there are few points -/
structure Small (k m n : Nat) (x : Cur) : Prop where
  seed : ∀ s t, x.seed = some s → seedText s = some t → t.length ≤ k + 1
  good : ∀ s, x.seed = some s → s.WF ∧ s.bitlen ≠ 0
  info : x.info = []
  field : ∀ f, x.field = some f → fieldSize f.1 ≤ 2 ^ k
  a : ∀ a, x.a = some a → elementi a ≤ 2 ^ k
  b : ∀ b, x.b = some b → elementi b ≤ 2 ^ k
  order : ∀ o, x.order = some o → o ≤ 2 ^ k
  gens : ∀ E l, x.gens = some ⟨E, l⟩ → fieldSize E.field.1 ≤ 2 ^ k ∧ l.length ≤ m ∧
    ∀ s ∈ l, s.gen.point ≠ 0 → s.gen.order ≤ 2 ^ k ∧ s.gen.cofactor ≤ 2 ^ k
  points : ∀ E l, x.gens = some ⟨E, l⟩ → (∀ s ∈ l, s.gen.point ≠ 0) →
    ∀ s ∈ l, s.points.length ≤ n ∧ ∀ q, some q ∈ s.points → q.order ≤ 2 ^ k

theorem params_le : ∀ (v : List Bool) (out e : List Nat) (n : Nat), paramsLoop v out = some e → v.length ≤ n → (∀ i ∈ out, i ≤ n) → ∀ i ∈ e, i ≤ n
  | [], out, e, n, h, _, ho, i, hi => by
    unfold paramsLoop at h
    split at h
    · cases h
      rcases List.mem_append.1 hi with hi | hi
      · exact ho i hi
      · rw [List.eq_of_mem_replicate hi]; omega
    · cases h
  | c :: v, out, e, n, h, hn, ho, i, hi => by
    unfold paramsLoop at h
    split at h
    · refine params_le v _ e n h (by rw [List.length_cons] at hn; omega) (fun j hj => ?_) i hi
      split at hj
      · rcases List.mem_append.1 hj with hj | hj
        · exact ho j hj
        · rw [List.mem_singleton.1 hj]; exact hn
      · exact ho j hj
    · cases h

theorem field_fits (f : Fld) (k : Nat) (hk : fieldSize f.1 ≤ 2 ^ k) : (∀ p, out f.1 = .prime p → (hexText p).length ≤ k + 1) ∧
    ∀ m, out f.1 = .binary m → ∀ e, fieldParams m = some e → ∀ i, (hexText (e.getD i 0)).length ≤ k + 1 := by
  refine ⟨fun p hp => hex_length _ _ ?_, fun m hm e he i => hex_length _ _ ?_⟩
  · have := size_out f.1
    rw [hp] at this
    change p = _ at this
    omega
  · have h1 := size_out f.1
    rw [hm] at h1
    change 2 ^ (m.length - 1) = _ at h1
    rw [← h1] at hk
    have h2 := (Nat.pow_le_pow_iff_right (show 1 < 2 by decide)).1 hk
    have h3 : ∀ i ∈ e, i ≤ k := params_le _ _ e k he (by rw [List.length_dropLast]; exact h2) (fun i hi => by cases hi)
    have h4 : k < 2 ^ k := Nat.lt_two_pow_self
    rw [List.getD_eq_getElem?_getD]
    cases hi : e[i]? with
    | none => exact Nat.zero_le _
    | some d =>
      have := h3 d (List.mem_of_getElem? hi)
      simp only [Option.getD_some]
      omega

theorem out_fits (x : Cur) (k m n : Nat) (hs : Small k m n x) (w : Nat) (hw : w ≤ k + 1) (v : Output.Curve) (h : outCurve x = some v) :
    Parson.Fits w (k + 1) v ∧ Parson.count v ≤ m * (n + 1) := by
  unfold outCurve at h
  split at h
  case h_2 => cases h
  case h_1 f a b o E l e1 e2 e3 e4 e5 =>
    obtain ⟨gs, hgs, rfl⟩ := Option.map_eq_some_iff.1 h
    obtain ⟨g1, g2, g3⟩ := hs.gens E l e5
    have hgs := allSome_eq _ _ hgs
    have hsub : List.Forall₂ (fun (s : Group.Sub E.Pt) g => outSub E s = some g) l gs := by
      have : List.Forall₂ (· = ·) (l.map (outSub E)) (gs.map some) := by rw [hgs]; exact List.forall₂_refl _
      rw [List.forall₂_map_left_iff, List.forall₂_map_right_iff] at this
      exact this
    have hne : ∀ s ∈ l, s.gen.point ≠ 0 := by
      intro s hs
      obtain ⟨i, hi, rfl⟩ := List.mem_iff_getElem.1 hs
      have hl := hsub.length_eq
      have := (List.forall₂_iff_get.1 hsub).2 i hi (by omega)
      simp only [List.get_eq_getElem, outSub, Option.bind_eq_some_iff] at this
      obtain ⟨q, hq, -⟩ := this
      exact (point_printed _ _ _ _ hq).1
    have g4 := hs.points E l e5 hne
    have hall : ∀ g ∈ gs, Parson.PointFits (k + 1) g.generator ∧ (∀ p ∈ g.points, Parson.PointFits (k + 1) p) ∧ g.points.length ≤ n := by
      intro g hg
      obtain ⟨i, hi, rfl⟩ := List.getElem_of_mem hg
      have hil : i < l.length := by rw [hsub.length_eq]; exact hi
      have ho : outSub E l[i] = some gs[i] := hsub.get hil hi
      obtain ⟨s1, s2⟩ := g3 l[i] (List.getElem_mem hil) (hne _ (List.getElem_mem hil))
      obtain ⟨s3, s4⟩ := g4 l[i] (List.getElem_mem hil)
      unfold outSub at ho
      obtain ⟨gen, hgen, ho⟩ := Option.bind_eq_some_iff.1 ho
      obtain ⟨ps, hps, ho⟩ := Option.map_eq_some_iff.1 ho
      rw [← ho]
      have hps := allSome_eq _ _ hps
      refine ⟨point_fits E k g1 _ _ _ hgen s1 (fun n hn => by cases hn; exact s2), fun p hp => ?_, ?_⟩
      · have : some p ∈ l[i].points.map fun p => p.bind (outPoint E none) := by rw [hps]; exact List.mem_map_of_mem hp
        obtain ⟨o, ho1, ho2⟩ := List.mem_map.1 this
        obtain ⟨q', rfl, ho3⟩ := Option.bind_eq_some_iff.1 ho2
        exact point_fits E k g1 none q' p ho3 (s4 q' ho1) (fun n hn => by cases hn)
      · have := congrArg List.length hps
        rw [List.length_map, List.length_map] at this
        simp only
        omega
    have hf := field_fits f k (hs.field f e1)
    refine ⟨⟨hw, hf.1, hf.2, hs.seed, hex_length _ _ (hs.a a e2), hex_length _ _ (hs.b b e3), hex_length _ _ (hs.order o e4),
      fun g hg => (hall g hg).1, fun g hg => (hall g hg).2.1, hs.info⟩, ?_⟩
    unfold Parson.count
    refine (Parson.sum_le_mul _ _ (n + 1) fun g hg => ?_).trans (Nat.mul_le_mul_right _ (by rw [← hsub.length_eq]; exact g2))
    have := (hall g hg).2.2
    omega

/-- the text is short -/
theorem out_short (x : Cur) (k m n : Nat) (hs : Small k m n x) (w : Nat)
    (hw : w ≤ k + 1) (hn : (m * (n + 1) + 4) * (96 * (k + 1) + 1600) ≤ 2147483646) (v : Output.Curve) (h : outCurve x = some v) (j : Parson.Value)
    (hj : Parson.outputJjson w v = .ok j) : (Parson.render true 0 j).length ≤ 2147483646 := by
  obtain ⟨h1, h2⟩ := out_fits x k m n hs w hw v h
  have h3 : ∃ f : Fld, v.field = out f.1 ∧ v.seed = x.seed := by
    unfold outCurve at h
    split at h
    case h_2 => cases h
    case h_1 f a b o E l e1 e2 e3 e4 e5 =>
      obtain ⟨gs, hgs, rfl⟩ := Option.map_eq_some_iff.1 h
      exact ⟨f, rfl, rfl⟩
  obtain ⟨f, h3, h4⟩ := h3
  refine Parson.text_short w (k + 1) v h1 (le_trans (Nat.mul_le_mul_right _ (by omega)) hn) j hj ⟨fun m hm => ?_, fun s hs' => ?_⟩ fun m hm => ?_
  · exact out_ne f.1 m (h3 ▸ hm)
  · exact hs.good s (h4 ▸ hs')
  · exact terms_out f m (h3 ▸ hm)

/-- the primes that divide a number are few -/
theorem primes_few (n k : Nat) (hn : n ≠ 0) (hk : n ≤ 2 ^ k) (l : List Nat) (hl : l.Pairwise (· < ·)) (h : ∀ d ∈ l, d.Prime ∧ d ∣ n) : l.length ≤ k := by
  have hnd : l.Nodup := hl.imp fun h => Nat.ne_of_lt h
  have hsub : l ⊆ n.primeFactorsList := fun d hd => (Nat.mem_primeFactorsList hn).2 (h d hd)
  have h1 := (hnd.subperm hsub).length_le
  have h2 : 2 ^ n.primeFactorsList.length ≤ n := by
    have : ∀ l : List Nat, (∀ x ∈ l, 2 ≤ x) → 2 ^ l.length ≤ l.prod := by
      intro l
      induction l with
      | nil => intro _; exact Nat.le_refl 1
      | cons a l ih =>
        intro h
        rw [List.length_cons, List.prod_cons, Nat.pow_succ, Nat.mul_comm]
        exact Nat.mul_le_mul (h a List.mem_cons_self) (ih fun x hx => h x (List.mem_cons_of_mem _ hx))
    have := this n.primeFactorsList fun x hx => (Nat.prime_of_mem_primeFactorsList hx).two_le
    rwa [Nat.prod_primeFactorsList hn] at this
  have h3 := (Nat.pow_le_pow_iff_right (show 1 < 2 by decide)).1 (le_trans h2 hk)
  omega

/-- the numbers of points that are listed for a generator of a group with at most `2 ^ k` elements, at most -/
def FewPoints (c : Config) (k n : Nat) : Prop :=
  match c.pointsType with
  | .none => True
  | .prime => k ≤ n
  | .random => c.pointsAmount ≠ 0 ∧ c.pointsAmount ≤ n
  | .nonprime | .all => 2 ^ k ≤ n

theorem increasing_few : ∀ (l : List Nat) (a n : Nat), l.Pairwise (· < ·) → (∀ d ∈ l, a < d ∧ d ≤ n) → l.length + a ≤ n ∨ l = []
  | [], _, _, _, _ => Or.inr rfl
  | d :: l, a, n, hl, h => by
    rw [List.pairwise_cons] at hl
    have hd := h d List.mem_cons_self
    rcases increasing_few l d n hl.2 fun e he => ⟨hl.1 e he, (h e (List.mem_cons_of_mem _ he)).2⟩ with h1 | h1
    · left; rw [List.length_cons]; omega
    · left; rw [h1, List.length_singleton]; omega

theorem points_few {A : Type} [AddCommGroup A] [Finite A] (c : Config) (l : List (Group.Sub A)) (hk : PointsKnown c l)
    (ho : ∀ s ∈ l, s.gen.order = addOrderOf s.gen.point) (k n : Nat) (hA : Nat.card A ≤ 2 ^ k) (hf : FewPoints c k n ∨ ∀ s ∈ l, s.points.length ≤ n) :
    ∀ s ∈ l, s.points.length ≤ n ∧ ∀ q, some q ∈ s.points → q.order ≤ 2 ^ k := by
  intro s hs
  have hord : ∀ Q : A, addOrderOf Q ≤ 2 ^ k := fun Q => le_trans (Nat.le_of_dvd Nat.card_pos (addOrderOf_dvd_natCard Q)) hA
  have hso := ho s hs
  have h0 : s.gen.order ≠ 0 := by rw [hso]; exact (addOrderOf_pos _).ne'
  obtain ⟨ps, k1, k2, k3⟩ := hk.listed s hs
  refine ⟨?_, fun q hq => ?_⟩
  · rcases hf with hf | hf
    swap
    · exact hf s hs
    have hlen : s.points.length = (ps.map Group.Pt.order).length := by rw [k1, List.length_map, List.length_map]
    have hall : ∀ Q : Nat → Prop, pointOrders c s.gen.order = some Q → (∀ d, Q d → 1 < d ∧ d ∣ s.gen.order) → 2 ^ k ≤ n → s.points.length ≤ n := by
      intro Q hQ hd hn
      obtain ⟨k4, k5⟩ := k3 Q hQ
      rw [hlen]
      have hb : ∀ d ∈ ps.map Group.Pt.order, 0 < d ∧ d ≤ 2 ^ k := fun d hd' => by
        obtain ⟨h1, h2⟩ := hd d ((k5 d).1 hd')
        exact ⟨by omega, (Nat.le_of_dvd (Nat.pos_of_ne_zero h0) h2).trans (by rw [hso]; exact hord _)⟩
      rcases increasing_few (ps.map Group.Pt.order) 0 (2 ^ k) k4 hb with h | h
      · omega
      · rw [h]; exact Nat.zero_le _
    unfold FewPoints at hf
    cases ht : c.pointsType with
    | none =>
      obtain ⟨-, k5⟩ := k3 (fun _ => False) (by simp only [pointOrders, ht])
      have : ps.map Group.Pt.order = [] := List.eq_nil_iff_forall_not_mem.2 fun d hd => ((k5 d).1 hd).elim
      rw [hlen, this]
      exact Nat.zero_le _
    | prime =>
      rw [ht] at hf
      obtain ⟨k4, k5⟩ := k3 (fun d => d.Prime ∧ d ∣ s.gen.order) (by simp only [pointOrders, ht])
      rw [hlen]
      exact (primes_few s.gen.order k h0 (by rw [hso]; exact hord _) _ k4 fun d hd => (k5 d).1 hd).trans hf
    | random =>
      rw [ht] at hf
      have h1 : s.points.length ≤ (l.map fun s => s.points.length).sum := List.single_le_sum (fun _ _ => Nat.zero_le _) _ (List.mem_map_of_mem hs)
      rw [hk.count ht hf.1] at h1
      exact h1.trans hf.2
    | nonprime =>
      rw [ht] at hf
      exact hall (fun d => 1 < d ∧ ¬ d.Prime ∧ d ∣ s.gen.order) (by simp only [pointOrders, ht]) (fun d hd => ⟨hd.1, hd.2.2⟩) hf
    | all =>
      rw [ht] at hf
      exact hall (fun d => 1 < d ∧ d ∣ s.gen.order) (by simp only [pointOrders, ht]) (fun d hd => hd) hf
  · rw [k1, List.mem_map] at hq
    obtain ⟨q', h1, h2⟩ := hq
    cases h2
    rw [(k2 q h1).1]
    exact hord _

/-- **curves over small fields have short texts**: at most 2500 bits, no metadata, no seed, and few points asked for -/
structure Modest (c : Config) : Prop where
  bits : c.bits ≤ 2500
  metadata : c.metadata = false
  points : c.pointsType = .none ∨ c.pointsType = .prime ∨ (c.pointsType = .random ∧ c.pointsAmount ≠ 0 ∧ c.pointsAmount ≤ 2500) ∨
    ((c.pointsType = .nonprime ∨ c.pointsType = .all) ∧ c.bits ≤ 14)

theorem Modest.room {c : Config} (h : Modest c) (j : Nat) (hj : j ≤ 45) :
    ∃ n, FewPoints c (c.bits + 2) n ∧ (3 * (n + 1) + 4) * (96 * (c.bits + j + 1) + 1600) ≤ 2147483646 := by
  have hb := h.bits
  have key : ∀ n b, n ≤ 2545 → b ≤ 2545 → (3 * (n + 1) + 4) * (96 * (b + 1) + 1600) ≤ 2147483646 := fun n b h1 h2 =>
    (Nat.mul_le_mul (show 3 * (n + 1) + 4 ≤ 3 * (2545 + 1) + 4 by omega) (show 96 * (b + 1) + 1600 ≤ 96 * (2545 + 1) + 1600 by omega)).trans (by norm_num)
  rcases h.points with h1 | h1 | ⟨h1, h2, h3⟩ | ⟨h1, h2⟩
  · exact ⟨0, by simp only [FewPoints, h1], key _ _ (by omega) (by omega)⟩
  · exact ⟨c.bits + 2, by simp only [FewPoints, h1]; exact le_refl _, key _ _ (by omega) (by omega)⟩
  · exact ⟨c.pointsAmount, by simp only [FewPoints, h1]; exact ⟨h2, le_refl _⟩, key _ _ (by omega) (by omega)⟩
  · refine ⟨2 ^ 16, ?_, ?_⟩
    · have : 2 ^ (c.bits + 2) ≤ 2 ^ 16 := Nat.pow_le_pow_right (by decide) (by omega)
      rcases h1 with h1 | h1 <;> simp only [FewPoints, h1] <;> exact this
    · exact (Nat.mul_le_mul_left _ (show 96 * (c.bits + j + 1) + 1600 ≤ 7360 by omega)).trans (by norm_num)

theorem crv_small (c : Config) (x : Cur) (E : Crv) (k K n : Nat) (hK : k + 2 ≤ K) (hs1 : ∀ s t, x.seed = some s → seedText s = some t → t.length ≤ K + 1)
    (hs2 : ∀ s, x.seed = some s → s.WF ∧ s.bitlen ≠ 0) (hi : x.info = []) (hf : x.field = some E.field) (ha : x.a = some E.a) (hb : x.b = some E.b)
    (la : eltV E.a < fieldSize E.field.1) (lb : eltV E.b < fieldSize E.field.1) (hsz : fieldSize E.field.1 ≤ 2 ^ k)
    (ho : x.order = some (Nat.card E.Pt)) (l : List (Group.Sub E.Pt)) (hl : x.gens = some ⟨E, l⟩) (h3 : l.length ≤ 3)
    (hg1 : ∀ s ∈ l, s.gen.order = addOrderOf s.gen.point) (hg2 : ∀ s ∈ l, s.gen.point ≠ 0 → s.gen.cofactor ≤ Nat.card E.Pt)
    (hp : (∀ s ∈ l, s.gen.point ≠ 0) → PointsKnown c l) (hn : FewPoints c (k + 2) n ∨ ∀ s ∈ l, s.points.length ≤ n) : Small K 3 n x := by
  have hA : Nat.card E.Pt ≤ 2 ^ (k + 2) := by
    have h1 : Nat.card E.Pt ≤ 2 * fieldSize E.field.1 + 1 := order_le E.field E.eqn
    have h2 : 2 ^ (k + 2) = 4 * 2 ^ k := by ring
    have h3 : 1 ≤ 2 ^ k := Nat.one_le_two_pow
    omega
  have hk : 2 ^ k ≤ 2 ^ (k + 2) := Nat.pow_le_pow_right (by decide) (by omega)
  have hKp : 2 ^ (k + 2) ≤ 2 ^ K := Nat.pow_le_pow_right (by decide) hK
  have hfin : Finite E.Pt := inferInstanceAs (Finite E.eqn.Point)
  have hord : ∀ Q : E.Pt, addOrderOf Q ≤ 2 ^ (k + 2) := fun Q => le_trans (Nat.le_of_dvd Nat.card_pos (addOrderOf_dvd_natCard Q)) hA
  refine ⟨hs1, hs2, hi, fun g hg => ?_, fun a' ha' => ?_, fun b' hb' => ?_, fun o ho' => ?_, fun E l' hl' => ?_, fun E l' hl' hne => ?_⟩
  · rw [hf] at hg; cases hg; omega
  · rw [ha] at ha'; cases ha'; rw [elementi_eq]; omega
  · rw [hb] at hb'; cases hb'; rw [elementi_eq]; omega
  · rw [ho] at ho'; cases ho'; omega
  · rw [hl] at hl'; cases hl'
    refine ⟨by omega, h3, fun s hs hne => ⟨?_, (hg2 s hs hne).trans (hA.trans hKp)⟩⟩
    rw [hg1 s hs]; exact (hord _).trans hKp
  · rw [hl] at hl'; cases hl'
    intro s hs
    obtain ⟨h1, h2⟩ := points_few c l (hp hne) hg1 _ n hA hn s hs
    exact ⟨h1, fun q hq => (h2 q hq).trans hKp⟩

theorem known_cofactor_le {A : Type} [AddCommGroup A] [Finite A] {c : Config} {l : List (Group.Pt A)} (hg : GensKnown A c l) :
    ∀ g ∈ l, g.point ≠ 0 → g.cofactor ≤ Nat.card A := by
  intro g hm hne
  have h1 := hg.order g hm
  have h2 := hg.cofactor g hm hne
  have h3 : 0 < g.order := by rw [h1]; exact addOrderOf_pos _
  rw [← h2]
  exact Nat.le_mul_of_pos_left _ h3

theorem inv_small {c : Config} (hc : Covered c) {T : Nat → Pick} (hT : ∀ i f, Elem (out f.1) ((T i).elt f)) (x : Cur)
    (hi : Inv c T 9 x) (hm : c.metadata = false) (ha : c.seedAlgo = .none) (n : Nat)
    (hn : FewPoints c (c.bits + 2) n ∨ ∀ E l, x.gens = some ⟨E, l⟩ → ∀ s ∈ l, s.points.length ≤ n) : Small (c.bits + 2) 3 n x := by
  obtain ⟨f, a, b, h1, h2, h3, h4, h5⟩ := hi.crv (by omega)
  obtain ⟨c1, c2, c3⟩ := comes hi (by omega) h1 h2 h3
  obtain ⟨f', e1, hf, hcf⟩ := hi.field (by omega)
  rw [h1] at e1; cases e1
  obtain ⟨la, lb, -⟩ := coefficients c hc T (coeffs_fine_none ha hT) f hcf a b c2 c3
  have la := la ha
  obtain ⟨E, e1, ho, -⟩ := hi.order (by omega)
  rw [h4] at e1; cases e1
  obtain ⟨E, l, e1, hl, hgk, -⟩ := hi.gens (by omega)
  rw [h4] at e1; cases e1
  obtain ⟨E, l', e1, hpk⟩ := hi.points (by omega)
  rw [hl] at e1; cases e1
  have hfin : Finite (Crv.mk f a b).Pt := inferInstanceAs (Finite (Crv.mk f a b).eqn.Point)
  refine crv_small c x ⟨f, a, b⟩ c.bits _ n (le_refl _) (fun s t hs => ?_) (fun s hs => ?_) (hi.quiet hm) h1 h2 h3 la lb (size_asked hf) ho l hl
    (by rw [← List.length_map]; exact hgk.few) (fun s hs => hgk.order s.gen (List.mem_map_of_mem hs))
    (fun s hs => known_cofactor_le hgk s.gen (List.mem_map_of_mem hs)) hpk (hn.imp_right fun h => h _ l hl)
  · rw [hi.noseed ha] at hs; cases hs
  · rw [hi.noseed ha] at hs; cases hs

theorem inv_short {c : Config} (hc : Covered c) {T : Nat → Pick} (hT : ∀ i f, Elem (out f.1) ((T i).elt f)) (hmod : Modest c)
    (ha : c.seedAlgo = .none) (hd : c.hexDigits ≤ c.bits + 3) (x : Cur) (hi : Inv c T 9 x) (v : Output.Curve) (hv : outCurve x = some v)
    (j : Parson.Value) (hj : Parson.outputJjson c.hexDigits v = .ok j) : (Parson.render true 0 j).length ≤ 2147483646 := by
  obtain ⟨n, h1, h2⟩ := hmod.room 2 (by decide)
  exact out_short x _ 3 n (inv_small hc hT x hi hmod.metadata ha n (Or.inl h1)) c.hexDigits (by omega) h2 v hv j hj

/-- **C75** as `run_prints_what_was_asked_partial`, for the default method, in conditions on what is typed alone -/
theorem default_run_prints_what_was_asked_partial (malloc : Nat → List Parson.Byte) (hm : ∀ n, (malloc n).length = n) (P : Pari) (hP : P.Ok)
    (n : Int) (os : List Opt) (c : Config) (h : commandLine n os = some c) (hd : c.method = 0) (hmod : Modest c)
    (hk : c.koblitz = true → c.field = FIELD_PRIME → c.prime = false → c.cofactor = false → c.smooth = false →
      Koblitz.getOrder c.bits c.koblitzValue.toNat = none)
    (fuel : Nat) (w : W) (hb : TapeOk c w.tape) (hstatus : (produce P c fuel w).2 = 0) :
    ∃ js : List Output.Json, (∀ j, Parson.Spec.Document (bytes malloc P c fuel w) (Parson.encode j) ↔ j = .arr js) ∧ js.length = toSize c.count ∧
      ∀ j ∈ js, ∃ v, readCurve j = some v ∧ Asked c v := by
  have hcov := covered n os c h (Or.inl hd) fun h1 _ => hk h1
  have ha : c.seedAlgo = .none := by
    rcases hcov.algo with h1 | h1
    · exact h1.1
    · have := h1.2
      rw [hd] at this
      exact absurd this (by decide)
  refine run_prints_what_was_asked_partial malloc hm P hP n os c h (Or.inl hd) (fun h1 _ => hk h1) fuel w hb hstatus fun v hv j hj => ?_
  obtain ⟨x, hx, hv'⟩ := generated_complete P hP c hcov w.tape fuel (toSize c.count) w ⟨rfl, hb⟩ v hv
  have := (consistent n os c h).hexDigits.2.1
  exact inv_short hcov (fun i => (hb.picks i).elt) hmod ha (by omega) x hx v hv' j hj

end Ecgen.Whole
