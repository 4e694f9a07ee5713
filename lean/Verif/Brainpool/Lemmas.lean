import Verif.Brainpool.Model
import Verif.Brainpool.Spec
import Mathlib.Tactic.Ring
import Mathlib.Tactic.LinearCombination

/-!
# Lemmas for the Brainpool procedures
-/

namespace Ecgen.Brainpool

open Ecgen.Bits Ecgen.SeedSpec

/-- a well-formed seed object of 160 bits with value `z` -/
def Seed160 (s : Bits) (z : Nat) : Prop :=
  s.WF ∧ s.Clean ∧ s.sign = false ∧ s.bitlen = 160 ∧ ofBits s.val = z

theorem Seed160.lt {s : Bits} {z : Nat} (h : Seed160 s z) : z < 2 ^ 160 := by
  have := ofBits_lt s.val
  rw [val_length, h.2.2.2.1, h.2.2.2.2] at this
  exact this

theorem Seed160.val {s : Bits} {z : Nat} (h : Seed160 s z) : s.val = toBits 160 z := by
  apply eq_toBits
  · rw [val_length, h.2.2.2.1]
  · rw [h.2.2.2.2, Nat.mod_eq_of_lt h.lt]

theorem toI_seed {s : Bits} {z : Nat} (h : Seed160 s z) : toI s = some (z : Int) := by
  rw [toI_spec s h.1, h.2.2.1, h.2.2.2.2]
  simp

theorem fromILen_seed (z : Nat) (hz : z < 2 ^ 160) : ∃ r, fromILen (z : Int) 160 = some r ∧ Seed160 r z := by
  obtain ⟨r, hr, h1, h2, h3, h4⟩ := fromILen_spec (z : Int) 160
  obtain ⟨r', hr', -, h5, h6, -⟩ := fromILen_fits (z : Int) 160 (by simpa using hz)
  rw [hr] at hr'
  cases hr'
  exact ⟨r, hr, h1, h2, by rw [h3]; simp, h5, by rw [h6]; simp⟩

theorem updateSeed_spec (junk : Byte) {s : Bits} {z : Nat} (h : Seed160 s z) :
    ∃ s', updateSeed junk s = some s' ∧ Seed160 s' ((z + 1) % 2 ^ 160) := by
  unfold updateSeed
  rw [toI_seed h, Option.bind_some]
  have e : ((z : Int) + 1) % (2 ^ 160 : Int) = (((z + 1) % 2 ^ 160 : Nat) : Int) := by push_cast; rfl
  rw [e]
  obtain ⟨r, hr, h1⟩ := fromILen_seed ((z + 1) % 2 ^ 160) (Nat.mod_lt _ (by decide))
  rw [hr, Option.bind_some]
  obtain ⟨q, hq, q1, q2, q3, q4, q5⟩ := cpy_spec junk s r h.1 h1.1 (by rw [h1.2.2.2.1]; decide)
  exact ⟨q, hq, q1, q2 h1.2.1, by rw [q3, h1.2.2.1], by rw [q4, h1.2.2.2.1], by rw [q5, h1.2.2.2.2]⟩

theorem unpack_append (a b : List Byte) : unpack (a ++ b) = unpack a ++ unpack b := by
  unfold unpack; rw [List.flatMap_append]

theorem hashRest_spec (z v : Nat) : ∃ d, hashRest (z : Int) v = some d ∧ d.length = 20 * v ∧
    unpack d = (List.range v).flatMap fun i => H (toBits 160 ((z + (i + 1)) % 2 ^ 160)) := by
  unfold hashRest
  obtain ⟨y, hy, h1, h2⟩ := forN_inv (f := fun i (acc : List Byte) =>
      (fromILen (((z : Int) + (i + 1 : Nat)) % (2 ^ 160 : Int)) 160).bind fun si =>
      (Sha1.bitsSha1 si).map fun d => acc ++ d) (n := v) (a := [])
    (P := fun k y => y.length = 20 * k ∧
      unpack y = (List.range k).flatMap fun i => H (toBits 160 ((z + (i + 1)) % 2 ^ 160)))
    ⟨rfl, rfl⟩ (by
      intro k x _ ⟨x1, x2⟩
      have e : ((z : Int) + (k + 1 : Nat)) % (2 ^ 160 : Int) = (((z + (k + 1)) % 2 ^ 160 : Nat) : Int) := by
        push_cast; rfl
      rw [e]
      obtain ⟨r, hr, h1⟩ := fromILen_seed ((z + (k + 1)) % 2 ^ 160) (Nat.mod_lt _ (by decide))
      rw [hr, Option.bind_some, Sha1.bitsSha1_correct r h1.1 h1.2.1 (by rw [h1.2.2.2.1]; decide), h1.val]
      refine ⟨_, rfl, ?_, ?_⟩
      · rw [List.length_append, x1, Sha1.sha1_length]; omega
      · rw [unpack_append, x2, List.range_succ, List.flatMap_append]
        simp [H])
  exact ⟨y, hy, h1, h2⟩

theorem hashI_spec (junk : Byte) {s : Bits} {z : Nat} (h : Seed160 s z) (w v : Nat) (hw : w ≤ 160) :
    hashI junk s w v = some (Spec.findInteger z w v : Int) := by
  unfold hashI hash
  rw [Sha1.bitsSha1_correct s h.1 h.2.1 (by rw [h.2.2.2.1]; decide), Option.bind_some, toI_seed h,
    Option.bind_some]
  obtain ⟨d, d0, d1, d2⟩ := hashRest_spec z v
  rw [d0, Option.bind_some]
  obtain ⟨r, r1, r2, r3, r4⟩ := fromRaw_unpack (Sha1.Spec.sha1 (Sha1.pack s.val)) 20 (Sha1.sha1_length _)
  rw [show (160 : Nat) = 8 * 20 from rfl, r1, Option.bind_some]
  have hl : r.bitlen = 160 := by rw [← val_length, r4, unpack_length, Sha1.sha1_length]
  obtain ⟨q, q1, q2, q3, q4⟩ := shorten_val r r2 (by rw [hl]; decide) (160 - (w : Int)) (by omega)
  rw [q1, Option.bind_some]
  obtain ⟨t, t1, t2, t3, t4⟩ := fromRaw_unpack d (20 * v) d1
  rw [show 20 * v * 8 = 8 * (20 * v) by omega, t1, Option.bind_some]
  obtain ⟨c, c1, c2, c3, c4⟩ := concatz_val junk q [t] q2 (by simpa using t2)
  rw [c1, Option.bind_some, toI_spec c c2, c3, q3, r3, c4]
  have e : (160 - (w : Int)) = ((160 - w : Nat) : Int) := by omega
  rw [if_pos (show (0 : Int) ≤ 160 - w by omega), e, Int.toNat_natCast] at q4
  unfold Spec.findInteger
  rw [q4, r4, h.val, Nat.mod_eq_of_lt h.lt]
  simp [t4, d2, H]

theorem applyFlag_spec (junk : Byte) (s : St) {z : Nat} (h : Seed160 s.seed z) :
    ∃ s', applyFlag junk s = some s' ∧ Seed160 s' ((z + s.upd.toNat) % 2 ^ 160) := by
  unfold applyFlag
  cases hu : s.upd with
  | true => simpa using updateSeed_spec junk h
  | false =>
    refine ⟨s.seed, by simp, ?_⟩
    show Seed160 s.seed ((z + 0) % 2 ^ 160)
    rw [Nat.add_zero, Nat.mod_eq_of_lt h.lt]
    exact h

theorem findInteger_mod (z w v : Nat) : Spec.findInteger (z % 2 ^ 160) w v = Spec.findInteger z w v := by
  unfold Spec.findInteger
  simp only [Nat.mod_mod, Nat.mod_add_mod]

/-- invariant rule for `loopN` -/
theorem loopN_inv {σ α : Type} {f : σ → Option (Step σ α)} (P : σ → Prop) (Q : α → Prop)
    (hc : ∀ s s', P s → f s = some (.cont s') → P s') (hd : ∀ s a, P s → f s = some (.done a) → Q a)
    {n : Nat} {s : σ} {a : α} (h0 : P s) (h : loopN f n s = some (some a)) : Q a := by
  obtain ⟨k, t, -, t0, tc, td⟩ := loopN_done h
  have : ∀ i ≤ k, P (t i) := by
    intro i
    induction i with
    | zero => intro _; rw [t0]; exact h0
    | succ i ih => intro hi; exact hc _ _ (ih (by omega)) (tc i (by omega))
  exact hd _ _ (this k (Nat.le_refl _)) td

end Ecgen.Brainpool
