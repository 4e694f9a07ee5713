import Verif.Ordered.Props
import Verif.Whole.Short

/-!
# The texts that `--order` prints are not too long

This is a hypothesis of C88 and C90 (parson counts the bytes of a text in an `int`); it holds for all sizes of fields up to 3000 bits.
-/

namespace Ecgen.Ordered

open Whole Output Output.Spec Cli Cm.Construct
open Seeded (Fp)
open Special (obj)

variable {P : Pari} {c : Config} {prime : Bool} {N : Nat} {T : Nat → Pick}

theorem field_small (N p : Nat) (h : ((p : Int) + 1 - N) ^ 2 ≤ 4 * p) : p ≤ 4 * N + 8 := by
  by_contra hc
  have h1 : (p : Int) ≥ 4 * N + 9 := by omega
  nlinarith

theorem inv_small (hP : P.Ok) (hC : Calls.Ok P T) (hN : N < 2 ^ (c.bits + 1)) (hm : c.metadata = false)
    (hpt : (cv c prime).pointsType = .none ∨ (cv c prime).pointsType = .prime) (x : Cur) (hi : Inv P c prime N T 9 x) :
    Small (c.bits + 6) 2 (c.bits + 6) x := by
  obtain ⟨r, hp, hk⟩ := hi.known (by omega)
  obtain ⟨j, hj⟩ := hk.built
  have : Fact r.p.Prime := ⟨hp⟩
  have h1 := field_small N r.p (built_hasse hP hC hj)
  have h2 : Nat.card (obj r.p hp r.a.val r.b.val).Pt ≤ 2 * r.p + 1 := order_le (Fp r.p hp) _
  have e : 2 ^ (c.bits + 6) = 32 * 2 ^ (c.bits + 1) := by ring
  have e0 : 1 ≤ 2 ^ c.bits := Nat.one_le_two_pow
  have e1 : 2 ^ (c.bits + 1) = 2 * 2 ^ c.bits := by ring
  have hpk : r.p ≤ 2 ^ (c.bits + 6) := by omega
  have hck : Nat.card (obj r.p hp r.a.val r.b.val).Pt ≤ 2 ^ (c.bits + 6) := by omega
  have ha : r.a.val < r.p := ZMod.val_lt _
  have hb : r.b.val < r.p := ZMod.val_lt _
  have hord : ∀ Q : (obj r.p hp r.a.val r.b.val).Pt, addOrderOf Q ≤ 2 ^ (c.bits + 6) := fun Q =>
    le_trans (Nat.le_of_dvd Nat.card_pos (addOrderOf_dvd_natCard Q)) hck
  refine ⟨fun s t hs => ?_, fun s hs => ?_, hi.quiet hm, fun f hf => ?_, ?_, ?_, ?_, ?_, ?_⟩
  · rw [hi.noseed] at hs; cases hs
  · rw [hi.noseed] at hs; cases hs
  · rw [hk.field] at hf; cases hf; exact hpk
  · intro a h
    rw [hk.a] at h
    cases h
    simp only [elementi]
    rw [Nat.mod_eq_of_lt ha]
    omega
  · intro b h
    rw [hk.b] at h
    cases h
    simp only [elementi]
    rw [Nat.mod_eq_of_lt hb]
    omega
  · intro o h
    rw [hk.order (by omega)] at h
    cases h
    omega
  · intro E l h
    obtain ⟨l', hl, hmk, -, hps⟩ := hk.gens (by omega)
    rw [hl] at h
    cases h
    refine ⟨hpk, by rw [← List.length_map]; exact hmk.few, fun s hs _ => ?_⟩
    have hso := hmk.order s.gen (List.mem_map_of_mem hs)
    have hsc := hmk.cofactor s.gen (List.mem_map_of_mem hs)
    exact ⟨by rw [hso]; exact hord _, by omega⟩
  · intro E l h _ s hs
    obtain ⟨l', hl, hmk, -, hps⟩ := hk.gens (by omega)
    rw [hl] at h
    cases h
    have hso := hmk.order s.gen (List.mem_map_of_mem hs)
    obtain ⟨ps, k1, k2, k3⟩ := (hps (by omega)).listed s hs
    refine ⟨?_, fun q hq => ?_⟩
    · rw [k1, List.length_map, ← List.length_map Group.Pt.order]
      rcases hpt with hpt | hpt
      · obtain ⟨-, k5⟩ := k3 (fun _ => False) (by simp only [pointOrders, hpt])
        have : ps.map Group.Pt.order = [] := List.eq_nil_iff_forall_not_mem.2 fun d hd => ((k5 d).1 hd).elim
        rw [this]
        exact Nat.zero_le _
      · obtain ⟨k4, k5⟩ := k3 (fun d => d.Prime ∧ d ∣ s.gen.order) (by simp only [pointOrders, hpt])
        have h0 : s.gen.order ≠ 0 := by rw [hso]; exact (addOrderOf_pos _).ne'
        exact primes_few s.gen.order _ h0 (by rw [hso]; exact hord _) _ k4 fun d hd => (k5 d).1 hd
    · rw [k1, List.mem_map] at hq
      obtain ⟨q', h1, h2⟩ := hq
      cases h2
      rw [(k2 q h1).1]
      exact hord _

/-- **the texts are short**: for fields of at most 3000 bits, without metadata, and with no points or those of prime order -/
theorem run_short (hP : P.Ok) (h : c.method = METHOD_CM) (hC : Calls.Ok P T) (hT : TapeOk P c prime N T) (hacc : accepted P c = some (N, prime))
    (hm : c.metadata = false) (hpt : (cv c prime).pointsType = .none ∨ (cv c prime).pointsType = .prime) (hb : c.bits ≤ 3000)
    (hd : 4 * c.hexDigits < c.bits + 8) (fuel n : Nat) (w : W) (hw : w.tape = T) (v : Output.Curve) (hv : v ∈ Json.generated (one P c fuel) n w)
    (j : Parson.Value) (hj : Parson.outputJjson c.hexDigits v = .ok j) : (Parson.render true 0 j).length ≤ 2147483646 := by
  have hN : N < 2 ^ (c.bits + 1) := by
    have ha := hacc
    unfold accepted at ha
    rw [Option.join_eq_some_iff, order_accepted] at ha
    exact ha.2.2.1
  obtain ⟨x, hi, hx⟩ := generated_complete P hP c h hacc T hT fuel n w hw v hv
  refine out_short x _ _ _ (inv_small hP hC hN hm hpt x hi) c.hexDigits (by omega) ?_ v hx j hj
  calc (2 * (c.bits + 6 + 1) + 4) * (96 * (c.bits + 6 + 1) + 1600) ≤ (2 * 3007 + 4) * (96 * 3007 + 1600) :=
        Nat.mul_le_mul (by omega) (by omega)
    _ ≤ 2147483646 := by norm_num

/-- **C88** as `order_run_prints_partial`, in conditions on what is typed alone: an order of at least 50 that is one prime with the remainder 2 modulo 3, fields of at
most 3000 bits, no metadata -/
theorem prime_order_run_prints_partial (malloc : Nat → List Parson.Byte) (hm : ∀ n, (malloc n).length = n) (P : Pari) (hP : P.Ok)
    (n : Int) (os : List Opt) (c : Config) (h : commandLine n os = some c) (ha : c.method = METHOD_CM) (p : Nat) (hp : p.Prime)
    (hf : ∀ s, Opt.order s ∈ os → s = Nat.toDigits 10 p) (h50 : 50 ≤ p) (h3 : p % 3 = 2) (hb : c.bits ≤ 3000) (hmd : c.metadata = false)
    (fuel : Nat) (w : W) (hT : TapeOk P c true p w.tape) (hC : Calls.Ok P w.tape) (hstatus : (produce P c fuel w).2 = 0) :
    ∃ js : List Output.Json, (∀ j, Parson.Spec.Document (bytes malloc P c fuel w) (Parson.encode j) ↔ j = .arr js) ∧ js.length = toSize c.count ∧
      ∀ j ∈ js, ∃ v, readCurve j = some v ∧ OrderedAsked c [p] v := by
  have hf' : ∀ s, Opt.order s ∈ os → Factors s [p] := fun s hs => ⟨by simp, by rw [hf s hs]; simp [List.intercalate]⟩
  have hF := typed n os c h ha [p] hf'
  have key : ∀ N prime, accepted P c = some (N, prime) → N = p ∧ prime = true := by
    intro N prime hacc
    obtain ⟨h1, -, -, h2⟩ := accepted_factors hP [p] hF hacc
    have h1' : N = p := by simpa using h1
    exact ⟨h1', h2.2 ⟨rfl, by simpa using hp⟩⟩
  refine order_run_prints_partial malloc hm P hP n os c h ha [p] hf' (by simpa using h50) (by simpa using h3) fuel w (fun N prime hacc => ?_) hC
    (fun hn => absurd ⟨rfl, by simpa using hp⟩ hn) hstatus fun v hv j hj => ?_
  · obtain ⟨rfl, rfl⟩ := key N prime hacc
    exact hT
  · cases hacc : accepted P c with
    | none =>
      unfold produce at hstatus
      rw [hacc] at hstatus
      cases hstatus
    | some a =>
      obtain ⟨N, prime⟩ := a
      obtain ⟨rfl, rfl⟩ := key N prime hacc
      exact run_short hP ha hC hT hacc hmd (Or.inr rfl) hb (consistent n os c h).hexDigits.2.1 fuel _ w rfl v hv j hj

end Ecgen.Ordered
