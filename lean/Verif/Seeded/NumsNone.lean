import Verif.Seeded.Examples

/-!
# Sizes without NUMS curves (C105)

`--nums` fixes the field and the first coefficient by the number of bits and tries one second coefficient after the other, without an end. For some sizes
no second coefficient suits, and the search prints nothing, however long it runs.
-/

namespace Ecgen.Seeded

open Whole Output Output.Spec Cli Finset

/-! ## Curves over the field of 127 elements -/

theorem prime127 : Nat.Prime 127 := by decide +kernel

instance : Fact (Nat.Prime 127) := ⟨prime127⟩

/-- the squares modulo 127, as the bits of a number -/
def squares127 : Nat := 0x172a099c419697f17016967dc66fab16

/-- the number of square roots modulo 127 -/
def roots (z : Nat) : Nat := if z = 0 then 1 else if squares127.testBit z then 2 else 0

/-- the number of points of `y² = x³ - 3x + b` modulo 127 -/
def points127 (b : Nat) : Nat := ((List.range 127).map fun x => roots ((x ^ 3 + 124 * x + b) % 127)).sum + 1

theorem roots_spec : ∀ z : ZMod 127, (univ.filter fun y : ZMod 127 => y ^ 2 = z).card = roots z.val := by decide +kernel

/-- counting the points of a curve modulo `p` by a table of the numbers of square roots -/
theorem card_table (p : Nat) [Fact p.Prime] (r : Nat → Nat) (hr : ∀ z : ZMod p, (univ.filter fun y : ZMod p => y ^ 2 = z).card = r z.val) (a b : Nat) :
    Count.card (a : ZMod p) (b : ZMod p) = ((List.range p).map fun x => r ((x ^ 3 + a * x + b) % p)).sum + 1 := by
  unfold Count.card
  have h : ∀ x : ZMod p, (univ.filter fun y : ZMod p => y ^ 2 = x ^ 3 + (a : ZMod p) * x + (b : ZMod p)).card =
      r ((x.val ^ 3 + a * x.val + b) % p) := by
    intro x
    rw [hr]
    congr 1
    have : x ^ 3 + (a : ZMod p) * x + (b : ZMod p) = ((x.val ^ 3 + a * x.val + b : Nat) : ZMod p) := by
      push_cast
      rw [ZMod.natCast_zmod_val]
    rw [this, ZMod.val_natCast]
  refine congrArg (· + 1) ((Count.card_fiber (fun x y : ZMod p => y ^ 2 = x ^ 3 + (a : ZMod p) * x + (b : ZMod p))).trans ?_)
  rw [Finset.sum_congr rfl fun x _ => h x]
  have key : ∀ g : Nat → Nat, ∑ x : ZMod p, g x.val = ∑ i ∈ Finset.range p, g i := by
    intro g
    obtain ⟨k, rfl⟩ : ∃ k, p = k + 1 := ⟨p - 1, by have := (Fact.out : p.Prime).pos; omega⟩
    exact (Finset.sum_range g).symm
  rw [key fun x => r ((x ^ 3 + a * x + b) % p)]
  rfl

theorem card_points (b : Nat) : Count.card ((124 : Nat) : ZMod 127) (b : ZMod 127) = points127 b := card_table 127 roots roots_spec 124 b

/-- for each second coefficient, one of the two numbers of points has a small divisor -/
theorem divisor127 : ∀ b < 127, ∃ d ∈ [2, 3, 5, 7, 11, 13], (d ∣ points127 b ∧ d < points127 b) ∨ (d ∣ 256 - points127 b ∧ d < 256 - points127 b) := by
  decide +kernel

theorem not_prime {d n : Nat} (hd : d ∈ [2, 3, 5, 7, 11, 13]) (h : d ∣ n) (hl : d < n) : ¬ n.Prime := by
  intro hn
  rcases (Nat.dvd_prime hn).1 h with e | e
  · subst e; revert hd; decide
  · omega

/-! ## The sizes -/

/-- **C105**: there is no NUMS curve of 0, 1, 2 or 7 bits: there is no prime below 2 that is 3 modulo 4, all curves `y² = x³ - 3x + b` modulo 3 are
singular, and modulo 127 none of them has a prime order together with its twist -/
theorem nums_none (c : Config) (v : CurveV) (hb : c.bits ≤ 2 ∨ c.bits = 7) : ¬ NumsAsked c v := by
  rintro ⟨-, p, hp, -, h4, ha, hbv, hdelta, ho, hpr, -, -, g, ps, G, -, -, -, -, -, -, hlt, hmax, hdvd, ⟨t, ht, hsum⟩, -, -⟩
  rcases hb with hb | hb
  · have h8 : 2 ^ c.bits ≤ 2 ^ 2 := Nat.pow_le_pow_right (by decide) hb
    have hp3 : p = 3 := by
      have := hp.two_le
      omega
    subst hp3
    have ha0 : v.a = 0 := by omega
    apply hdelta
    rw [ha0]
    have : ∀ b : ZMod 3, (Invalid.primeCurve (0 : ZMod 3) b).Δ = 0 := by
      intro b
      simp only [WeierstrassCurve.Δ, WeierstrassCurve.b₂, WeierstrassCurve.b₄, WeierstrassCurve.b₆, WeierstrassCurve.b₈, Invalid.primeCurve]
      revert b
      decide
    exact this _
  · rw [hb] at hlt hmax
    have hp127 : p = 127 := by
      have := hmax 127 prime127 (by decide) (by decide)
      omega
    subst hp127
    have ha0 : v.a = 124 := by omega
    have hcard : v.order = points127 v.b := by
      rw [ho, ha0, ← card_points]
      have hreg : Cm.Construct.Regular ((124 : ZMod 127), (v.b : ZMod 127)) := by
        intro h0
        apply hdelta
        rw [ha0]
        have e : (Invalid.primeCurve (124 : ZMod 127) (v.b : ZMod 127)).Δ = -(2 ^ 4) * (4 * 124 ^ 3 + 27 * (v.b : ZMod 127) ^ 2) := by
          simp only [WeierstrassCurve.Δ, WeierstrassCurve.b₂, WeierstrassCurve.b₄, WeierstrassCurve.b₆, WeierstrassCurve.b₈, Invalid.primeCurve]
          ring
        have e2 : (Invalid.primeCurve (124 : ZMod 127) (v.b : ZMod 127)).Δ = 0 := by
          rw [e]
          exact mul_eq_zero_of_right _ h0
        exact e2
      have h := Cm.Construct.natCard_point (K := ZMod 127) (by decide) 124 (v.b : ZMod 127) hreg
      exact h
    obtain ⟨d, hd, h | h⟩ := divisor127 v.b hbv
    · exact not_prime hd h.1 h.2 (hcard ▸ hpr)
    · have : t = 256 - points127 v.b := by omega
      exact not_prime hd h.1 h.2 (this ▸ ht)

/-- **C105**: a run of `--nums` with one of these sizes prints no curve, however long it runs, whatever random numbers, failures and the timer do -/
theorem nums_size_nothing (P : Pari) (hP : P.Ok) (n : Int) (os : List Opt) (c : Config) (h : commandLine n os = some c) (ha : c.seedAlgo = .nums)
    (hb : c.bits ≤ 2 ∨ c.bits = 7) (fuel count : Nat) (w : W) (hw : ∀ i, (w.tape i).Ok c) : Json.generated (one P c fuel) count w = [] := by
  cases hg : Json.generated (one P c fuel) count w with
  | nil => rfl
  | cons v l =>
    obtain ⟨x, hx, hv⟩ := generated_complete P hP c (covered n os c h (Or.inr (Or.inr ha)) fun h => absurd ha h) fuel count w hw v
      (by rw [hg]; exact List.mem_cons_self)
    exact absurd (nums_asked c ha x hx v hv) (nums_none c _ hb)

/-- `--fp --nums 7` -/
def c7 : Config := (commandLine 4 [.fp, .nums, .arg "7".toList]).get (by decide +kernel)

/-- **C105, met**: `ecgen --fp --nums 7` is accepted and asks for one curve, and there are tapes that behave; the size matters, with three bits a run
with the same kind of tape prints a curve -/
theorem nums_size_met : ∃ (os os' : List Opt) (c c' : Config) (w : W), commandLine 4 os = some c ∧ c.seedAlgo = .nums ∧ c.bits = 7 ∧ toSize c.count = 1 ∧
    (∀ i, (w.tape i).Ok c) ∧ commandLine 4 os' = some c' ∧ c'.seedAlgo = .nums ∧ c'.bits = 3 ∧ (∀ i, (w.tape i).Ok c') ∧
    Json.generated (one pari c' 9) 1 w ≠ [] := by
  obtain ⟨s0, s1, s2, s3, hr⟩ := row 48671 (by decide)
  obtain ⟨w', hw', -⟩ := straight pari cN (pickB s0 true) rfl (fun _ => rfl) (worldB s0 true) rfl courseN rfl (courseN_act s0)
    (fun s _ => courseN_acc s)
  rw [courseN_printed] at hw'
  refine ⟨_, _, c7, cN, worldB s0 true, (Option.some_get _).symm, by decide +kernel, by decide +kernel, by decide +kernel,
    fun _ => pickB_ok s0 true _ hr.h0 c7, cN_some, by decide +kernel, cN_bits, fun _ => pickB_ok s0 true _ hr.h0 cN, ?_⟩
  rw [generated_one _ _ _ _ _ hw']
  exact List.cons_ne_nil _ _

end Ecgen.Seeded
