import Verif.Whole.Spec
import Verif.Brainpool.Spec

/-!
# What `--brainpool`, `--brainpool-rfc` and `--nums` promise of a printed curve (C77, C78)

In the numbers read back from the text, Mathlib's elliptic curves and the numbers derived from seeds (`Brainpool.Spec`: `fieldInt`, `coeffInt` are the
integers that the Brainpool procedures derive from a 160-bit seed by SHA-1).
-/

namespace Ecgen.Seeded

open Whole Output Output.Spec Brainpool.Spec

/-- the prime field -/
abbrev Fp (p : Nat) (hp : p.Prime) : Fld := ⟨.prime p, hp⟩

/-- the printed curve over the field of `p` elements -/
noncomputable abbrev curveOf (p : Nat) (hp : p.Prime) (a b : Nat) : WeierstrassCurve.Affine (Carrier (Fp p hp)) :=
  equation (Fp p hp) (elem (Fp p hp) a) (elem (Fp p hp) b)

/-- there is a point with the first coordinate `x` -/
def Abscissa {f : Fld} (E : WeierstrassCurve.Affine (Carrier f)) (x : Nat) : Prop := ∃ y, E.Nonsingular (elem f x) y

/-- `P` has the first coordinate `x`, and no number from `x0` on below `x` is the first coordinate of a point -/
def Least {f : Fld} (E : WeierstrassCurve.Affine (Carrier f)) (x0 x : Nat) (P : E.Point) : Prop :=
  x0 ≤ x ∧ (∃ y, ∃ h : E.Nonsingular (elem f x) y, P = .some _ _ h) ∧ ∀ i, x0 ≤ i → i < x → ¬ Abscissa E i

/-- the Brainpool derivation, with `L` bits: the prime from the seed `zp`, the first coefficient from a later seed, the second one from the seed `zb`
after that, immediately in the original version. There the second coefficient is a square; in RFC 5639 it is the first one that is no square. -/
def Derived (rfc : Bool) (L p a b zb : Nat) : Prop :=
  ∃ zp za j : Nat, zp < za ∧ 0 < j ∧ zb = za + j ∧ IsNext (fieldInt L zp) p ∧ a = coeffInt L za % p ∧ b = coeffInt L zb % p ∧ AOk p a ∧
    (rfc = false → j = 1 ∧ Square p b) ∧
    (rfc = true → (∀ i, 0 < i → i < j → Square p (coeffInt L (za + i))) ∧ ¬ Square p b)

/-- what both families promise: a prime field of a prime that is 3 modulo 4, a nonsingular curve of prime order, other than the field size and of
large embedding degree; one generator, of the whole group, with the points asked for -/
def Strong (c : Cli.Config) (v : CurveV) (Base : (p : Nat) → (hp : p.Prime) → PointV → (curveOf p hp v.a v.b).Point → Prop) : Prop :=
  ∃ (p : Nat) (hp : p.Prime), v.field = .prime p ∧ p % 4 = 3 ∧ v.a < p ∧ v.b < p ∧ (curveOf p hp v.a v.b).Δ ≠ 0 ∧
    v.order = Nat.card (curveOf p hp v.a v.b).Point ∧ v.order.Prime ∧ v.order ≠ p ∧
    (∀ k, 1 ≤ k → k ≤ (v.order - 1) / 100 → ¬ v.order ∣ p ^ k - 1) ∧
    ∃ (g : PointV) (ps : List PointV) (G : (curveOf p hp v.a v.b).Point), v.gens = [(g, ps)] ∧ GeneratorOk v.order g G ∧ g.order = v.order ∧
      g.cofactor = some 1 ∧ PointsOk c g G ps ∧ (c.pointsType = .random → c.pointsAmount ≠ 0 → ps.length = c.pointsAmount) ∧ Base p hp g G

/-- **the printed curve is a Brainpool curve**: the prime has the number of bits asked for and exceeds the order; prime and coefficients derive from a
sequence of seeds, and the printed seed is the one after that of the second coefficient: it gives the multiple that leads to the generator from a
point with the least first coordinate -/
def BrainpoolAsked (rfc : Bool) (c : Cli.Config) (v : CurveV) : Prop :=
  ∃ zb : Nat, v.seed = some (((zb + 1) % 2 ^ 160 : Nat) : Int) ∧
    Strong c v fun p _ _ G => p.size = c.bits ∧ v.order < p ∧ Derived rfc c.bits p v.a v.b zb ∧
      ∃ x P, Least _ 0 x P ∧ G = coeffInt c.bits (zb + 1) • P

/-- **the printed curve is a NUMS curve**: the largest prime of at most the number of bits asked for that is 3 modulo 4, the first coefficient -3, the
order of the twist is prime too, and the generator is the point with the least first coordinate from 1 on and the smaller second coordinate -/
def NumsAsked (c : Cli.Config) (v : CurveV) : Prop :=
  v.seed = none ∧ Strong c v fun p _ g G => p < 2 ^ c.bits ∧ (∀ q : Nat, q.Prime → q % 4 = 3 → q < 2 ^ c.bits → q ≤ p) ∧
    (p : Int) ∣ v.a + 3 ∧ (∃ t : Nat, t.Prime ∧ t + v.order = 2 * (p + 1)) ∧ (∃ x, Least _ 1 x G) ∧ 2 * g.y < p

end Ecgen.Seeded
