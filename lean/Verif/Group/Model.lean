import Verif.CLoop
import Verif.Subgroup.Model
import Mathlib.Algebra.Group.Defs

/-!
# Model of `/repo/src/gen/point.c` and `/repo/src/gen/gens.c`

The group of points of the curve is an arbitrary additive commutative group `A`. PARI's `ellmul` is the multiple `k • P`,
`ellorder` is the parameter `ord`, `ellff_get_gens` the parameter `gens`. `n` is `curve->order`.
-/

namespace Ecgen.Group

variable {A : Type} [AddCommGroup A]

/-- `point_t`; points that are not generators have no cofactor -/
structure Pt (A : Type) where
  point : A
  order : Nat
  cofactor : Nat

/-- `gens_point`, gens.c:12-20 -/
def gensPoint (ord : A → Nat) (n : Nat) (P : A) : Pt A := ⟨P, ord P, n / ord P⟩

/-- `gens_gen_any`, gens.c:32-36, with `gens_put`, gens.c:22-30 -/
def gensAny (ord : A → Nat) (n : Nat) (gens : List A) : List (Pt A) := gens.map (gensPoint ord n)

/-- `gens_gen_one`, gens.c:38-47: `none` is the return value -5 -/
def gensOne (ord : A → Nat) (n : Nat) (gens : List A) : Option (List (Pt A)) :=
  if gens.length = 2 then none else some (gensAny ord n gens)

/-- the search loop of `gens_gen_cofactor`, gens.c:58-78, for `order = n / k` -/
def findCofactor (ord : A → Nat) (n k : Nat) : List A → Option (Pt A)
  | [] => none
  | g :: rest =>
    if n / k = ord g then some ⟨g, ord g, k⟩
    else if k ∣ ord g then some ⟨k • g, ord g / k, k⟩
    else findCofactor ord n k rest

/-- `gens_gen_cofactor`, gens.c:49-95: `none` is the return value -5 -/
def gensCofactor (ord : A → Nat) (n k : Nat) (gens : List A) : Option (List (Pt A)) :=
  (findCofactor ord n k gens).map fun p => p :: gensAny ord n gens

/-- a generator with the points generated for it; `points` is `none` where the entry is a null pointer -/
structure Sub (A : Type) where
  gen : Pt A
  points : List (Option (Pt A))

/-- one entry of `points_from_orders`, point.c:69-91 -/
def fromOrder (g : Pt A) (num : Nat) : Option (Pt A) :=
  if g.order = num then some ⟨g.point, num, 0⟩
  else if num ∣ g.order then some ⟨(g.order / num) • g.point, num, 0⟩
  else none

/-- `points_from_orders`, point.c:65-94 -/
def fromOrders (g : Pt A) (orders : List Nat) : List (Option (Pt A)) := orders.map (fromOrder g)

/-- `points_gen_prime`, point.c:138-147 -/
def pointsPrime (isprime : Nat → Bool) (fac : Nat → List (Nat × Nat)) (gens : List (Pt A)) : List (Sub A) :=
  gens.map fun g => ⟨g, fromOrders g (Subgroup.primes isprime fac g.order)⟩

/-- the points of one generator in `points_gen_allgroups`, point.c:149-158; a null list is read from (`none`) -/
def pointsAll1 (isprime : Nat → Bool) (fac : Nat → List (Nat × Nat)) (g : Pt A) : Option (Sub A) :=
  (Subgroup.all isprime fac g.order).bind fun l => l.map fun l => ⟨g, fromOrders g l⟩

/-- `points_gen_allgroups` -/
def pointsAll (isprime : Nat → Bool) (fac : Nat → List (Nat × Nat)) (gens : List (Pt A)) : Option (List (Sub A)) :=
  gens.mapM (pointsAll1 isprime fac)

/-- the points of one generator in `points_gen_nonprime`, point.c:160-171 -/
def pointsNonprime1 (isprime : Nat → Bool) (fac : Nat → List (Nat × Nat)) (g : Pt A) : Option (Sub A) :=
  (Subgroup.nonprime isprime fac g.order).map fun l => ⟨g, match l with | some l => fromOrders g l | none => []⟩

/-- `points_gen_nonprime` -/
def pointsNonprime (isprime : Nat → Bool) (fac : Nat → List (Nat × Nat)) (gens : List (Pt A)) :
    Option (List (Sub A)) := gens.mapM (pointsNonprime1 isprime fac)

/-- `orders_per_gen[i]` after the loop over the primes in `points_gen_trial`, point.c:113-126: the result of `vec_append`
is not stored, so only the first matching prime remains; `none` is `gen_0` -/
def trialOrders (g : Pt A) : List Nat → Option (List Nat) → Option (List Nat)
  | [], acc => acc
  | num :: rest, acc =>
    if g.order = num ∨ num ∣ g.order then
      match acc with
      | none => trialOrders g rest (some [num])
      | some l => trialOrders g rest (some l)
    else trialOrders g rest acc

/-- `points_gen_trial`, point.c:96-136. (The loops over generators and primes are exchanged, they do not interact.) -/
def pointsTrial (primes : List Nat) (gens : List (Pt A)) : List (Sub A) :=
  gens.map fun g => ⟨g, match trialOrders g primes none with | some l => fromOrders g l | none => []⟩

/-- `points_gen_random`, first loop, point.c:38-41; `which i` is the `i`-th value of `random_range(0, ngens)` -/
def distribute (which : Nat → Nat) (ngens npoints : Nat) : Option (List Nat) :=
  forN (fun i (counts : List Nat) =>
    if which i < counts.length then some (counts.set (which i) (counts.getD (which i) 0 + 1)) else none)
    npoints (List.replicate ngens 0)

/-- one random point, point.c:51-62; `mul` is the value of `random_range(1, order)` -/
def randomPoint (ord : A → Nat) (g : Pt A) (mul : Nat) : Pt A :=
  if g.order = 2 then ⟨g.point, 2, 0⟩ else ⟨mul • g.point, ord (mul • g.point), 0⟩

/-- the points of generator number `i`, point.c:43-63; `mul i j` is the random multiple for point number `j` -/
def randomSub (ord : A → Nat) (mul : Nat → Nat → Nat) (counts : List Nat) (i : Nat) (g : Pt A) : Sub A :=
  ⟨g, (List.range (counts.getD i 0)).map fun j => some (randomPoint ord g (mul i j))⟩

/-- `points_gen_random`, point.c:27-67 -/
def pointsRandom (ord : A → Nat) (which : Nat → Nat) (mul : Nat → Nat → Nat) (npoints : Nat) (gens : List (Pt A)) :
    Option (List (Sub A)) :=
  (distribute which gens.length npoints).map fun counts => gens.mapIdx (randomSub ord mul counts)

/-- `point_gen_random`, point.c:11-25: one point on generator `which`; `mul` is the value of
`random_range(0, order)` -/
def pointRandom (ord : A → Nat) (which mul : Nat) (gens : List (Pt A)) : Option (List (Sub A)) :=
  if which < gens.length then
    some (gens.mapIdx fun i g =>
      ⟨g, if i = which then [some ⟨mul • g.point, ord (mul • g.point), 0⟩] else []⟩)
  else none

end Ecgen.Group
