/-!
# A test of irreducibility over GF(2) that Lean's kernel can evaluate

This is not a model of anything in `/repo`: it is the evaluator with which the table rows of `/repo/src/math/poly.c` are
checked. A polynomial over GF(2) is the natural number whose bit `i` is the coefficient of `X ^ i`. All the arithmetic
is by the operations on `Nat` that the kernel computes with big integers; recursors are used directly because the kernel
unfolds them fastest. What the test proves is in `Verif.Irred.Sound`.
-/

namespace Ecgen.Irred

noncomputable section

/-- `k a`, with `a` evaluated first: the kernel reduces the major premise of a recursor -/
def force {α : Type} (a : Nat) (k : Nat → α) : α := Nat.rec (k 0) (fun n _ => k (Nat.succ n)) a

/-- `c` ones -/
def ones (c : Nat) : Nat := Nat.sub (Nat.pow 2 c) 1

/-- `2 ^ 0 + 2 ^ s + ... + 2 ^ (s (n - 1))` -/
def rep (s n : Nat) : Nat := Nat.div (ones (Nat.mul s n)) (ones s)

/-- the factor and the mask of one step of `spread`: blocks of `r c` bits at distance `F r c` become blocks of `c` bits
at distance `F c`, at most `T` of them -/
def levels (F : Nat) (l : List (Nat × Nat × Nat)) : List (Nat × Nat) :=
  List.rec [] (fun p _ ih =>
    force (rep (Nat.mul (Nat.sub F 1) p.1) p.2.1) fun K =>
      force (Nat.mul (ones p.1) (rep (Nat.mul F p.1) p.2.2)) fun M => (K, M) :: ih) l

/-- move bit `i` to position `F i` -/
def spread (ls : List (Nat × Nat)) : Nat → Nat :=
  List.rec (motive := fun _ => Nat → Nat) (fun a => a) (fun l _ ih a => ih (Nat.land (Nat.mul a l.1) l.2)) ls

/-- the layout for 8th powers, up to 2401 bits -/
def layout8 : List (Nat × Nat × Nat) := [(343, 7, 7), (49, 7, 49), (7, 7, 343), (1, 7, 2401)]

/-- the layout for 4th powers, up to 2187 bits -/
def layout4 : List (Nat × Nat × Nat) :=
  [(729, 3, 3), (243, 3, 9), (81, 3, 27), (27, 3, 81), (9, 3, 243), (3, 3, 729), (1, 3, 2187)]

/-- the square of a polynomial of at most `n` bits -/
def sq (n : Nat) : Nat → Nat :=
  Nat.rec (motive := fun _ => Nat → Nat) (fun _ => 0)
    (fun _ ih a => Nat.add (Nat.mod a 2) (Nat.mul 4 (ih (Nat.div a 2)))) n

/-- `a + q (X ^ M + X ^ E + 1)` -/
def fold3 (M E a q : Nat) : Nat := Nat.xor (Nat.xor (Nat.xor a q) (Nat.shiftLeft q E)) (Nat.shiftLeft q M)

/-- reduce modulo `X ^ M + X ^ E + 1` -/
def red3 (M E a : Nat) : Nat :=
  (fun t => fold3 M E a (Nat.xor t (Nat.shiftRight t (Nat.sub M E)))) (Nat.shiftRight a M)

/-- `a + q (X ^ M + X ^ A + X ^ B + X ^ C + 1)` -/
def fold5 (M A B C a q : Nat) : Nat :=
  Nat.xor (Nat.xor (Nat.xor (Nat.xor (Nat.xor a q) (Nat.shiftLeft q A)) (Nat.shiftLeft q B)) (Nat.shiftLeft q C))
    (Nat.shiftLeft q M)

/-- the quotient of `t X ^ M` by `X ^ M + X ^ (M - d) + 1`, without the terms that come from the constant coefficient -/
def quot (M : Nat) (fuel : Nat) : Nat → Nat → Nat :=
  Nat.rec (motive := fun _ => Nat → Nat → Nat) (fun _ q => q)
    (fun _ ih d q => Bool.rec (ih (Nat.mul 2 d) (Nat.xor q (Nat.shiftRight q d))) q (Nat.ble M d)) fuel

/-- reduce modulo `X ^ M + X ^ A + X ^ B + X ^ C + 1`, not necessarily fully -/
def red5 (M A B C a : Nat) : Nat :=
  fold5 M A B C a (quot M 12 (Nat.sub M (Bool.rec A C (Nat.ble A C))) (Nat.shiftRight a M))

/-- reduce the rest -/
def finish (M A B C : Nat) (fuel : Nat) : Nat → Nat :=
  Nat.rec (motive := fun _ => Nat → Nat) (fun b => b)
    (fun _ ih b => (fun t => Bool.rec (ih (fold5 M A B C b t)) b (Nat.beq t 0)) (Nat.shiftRight b M)) fuel

/-- reduce modulo the trinomial of degree `m` raised to the power `k` -/
def redTri (m e : Nat) : Nat → Nat → Nat := fun k a => red3 (Nat.mul k m) (Nat.mul k e) a

/-- reduce modulo the pentanomial of degree `m` raised to the power `k` -/
def redPenta (m e1 e2 e3 : Nat) : Nat → Nat → Nat := fun k a =>
  Bool.rec (red5 (Nat.mul k m) (Nat.mul k e1) (Nat.mul k e2) (Nat.mul k e3) a)
    (finish m e1 e2 e3 64 (red5 m e1 e2 e3 a)) (Nat.beq k 1)

/-- 8th power -/
def step8 (ls : List (Nat × Nat)) (red : Nat → Nat → Nat) (a : Nat) : Nat := red 1 (red 2 (red 4 (spread ls a)))

/-- 4th power -/
def step4 (ls : List (Nat × Nat)) (red : Nat → Nat → Nat) (a : Nat) : Nat := red 1 (red 2 (spread ls a))

/-- `n` times the 8th power, then `k`; false if a value has too many bits -/
def run8 (ls : List (Nat × Nat)) (red : Nat → Nat → Nat) (B : Nat) (n : Nat) : Nat → (Nat → Bool) → Bool :=
  Nat.rec (motive := fun _ => Nat → (Nat → Bool) → Bool) (fun a k => k a)
    (fun _ ih a k => Bool.rec false (force (step8 ls red a) fun a' => ih a' k) (Nat.ble a B)) n

/-- `n` times the 4th power -/
def run4 (ls : List (Nat × Nat)) (red : Nat → Nat → Nat) (B : Nat) (n : Nat) : Nat → (Nat → Bool) → Bool :=
  Nat.rec (motive := fun _ => Nat → (Nat → Bool) → Bool) (fun a k => k a)
    (fun _ ih a k => Bool.rec false (force (step4 ls red a) fun a' => ih a' k) (Nat.ble a B)) n

/-- one square -/
def run2 (red : Nat → Nat → Nat) (a : Nat) (k : Nat → Bool) : Bool :=
  Bool.rec false (force (red 1 (sq 64 a)) k) (Nat.ble a (ones 64))

/-- square `g` times -/
def advance (l8 l4 : List (Nat × Nat)) (red : Nat → Nat → Nat) (B g a : Nat) (k : Nat → Bool) : Bool :=
  Bool.rec
    (Nat.rec (run8 l8 red B (Nat.div g 3) a k)
      (fun r _ => Nat.rec (run8 l8 red B (Nat.sub (Nat.div g 3) 1) a fun b => run4 l4 red B 2 b k)
        (fun _ _ => run8 l8 red B (Nat.div g 3) a fun b => run4 l4 red B 1 b k) r) (Nat.mod g 3))
    (run2 red a k) (Nat.beq g 1)

/-- remove factors `X` -/
def strip (c : Nat) : Nat := Nat.div c (Nat.gcd c (Nat.pow 2 2200))

/-- no common factor apart from `X` -/
def coprime (n : Nat) : Nat → Nat → Bool :=
  Nat.rec (motive := fun _ => Nat → Nat → Bool) (fun _ _ => false)
    (fun _ ih a b => Bool.rec
      (force (strip (Nat.xor a b)) fun c => Bool.rec (ih b c) (ih c b) (Nat.ble b c)) true (Nat.beq b 1)) n

/-- go through the exponents `ds`: at each of them the polynomial `f` has no common factor with `X ^ 2 ^ d - X` -/
def visit (l8 l4 : List (Nat × Nat)) (red : Nat → Nat → Nat) (B f m : Nat) (ds : List Nat) : Nat → Nat → Bool :=
  List.rec (motive := fun _ => Nat → Nat → Bool)
    (fun i a => advance l8 l4 red B (Nat.sub m i) a fun b => Nat.beq b 2)
    (fun d _ ih i a => Bool.rec false
      (advance l8 l4 red B (Nat.sub d i) a fun b =>
        Bool.rec false (ih d b) (coprime (Nat.mul 3 m) f (strip (Nat.xor b 2)))) (Nat.ble i d)) ds

/-- the prime factors of `n` that are at least `k`, or more, added to `acc`; `none` if there are too many steps -/
def factors (fuel : Nat) : Nat → Nat → List Nat → Option (List Nat) :=
  Nat.rec (motive := fun _ => Nat → Nat → List Nat → Option (List Nat)) (fun _ _ _ => none)
    (fun _ ih k n acc =>
      Bool.rec
        (Bool.rec (ih (Nat.succ k) n acc) (ih k (Nat.div n (Nat.gcd n (Nat.pow k 16))) (k :: acc))
          (Nat.beq (Nat.mod n k) 0))
        (some (Bool.rec (n :: acc) acc (Nat.beq n 1)))
        (Nat.ble (Nat.succ n) (Nat.mul k k))) fuel

/-- the exponents at which `visit` must look, in increasing order -/
def exps (m : Nat) : Option (List Nat) :=
  Option.rec none (fun qs => some (qs.map (Nat.div m))) (factors 100 2 m [])

/-- the test for a polynomial `f` of degree `m` -/
def test (l8 l4 : List (Nat × Nat)) (red : Nat → Nat → Nat) (f m : Nat) : Bool :=
  Option.rec false (fun ds => visit l8 l4 red (ones 2187) f m ds 0 2) (exps m)

/-- the test for the trinomial `X ^ m + X ^ e + 1` -/
def testTri (l8 l4 : List (Nat × Nat)) (m e : Nat) : Bool :=
  test l8 l4 (redTri m e) (Nat.xor (Nat.xor (Nat.pow 2 m) (Nat.pow 2 e)) 1) m

/-- the test for the pentanomial `X ^ m + X ^ e1 + X ^ e2 + X ^ e3 + 1` -/
def testPenta (l8 l4 : List (Nat × Nat)) (m e1 e2 e3 : Nat) : Bool :=
  test l8 l4 (redPenta m e1 e2 e3)
    (Nat.xor (Nat.xor (Nat.xor (Nat.xor (Nat.pow 2 m) (Nat.pow 2 e1)) (Nat.pow 2 e2)) (Nat.pow 2 e3)) 1) m

end

end Ecgen.Irred
