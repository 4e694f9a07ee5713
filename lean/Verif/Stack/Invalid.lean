import Verif.Stack.Programs

/-!
# Model of the invalid curve method over PARI's stack

`invalid_do` (`/repo/src/invalid/invalid.c`, 331-400) with `invalid_original_curve` (321-329) and `invalid_curves_single` (121-237), and the thread
`invalid_thread` (`/repo/src/invalid/invalid_thread.c`, 21-95). There are several curves at once: the members of `curve_t` in the memory are those of one
of them, the numbers the others refer to are in records.

Which primes divide the order, which of them still need a curve and what the other threads do is read from the tape (it decides which case of a
round happens).
-/

namespace Ecgen.Stack
open Ecgen Ecgen.Engine

/-- the members of a curve that hold numbers -/
abbrev Rec := Slot → Option (List Id)

def Slot.member : Slot → Bool
  | .disc | .loc _ => false
  | _ => true

/-- `curve_new` (calloc) -/
def Rec.new : Rec := fun _ => none

/-- the members of the curve in the memory -/
def Mem.record (m : Mem) : Rec := fun x => if x.member then m.slot x else none

/-- from now on the curve looked at is the one of a record, and the local variables are those of another call: null pointers and the
present position until something else is assigned. (The table of anomalous.c is empty in this method.) -/
def Mem.load (r : Rec) (m : Mem) : Mem := { m with slot := fun x => if x.member then r x else none, mark := fun _ => m.stack.length }

def W.load (r : Rec) (w : W) : W := { w with mem := w.mem.map (Mem.load r) }

def W.record (w : W) : Rec := match w.mem with | some m => m.record | none => Rec.new

namespace Prog

/-- `curve_copy`, obj/curve.c:7-19, with `subgroups_new_copy`: the members become copies. `gcopy` of the curve object copies what is cached, too.
(There is no seed in this method, and metadata are not copied.) -/
def curveCopy : Stmt :=
  seqs [.ifNull .field .skip (copy .field .field), .ifNull .a .skip (copy .a .a), .ifNull .b .skip (copy .b .b),
    .ifNull .crv .skip (seqs [copy (L 0) .crv, .ifNull .card .skip (copy .card .card), set .crv [L 0]]),
    .ifNull .order .skip (copy .order .order), .ifNull .gens .skip (copy .gens .gens), .ifNull .pts .skip (copy .pts .pts)]

/-- `gcopy(curve->field)`, `gcopy(curve->a)`: invalid.c:131-134 and 215-217 -/
def twoCopies : Stmt := seqs [copy (L 0) .field, copy (L 1) .a]

/-- `invalid_primes`, invalid.c:71-119 -/
def primes : Stmt := seqs [save 9, call (L 0) [.order], const (L 1), .loop (seqs [read [L 0, L 1], call (L 1) [L 1]]), restore 9]

/-- the rounds of a loop over the primes with `dvdis(invalid->order, …)` -/
def divides : Stmt := .loop (read [.order])

/-- `curve_unroll(invalid, avma, btop); avma = btop;` invalid.c:158-160 and 230-231; `btop` is position 16 -/
def discard : Stmt := .seq (unroll 4) (restore 16)

/-- invalid_thread.c:84-86 -/
def unrolls : Stmt := seqs [unroll 7, unroll 6, unroll 4]

end Prog

/-- a curve whose field and `a` are in `L 0` and `L 1` -/
def Mem.two (m : Mem) : Rec := fun x => match x with | .field => m.slot (.loc 0) | .a => m.slot (.loc 1) | _ => none

def W.two (w : W) : Rec := match w.mem with | some m => m.two | none => Rec.new

/-- a new curve with copies of the field and `a` of the curve `o`, invalid.c:131-134 and 215-217 -/
def newCurve (rel : Bool) (o : Rec) (w : W) : W :=
  let w1 := (call rel Prog.twoCopies (w.load o)).1
  w1.load w1.two

/-- `n` times `curve_new_copy` of the curve `r` and `output_o` of the copy, invalid.c:196-199; the records of the copies -/
def copyOut (rel : Bool) (r : Rec) : Nat → W → W × List Rec
  | 0, w => (w, [])
  | n + 1, w =>
    let w1 := (call rel (.seq Prog.curveCopy (Prog.output true)) (w.load r)).1
    let q := copyOut rel r n w1
    (q.1, w1.record :: q.2)

/-- the curve is put into `curves` and printed, invalid.c:189-199 -/
def keepCurve (rel : Bool) (w : W) : W := (call rel (.seq Prog.divides (Prog.output true)) (w.load w.record)).1

/-- `curve_free` of some curves, invalid.c:386-388 -/
def freeAll (rel : Bool) : List Rec → W → W
  | [], w => w
  | r :: l, w => freeAll rel l (call rel Prog.curveFree (w.load r)).1

/-- the first search, invalid.c:321-324: the curve to invalidate, up to its generators -/
def Original (rel : Bool) (F : Fns) (w : W) (st : St W) : Prop := Reaches rel F 1 7 0 (init 1 (w.load Rec.new)) st

/-- what follows it, invalid.c:365-372. (`output_o` with `--metadata`, which looks at most; there are no metadata in this method.) -/
def printOriginal (rel : Bool) (w : W) : W := (call rel (.seq (Prog.output true) Prog.primes) (w.load w.record)).1

/-- the search for `b`, the curve and its order, invalid.c:139-141; `btop` is noted before -/
def First (rel : Bool) (F : Fns) (w : W) (st : St W) : Prop := Reaches rel F 3 6 0 (init 3 (call rel (Prog.save 16) w).1) st

/-- the search for the generators, one attempt, invalid.c:156-157 -/
def Second (rel : Bool) (F : Fns) (w : W) (st : St W) : Prop := Reaches rel F 6 7 1 (init 6 (call rel Prog.divides w).1) st

/-- the search for the points, invalid.c:187 -/
def Third (rel : Bool) (F : Fns) (w : W) (st : St W) : Prop := Reaches rel F 7 9 0 (init 7 (call rel Prog.divides w).1) st

/-- the memory at the top of the loop of `invalid_curves_single`, 137, with the curves in `curves`, from the state `w` on in which the original
curve `o` is there. `true`: the curve is new. -/
inductive Single (rel : Bool) (F : Fns) (o : Rec) (w : W) : Bool → W → List Rec → Prop
  | first : Single rel F o w true (newCurve rel o w) []
  /-- no prime divides the order, 223-232 -/
  | unused {b w1 k s1} : Single rel F o w b w1 k → First rel F w1 s1 → 6 ≤ s1.state →
      Single rel F o w false (call rel (.seq Prog.divides Prog.discard) s1.w).1 k
  /-- there are no generators of the kind asked for, or the timer went off, 156-161 -/
  | refused {b w1 k s1 s2 s2'} : Single rel F o w b w1 k → First rel F w1 s1 → 6 ≤ s1.state → Second rel F s1.w s2 → s2.state < 7 →
      step rel F 6 1 s2 = .inr s2' → Single rel F o w false (call rel Prog.discard s2'.w).1 k
  /-- the curve is kept, for one prime or, with copies, for more, 187-217 -/
  | used {b w1 k s1 s2 s3} (n : Nat) : Single rel F o w b w1 k → First rel F w1 s1 → 6 ≤ s1.state → Second rel F s1.w s2 → 7 ≤ s2.state →
      Third rel F s2.w s3 → 9 ≤ s3.state →
      Single rel F o w true
        (newCurve rel o (copyOut rel s3.w.record n (keepCurve rel s3.w)).1)
        (s3.w.record :: (copyOut rel s3.w.record n (keepCurve rel s3.w)).2 ++ k)

/-- the end, invalid.c:234 and 386-391: the curve, those in `curves` (`l`, in any order) and the original one are released. The loop ends when a curve
was kept for the last prime, so the curve is new. -/
def endSingle (rel : Bool) (o : Rec) (l : List Rec) (w : W) : W := freeAll rel (l ++ [o]) (call rel Prog.curveFree w).1

/-! ## a thread

Each thread has its own stack. What it reads of the original curve, which is on the stack of the main thread, is new to it. -/

/-- invalid_thread.c:32-34 -/
def newThreadCurve (rel : Bool) (w : W) : W :=
  let w1 := (call rel (seqs [Prog.call (.loc 0) [], Prog.call (.loc 1) []]) (w.load Rec.new)).1
  w1.load w1.two

/-- `n` times `curve_new_copy` of the curve `r`, invalid_thread.c:74 -/
def copyMany (rel : Bool) (r : Rec) : Nat → W → W × List Rec
  | 0, w => (w, [])
  | n + 1, w =>
    let w1 := (call rel Prog.curveCopy (w.load r)).1
    let q := copyMany rel r n w1
    (q.1, w1.record :: q.2)

/-- the memory of a thread at the top of its loop, invalid_thread.c:36, with the curves it has handed over. `true`: the numbers of the last round have
not been given back. -/
inductive Thread (rel : Bool) (F : Fns) (w : W) : Bool → W → List Rec → Prop
  | first : Thread rel F w true (newThreadCurve rel w) []
  /-- no prime divides the order -/
  | unused {b w1 k s1} : Thread rel F w b w1 k → First rel F w1 s1 → 6 ≤ s1.state →
      Thread rel F w false (call rel (seqs [Prog.divides, Prog.unrolls, Prog.restore 16]) s1.w).1 k
  /-- no generators -/
  | refused {b w1 k s1 s2 s2'} : Thread rel F w b w1 k → First rel F w1 s1 → 6 ≤ s1.state → Second rel F s1.w s2 → s2.state < 7 →
      step rel F 6 1 s2 = .inr s2' → Thread rel F w false (call rel (seqs [Prog.unrolls, Prog.restore 16]) s2'.w).1 k
  /-- no prime that still needs a curve divides the order -/
  | late {b w1 k s1 s2} : Thread rel F w b w1 k → First rel F w1 s1 → 6 ≤ s1.state → Second rel F s1.w s2 → 7 ≤ s2.state →
      Thread rel F w false (call rel (seqs [Prog.divides, Prog.unrolls, Prog.restore 16]) s2.w).1 k
  /-- the curve is used: copies are handed over -/
  | used {b w1 k s1 s2 s3} (n : Nat) : Thread rel F w b w1 k → First rel F w1 s1 → 6 ≤ s1.state → Second rel F s1.w s2 → 7 ≤ s2.state →
      Third rel F s2.w s3 → 9 ≤ s3.state →
      Thread rel F w true
        (call rel Prog.unrolls ((copyMany rel s3.w.record n s3.w).1.load s3.w.record)).1
        ((copyMany rel s3.w.record n s3.w).2 ++ k)

/-- the end of a thread, invalid_thread.c:89 -/
def endThread (rel : Bool) (w : W) : W := (call rel Prog.curveFree w).1

end Ecgen.Stack
