import Verif.Engine.Model
import Verif.Engine.Spec

/-!
# Model of PARI's stack during a search

Numbers (`GEN`) are allocated on PARI's stack, which grows from an old end to a young end, `avma`. `avma = x` gives back everything allocated
since the position was `x`; a number that lies there must not be read any more, since the next allocation overwrites it. `gclone` makes a copy
outside the stack that lives until `gunclone`. The search (`exhaustive_gen_retry`, `/repo/src/exhaustive/exhaustive.c`, 343-443) notes the position
at the beginning of each stage and goes back to it when it repeats the stage (431).

A block is a number that is never used twice. A value (what a variable of type `GEN`, or the `GEN`s in a list of points, refer to) is the list of the
blocks it is made of; PARI's results may share blocks with the arguments, so the model lets them share all of them, except where the C code
makes a copy (`gcopy`, `gerepilecopy`, `gerepileall`, `gerepileupto`). What the numbers are is not modelled: which branch is taken, how often a loop
runs and how many blocks an operation leaves behind is read from a tape.

Reading a value one of whose blocks was given back, reading a null pointer and releasing a clone twice are undefined: `none`.
-/

namespace Ecgen.Stack
open Ecgen.Engine

/-- blocks: on the stack, or clones -/
inductive Id where
  | stk (n : Nat)
  | cln (n : Nat)
  deriving DecidableEq, Repr

/-- the variables that hold numbers: the members of `curve_t` (types.h:104-114), the order cached in the curve object (`card`, entry 1 of
its cache, and what else is cached), the numbers of the seed (`z`: `ansi.t, s, h` or `family.z`; `r`: `ansi.r`; `mult`: `brainpool.mult`, types.h:33-55), the numbers in the
generators and in the points, the metadata (`data`), the table of `anomalous.c:9`, and local variables -/
inductive Slot where
  | field | a | b | crv | card | order | z | r | mult | gens | pts | data | disc
  | loc (n : Nat)
  deriving DecidableEq, Repr

/-- the static `GEN b` of nums.c:29 and family.c:112: a null pointer, a clone, or a pointer to a clone that was released -/
inductive Stat where
  | null | good | freed
  deriving DecidableEq, Repr

/-- the memory: the stack, oldest block first, the clones, the variables, and the positions noted in `stack_tops` (0 to 8) and local variables of
type `pari_sp` (from 9) -/
structure Mem where
  stack : List Nat
  clones : List Nat
  next : Nat
  slot : Slot → Option (List Id)
  mark : Nat → Nat
  stat : Stat

/-- the block is there -/
def Mem.here (m : Mem) : Id → Bool
  | .stk n => m.stack.contains n
  | .cln n => m.clones.contains n

/-- all blocks of the value are there -/
def Mem.valid (m : Mem) (v : Option (List Id)) : Bool :=
  match v with
  | none => false
  | some l => l.all m.here

/-- a variable may be read. Functions that get the curve object may look at the cached order. -/
def Mem.readable (m : Mem) (x : Slot) : Bool :=
  m.valid (m.slot x) && (x != .crv || (m.slot .card).isNone || m.valid (m.slot .card))

/-- `n` new blocks -/
def Mem.push (n : Nat) (m : Mem) : Mem :=
  { m with stack := m.stack ++ (List.range n).map (m.next + ·), next := m.next + n }

/-- an assignment to a variable -/
def Mem.put (x : Slot) (v : Option (List Id)) (m : Mem) : Mem :=
  { m with slot := fun y => if y = x then v else m.slot y }

/-- `avma = position`: the younger blocks are given back -/
def Mem.release (k : Nat) (m : Mem) : Mem := { m with stack := m.stack.take (m.mark k) }

/-- the blocks a variable refers to, none for a null pointer -/
def Mem.ids (m : Mem) (x : Slot) : List Id :=
  (m.slot x).getD [] ++ if x = .crv then (m.slot .card).getD [] else []

/-- `n` new blocks as a list -/
def newIds (k n : Nat) : List Id := (List.range n).map fun i => .stk (k + i)

/-- the values of some variables are copied one after the other, to new blocks -/
def Mem.copies : List Slot → Mem → Mem
  | [], m => m
  | x :: l, m => Mem.copies l ((m.push 1).put x (some (newIds m.next 1)))

/-- the clones among some blocks -/
def clonesOf (l : List Id) : List Nat := l.filterMap fun | .stk _ => none | .cln n => some n

/-- some clones are released -/
def Mem.unclone (l : List Id) (m : Mem) : Mem := { m with clones := m.clones.filter fun n => !(clonesOf l).contains n }

/-- a null pointer adds nothing to a list; `none` if there are only null pointers -/
def gather (m : Mem) : List Slot → Option (List Id)
  | [] => none
  | x :: l =>
    match m.slot x, gather m l with
    | none, r => r
    | some v, none => some v
    | some v, some w => some (v ++ w)

inductive Op where
  /-- a PARI function of some arguments whose result goes to `d` -/
  | call (d : Slot) (args : List Slot)
  /-- `gcopy` -/
  | copy (d x : Slot)
  /-- a component of a number, not copied (`gel`, `ell_get_a4`) -/
  | part (d x : Slot)
  /-- a universal constant such as `gen_0`, or a list without numbers -/
  | const (d : Slot)
  /-- pointers are assigned: `d` becomes the one of `x`, or the list of those of several variables -/
  | set (d : Slot) (xs : List Slot)
  | null (d : Slot)
  /-- a function whose result is not a number looks at some variables -/
  | read (xs : List Slot)
  /-- the same if the variable is not a null pointer -/
  | readIf (x : Slot)
  /-- `pari_sp top = avma` -/
  | save (k : Nat)
  /-- `avma = top` -/
  | restore (k : Nat)
  /-- `gerepileall(top, n, &x, …)`, `x = gerepilecopy(top, x)`, `x = gerepileupto(top, x)`: gives back what is younger than `top` but for these -/
  | keep (k : Nat) (xs : List Slot)
  /-- `d = ellff_get_card(curve->curve)`: the cached order, which is computed and cached as a clone if there is none -/
  | card (d : Slot)
  /-- `d = ellff_get_gens(curve->curve)`: generators, computed and cached as a clone beside the order. (The model makes a new clone each time.) -/
  | cacheGens (d : Slot)
  /-- `obj_insert_shallow(curve->curve, 1, x)`: the pointer goes to the cache -/
  | insert (x : Slot)
  /-- `obj_insert(curve->curve, 1, x)`: a clone goes to the cache; the clone there is released -/
  | insertClone (x : Slot)
  /-- `obj_free(curve->curve)`: releases the clones in the cache -/
  | objFree
  /-- `b = gclone(…)` for the static variable -/
  | statNew
  /-- `gunclone(b)` -/
  | statDrop
  /-- a function looks at the static variable -/
  | statRead
  deriving DecidableEq, Repr

/-- an operation that leaves `n` blocks behind besides its result. `rel`: PARI's `obj_insert_shallow` releases a clone it replaces (this depends on
the version of PARI). -/
def Op.exec (rel : Bool) (n : Nat) (m : Mem) : Op → Option Mem
  | .call d args =>
    if args.all m.readable then some ((m.push (n + 1)).put d (some (newIds m.next (n + 1) ++ args.flatMap m.ids))) else none
  | .copy d x => if m.readable x then some ((m.push 1).put d (some (newIds m.next 1))) else none
  | .part d x => if m.readable x then some (m.put d (m.slot x)) else none
  | .const d => some (m.put d (some []))
  | .set d xs => some (m.put d (gather m xs))
  | .null d => some (m.put d none)
  | .read xs => if xs.all m.readable then some (m.push n) else none
  | .readIf x => if (m.slot x).isNone || m.readable x then some (m.push n) else none
  | .save k => some { m with mark := fun j => if j = k then m.stack.length else m.mark j }
  | .restore k => some (m.release k)
  | .keep k xs => if xs.all m.readable then some ((m.release k).copies xs) else none
  | .card d =>
    if m.readable .crv then
      match m.slot .card with
      | none =>
        some (({ m.push n with clones := m.clones ++ [m.next + n], next := m.next + n + 1 }.put .card (some [.cln (m.next + n)])).put d
          (some [.cln (m.next + n)]))
      | some v => some (m.put d (some v))
    else none
  | .cacheGens d =>
    if m.readable .crv then
      some (({ m.push n with clones := m.clones ++ [m.next + n], next := m.next + n + 1 }.put .card
        (some (.cln (m.next + n) :: (m.slot .card).getD []))).put d (some [.cln (m.next + n)]))
    else none
  | .insert x =>
    if m.readable .crv then
      some ((if rel then m.unclone ((m.slot .card).getD []) else m).put .card (m.slot x))
    else none
  | .insertClone x =>
    if m.readable .crv && m.readable x then
      some (Mem.put .card (some [.cln m.next]) { m.unclone ((m.slot .card).getD []) with
        clones := (m.unclone ((m.slot .card).getD [])).clones ++ [m.next], next := m.next + 1 })
    else none
  | .objFree => if m.readable .crv then some (((m.unclone ((m.slot .card).getD [])).put .crv none).put .card none) else none
  | .statNew => some { m with stat := .good }
  | .statDrop => if m.stat = .good then some { m with stat := .freed } else none
  | .statRead => if m.stat = .good then some (m.push n) else none

/-- function bodies -/
inductive Stmt where
  | skip
  | op (o : Op)
  | seq (p q : Stmt)
  /-- a condition on the numbers -/
  | choice (p q : Stmt)
  /-- any number of times -/
  | loop (p : Stmt)
  /-- the loop at brainpool.c:114-119, after its first round -/
  | again (p : Stmt)
  /-- `if (isclone(x))` -/
  | ifClone (x : Slot) (p q : Stmt)
  /-- `if (x == NULL)` -/
  | ifNull (x : Slot) (p q : Stmt)
  /-- `if (!b)` for the static variable -/
  | ifStat (p q : Stmt)
  | ret (d : Int)
  deriving Repr

/-- one after the other -/
def seqs : List Stmt → Stmt
  | [] => .skip
  | [p] => p
  | p :: l => .seq p (seqs l)

/-- an entry of the tape: a number (blocks, rounds, 0 for the first branch), whether the timer goes off, whether an `again` loop has more rounds -/
structure Cell where
  size : Nat
  cut : Bool
  again : Bool
  deriving DecidableEq, Repr

/-- how a function ends: falls through or returns, the timer cuts it off, or it has done something undefined -/
inductive Out where
  | norm (m : Mem)
  | ret (d : Int) (m : Mem)
  | cut (m : Mem)
  | ub

/-- `n` times, unless the body ends the function -/
def times (f : Nat → Mem → Out × Nat) : Nat → Nat → Mem → Out × Nat
  | 0, k, m => (.norm m, k)
  | n + 1, k, m =>
    match f k m with
    | (.norm m', k') => times f n k' m'
    | r => r

/-- the execution of a function body from position `k` of the tape; `timed`: under the timer -/
def exec (rel : Bool) (t : Nat → Cell) (timed : Bool) : Stmt → Nat → Mem → Out × Nat
  | .skip, k, m => (.norm m, k)
  | .op o, k, m =>
    if timed && (t k).cut then (.cut (m.push (t k).size), k + 1)
    else
      match o.exec rel (t k).size m with
      | some m' => (.norm m', k + 1)
      | none => (.ub, k + 1)
  | .seq p q, k, m =>
    match exec rel t timed p k m with
    | (.norm m', k') => exec rel t timed q k' m'
    | r => r
  | .choice p q, k, m => if (t k).size = 0 then exec rel t timed p (k + 1) m else exec rel t timed q (k + 1) m
  | .loop p, k, m => times (exec rel t timed p) (t k).size (k + 1) m
  | .again p, k, m => times (exec rel t timed p) (if (t k).again then (t k).size else 0) (k + 1) m
  | .ifClone x p q, k, m =>
    if m.readable x then
      if clonesOf ((m.slot x).getD []) = [] then exec rel t timed q k m else exec rel t timed p k m
    else (.ub, k)
  | .ifNull x p q, k, m => if (m.slot x).isNone then exec rel t timed p k m else exec rel t timed q k m
  | .ifStat p q, k, m => if m.stat = .null then exec rel t timed p k m else exec rel t timed q k m
  | .ret d, k, m => (.ret d m, k)

/-- the world: the memory (`none` after something undefined), the tape and the position on it -/
structure W where
  mem : Option Mem
  tape : Nat → Cell
  pos : Nat

/-- which functions are called at each stage -/
structure Fns where
  gen : Nat → Stmt
  check : Nat → Stmt
  unroll : Nat → Stmt

/-- the position is noted -/
def Mem.noted (k : Nat) (m : Mem) : Mem := { m with mark := fun j => if j = k then m.stack.length else m.mark j }

/-- a call of the generator of a stage: exhaustive.c:358 and, under the timer, 366-375. A generator that falls through returns 1. -/
def genStage (rel : Bool) (F : Fns) (s : Nat) (w : W) : W × GenRes :=
  match w.mem with
  | none => (w, .ret INT_MIN)
  | some m =>
    match exec rel w.tape true (F.gen s) w.pos (m.noted s) with
    | (.norm m', k) => ({ w with mem := some m', pos := k }, .ret 1)
    | (.ret d m', k) => ({ w with mem := some m', pos := k }, .ret d)
    | (.cut m', k) => ({ w with mem := some m', pos := k }, .timeout)
    | (.ub, k) => ({ w with mem := none, pos := k }, .ret INT_MIN)

/-- a function that is not under the timer, with what it returns (1 if it falls through) -/
def call (rel : Bool) (p : Stmt) (w : W) : W × Int :=
  match w.mem with
  | none => (w, INT_MIN)
  | some m =>
    match exec rel w.tape false p w.pos m with
    | (.norm m', k) => ({ w with mem := some m', pos := k }, 1)
    | (.ret d m', k) => ({ w with mem := some m', pos := k }, d)
    | (.cut m', k) => ({ w with mem := some m', pos := k }, 1)
    | (.ub, k) => ({ w with mem := none, pos := k }, INT_MIN)

/-- `ctop`, exhaustive.c:377 and 387 -/
def ctop : Nat := 14

/-- `avma = top` -/
def giveBack (k : Nat) (w : W) : W := { w with mem := w.mem.map (Mem.release k) }

/-- the validators of a stage, exhaustive.c:376-388: all of them are one function here; afterwards the position is the one before -/
def checkStage (rel : Bool) (F : Fns) (s : Nat) (w : W) : W × Int :=
  let r := call rel (.seq (.op (.save ctop)) (F.check s)) w
  (giveBack ctop r.1, r.2)

/-- the setup of the engine -/
def setup (rel : Bool) (F : Fns) : Setup W where
  gen := genStage rel F
  checks s := [checkStage rel F s]
  unroll s := some fun w => (call rel (F.unroll s) w).1

/-- an iteration of the loop of the search: that of the engine, exhaustive.c:357-438, and `avma = stack_tops[new_state]` (431) if it goes back -/
def step (rel : Bool) (F : Fns) (start : Nat) (retry : Int) (st : St W) : St W ⊕ St W :=
  match Engine.step (setup rel F) start retry st with
  | .inl st' => .inl (if st'.state ≤ st.state then { st' with w := giveBack st'.state st'.w } else st')
  | .inr st' => .inr st'

/-- the loop with a budget -/
def loop (rel : Bool) (F : Fns) (start stop : Nat) (retry : Int) : Nat → St W → Option (Int × St W)
  | 0, st => if st.state < stop then none else some (1, st)
  | fuel + 1, st =>
    if st.state < stop then
      match step rel F start retry st with
      | .inl st' => loop rel F start stop retry fuel st'
      | .inr st' => some (0, st')
    else some (1, st)

/-- the states of the loop -/
inductive Reaches (rel : Bool) (F : Fns) (start stop : Nat) (retry : Int) (st : St W) : St W → Prop
  | refl : Reaches rel F start stop retry st st
  | next {st' st''} : Reaches rel F start stop retry st st' → st'.state < stop → step rel F start retry st' = .inl st'' →
      Reaches rel F start stop retry st st''

end Ecgen.Stack
