import Verif.Cli.Setup

/-!
# The tables of a search on the heap (C101)

`check_new`, `check_free` (`/repo/src/exhaustive/check.c`), `arg_new`, `arg_free` (`/repo/src/exhaustive/arg.c`), `exhaustive_clear`, `exhaustive_cinit`,
`exhaustive_ainit` (`/repo/src/exhaustive/exhaustive.c`, 28-44 and 260-326), `cm_ainit`, `cm_cinit` (`/repo/src/cm/cm.c`, 97-150) and `invalid_cinit`
(`/repo/src/invalid/invalid.c`, 61-64) with their memory. `Verif.Cli.Setup` says which checks and arguments the stages get; here they are objects on the heap.

Undefined behaviour is `none`: reading or writing through a pointer to memory that is not in use, outside of an array, releasing twice.

Simplifications:
* The allocator is a parameter that answers with any address not in use. It does not fail (util/memory.c exits).
* The tables themselves are arrays on the stack of the C function that runs the search; they are functions of the table and the stage.
* A pointer into `cfg`, which is never released, is named after what it points to.
* Text built by PARI for a product of factors (`pari_sprintf`, cm.c:186), which is never released, is left out; so is a run where `cm_init` fails.
-/

namespace Ecgen.Tables

open Ecgen.Cli

/-- the stages, `offset_e` in misc/types.h -/
inductive Stage where
  | seed | field | a | b | curve | order | gens | points | metadata
  deriving DecidableEq

/-- the stages from 0 to `OFFSET_END - 1` -/
def stages : List Stage := [.seed, .field, .a, .b, .curve, .order, .gens, .points, .metadata]

/-- the entry of a table of `Verif.Cli.Setup` -/
def entry {α : Type} (t : Table α) : Stage → α
  | .seed => t.seed
  | .field => t.field
  | .a => t.a
  | .b => t.b
  | .curve => t.curve
  | .order => t.order
  | .gens => t.gens
  | .points => t.points
  | .metadata => t.metadata

/-- what the member `args` points to -/
inductive Ptr where
  | null
  /-- `&cfg->points.amount` -/
  | amount
  /-- `&cfg->cofactor_value` -/
  | cofactor
  /-- `&cfg->smooth_value` -/
  | smooth
  /-- `cfg->hex_check` -/
  | hex
  | heap (a : Nat)
  deriving DecidableEq

/-- the blocks -/
inductive Block where
  /-- `check_t`: `nchecks`, `checks` -/
  | check (nchecks : Nat) (checks : Option Nat)
  /-- an array of functions, `none` where nothing was written -/
  | checks (l : List (Option Check))
  /-- `arg_t`: `args`, `nargs`, `allocd` -/
  | arg (args : Ptr) (nargs : Nat) (allocd : Option Nat)
  /-- a string -/
  | text (s : Str)
  /-- a `size_t` -/
  | counter (n : Nat)

abbrev Heap := Nat → Option Block

def Heap.set (h : Heap) (a : Nat) (b : Option Block) : Heap := fun x => if x = a then b else h x

/-- memory is finite -/
def Bounded (h : Heap) : Prop := ∃ n, ∀ a, n ≤ a → h a = none

/-- an allocator answers with an address that is not in use -/
def Allocator (A : Heap → Nat) : Prop := ∀ h, Bounded h → h (A h) = none

def alloc (A : Heap → Nat) (h : Heap) (b : Block) : Heap × Nat := (h.set (A h) (some b), A h)

/-- `try_free`, util/memory.c:66 -/
def free (h : Heap) (a : Nat) : Option Heap := if (h a).isSome then some (h.set a none) else none

/-- `result->checks = try_realloc(result->checks, sizeof(check_f) * (++result->nchecks)); result->checks[result->nchecks - 1] = check`, check.c:18-20: the
block may move -/
def push (A : Heap → Nat) (h : Heap) (r : Nat) (c : Check) : Option Heap :=
  match h r with
  | some (.check n (some k)) =>
    match h k with
    | some (.checks l) =>
      let l' := (l.take (n + 1)) ++ List.replicate (n + 1 - l.length) none
      let h1 := (h.set k none)
      let k' := A h1
      let h2 := h1.set k' (some (.checks l'))
      if n < l'.length then some ((h2.set k' (some (.checks (l'.set n (some c))))).set r (some (.check (n + 1) (some k')))) else none
    | _ => none
  | _ => none

/-- the loop check.c:17-21 -/
def pushAll (A : Heap → Nat) (r : Nat) : Heap → List Check → Option Heap
  | h, [] => some h
  | h, c :: l => (push A h r c).bind fun h => pushAll A r h l

/-- `check_new(one, rest..., NULL)`, check.c:8-25 -/
def checkNew (A : Heap → Nat) (h : Heap) (one : Check) (rest : List Check) : Option (Heap × Nat) :=
  let (h, r) := alloc A h (.check 0 none)
  let (h, k) := alloc A h (.checks [none])
  (pushAll A r ((h.set k (some (.checks [some one]))).set r (some (.check 1 (some k)))) rest).map fun h => (h, r)

/-- `check_free`, check.c:27-35 -/
def checkFree (h : Heap) : Option Nat → Option Heap
  | none => some h
  | some a =>
    match h a with
    | some (.check _ k) =>
      match k with
      | some k => (free h k).bind fun h => free h a
      | none => free h a
    | _ => none

/-- `arg_new`, arg.c:8 -/
def argNew (A : Heap → Nat) (h : Heap) : Heap × Nat := alloc A h (.arg .null 0 none)

/-- `arg_free`, arg.c:10-19 -/
def argFree (h : Heap) : Option Nat → Option Heap
  | none => some h
  | some a =>
    match h a with
    | some (.arg _ _ k) =>
      match k with
      | some k => (free h k).bind fun h => free h a
      | none => free h a
    | _ => none

/-- the three tables -/
inductive Which where
  | validators | genArgs | checkArgs
  deriving DecidableEq

/-- the pointers in the tables; all are null at first (`= {NULL}`) -/
abbrev Tables := Which → Stage → Option Nat

def empty : Tables := fun _ _ => none

/-- `table[stage] = p` -/
def Tables.put (t : Tables) (w : Which) (s : Stage) (p : Option Nat) : Tables := fun v u => if v = w ∧ u = s then p else t v u

/-- the heap and the tables -/
abbrev St := Heap × Tables

/-- `validators[stage] = check_new(one, rest..., NULL)` -/
def addCheck (A : Heap → Nat) (s : Stage) (one : Check) (rest : List Check) (x : St) : Option St :=
  (checkNew A x.1 one rest).map fun r => (r.1, x.2.put .validators s (some r.2))

/-- an argument with `args` set and `nargs = 1`, put into a table -/
def addArg (A : Heap → Nat) (w : Which) (s : Stage) (p : Ptr) (x : St) : St :=
  let (h, a) := argNew A x.1
  (h.set a (some (.arg p 1 none)), x.2.put w s (some a))

/-- `exhaustive_cinit`, exhaustive.c:260-292 -/
def cinit (A : Heap → Nat) (c : Config) (x : St) : Option St := do
  let x ← addCheck A .curve .curveNonzero [] x
  let x ← if c.hexCheck.isSome then addCheck A .points .hexParam [] x else some x
  if c.method = METHOD_SEED then
    match c.seedAlgo with
    | .brainpool | .brainpoolRfc => do
      let x ← addCheck A .order .brainpoolOrder [] x
      addCheck A .gens .gensAnomalous [.brainpoolGens] x
    | .nums => addCheck A .gens .gensAnomalous [.brainpoolGens] x
    | _ => some x
  else some x

/-- exhaustive.c:295-300 and cm.c:126-131 -/
def pointsArg (A : Heap → Nat) (c : Config) (x : St) : St := if c.pointsType = .random then addArg A .genArgs .points .amount x else x

/-- exhaustive.c:320-325 and cm.c:133-138 -/
def hexArg (A : Heap → Nat) (c : Config) (x : St) : St := if c.hexCheck.isSome then addArg A .checkArgs .points .hex x else x

/-- exhaustive.c:302-311: both objects are made before they are filled -/
def cofactorArgs (A : Heap → Nat) (c : Config) (x : St) : St :=
  if c.cofactor then
    let (h, o) := argNew A x.1
    let (h, g) := argNew A h
    ((h.set o (some (.arg .cofactor 1 none))).set g (some (.arg .cofactor 1 none)), (x.2.put .genArgs .order (some o)).put .genArgs .gens (some g))
  else x

/-- exhaustive.c:313-318 -/
def smoothArg (A : Heap → Nat) (c : Config) (x : St) : St := if c.smooth then addArg A .genArgs .order .smooth x else x

/-- `exhaustive_ainit`, exhaustive.c:294-326 -/
def ainit (A : Heap → Nat) (c : Config) (x : St) : St := hexArg A c (smoothArg A c (cofactorArgs A c (pointsArg A c x)))

/-- cm.c:99-110 and 112-124: two arguments that share what they point to, and the second releases it -/
def shared (A : Heap → Nat) (s t : Stage) (b : Block) (x : St) : St :=
  let (h, p) := argNew A x.1
  let (h, q) := argNew A h
  let (h, k) := alloc A h b
  ((h.set p (some (.arg (.heap k) 1 none))).set q (some (.arg (.heap k) 1 (some k))), (x.2.put .genArgs s (some p)).put .genArgs t (some q))

/-- `cm_ainit`, cm.c:97-139; `order` is the text of the order -/
def cmAinit (A : Heap → Nat) (c : Config) (order : Str) (x : St) : St :=
  let x := if c.method = METHOD_CM then shared A .curve .order (.text order) x else x
  let x := if c.method = METHOD_ANOMALOUS then shared A .field .b (.counter 3) x else x
  hexArg A c (pointsArg A c x)

/-- `cm_cinit`, cm.c:141-150 -/
def cmCinit (A : Heap → Nat) (c : Config) (x : St) : Option St := do
  let x ← addCheck A .curve .curveNonzero [] x
  if c.hexCheck.isSome then addCheck A .points .hexParam [] x else some x

/-- the tables when the search starts: `exhaustive_init` (exhaustive.c:432-438), `cm_init` (cm.c:217-220), `invalid_init` (invalid.c:66-69) -/
def start (A : Heap → Nat) (order : Str → Str) (c : Config) (h : Heap) : Option St :=
  if c.method = METHOD_CM ∨ c.method = METHOD_ANOMALOUS ∨ c.method = METHOD_SUPERSINGULAR then
    cmCinit A c (cmAinit A c (order (c.cmOrder.getD [])) (h, empty))
  else if c.method = METHOD_INVALID then addCheck A .curve .curveNonzero [] (h, empty)
  else (cinit A c (h, empty)).map (ainit A c)

/-- the loops of `exhaustive_clear`, exhaustive.c:30-42: each pointer is set to null when what it points to was released -/
def clearEach (f : Heap → Option Nat → Option Heap) (w : Which) : List Stage → St → Option St
  | [], x => some x
  | s :: l, x => (f x.1 (x.2 w s)).bind fun h => clearEach f w l (h, x.2.put w s none)

/-- `exhaustive_clear`, exhaustive.c:28-44 -/
def clear (x : St) : Option St :=
  (clearEach checkFree .validators stages x).bind fun x => (clearEach argFree .genArgs stages x).bind fun x => clearEach argFree .checkArgs stages x

/-- the end of a run: `exhaustive_quit` (exhaustive.c:448), `cm_quit` (cm.c:229), and `invalid_do`, which releases the tables of two searches that are the same
(invalid.c:395-396) -/
def finish (c : Config) (x : St) : Option St := if c.method = METHOD_INVALID then (clear x).bind clear else clear x

/-! ## Reading -/

/-- what the checks of a stage are, as the search reads them (exhaustive.c:379-385) -/
def readChecks (h : Heap) : Option Nat → Option (List Check)
  | none => some []
  | some a =>
    match h a with
    | some (.check n (some k)) =>
      match h k with
      | some (.checks l) => if n ≤ l.length then (l.take n).mapM id else none
      | _ => none
    | _ => none

/-- what a pointer leads to -/
def follow (c : Config) (h : Heap) : Ptr → Option Arg
  | .null => none
  | .amount => some (.size c.pointsAmount)
  | .cofactor => some (.long c.cofactorValue)
  | .smooth => some (.long c.smoothValue)
  | .hex => c.hexCheck.map .text
  | .heap a =>
    match h a with
    | some (.text s) => some (.text s)
    | some (.counter _) => some .counter
    | _ => none

/-- the argument of a stage, as its function reads it: `none` within `some` is a null pointer -/
def readArg (c : Config) (h : Heap) : Option Nat → Option (Option Arg)
  | none => some none
  | some a =>
    match h a with
    | some (.arg p _ _) => (follow c h p).map some
    | _ => none

/-! ## Specification -/

/-- a heap without some blocks -/
def gone (h : Heap) (fp : List Nat) : Heap := fun x => if x ∈ fp then none else h x

/-- blocks that belong to an entry of a table -/
inductive Owns (h : Heap) : Which → Option Nat → List Nat → Prop
  | null (w : Which) : Owns h w none []
  | checks {a k n : Nat} {l : List (Option Check)} (ha : h a = some (.check n (some k))) (hk : h k = some (.checks l)) (ne : a ≠ k) :
      Owns h .validators (some a) [a, k]
  | plain {w : Which} {a n : Nat} {p : Ptr} (hw : w ≠ .validators) (ha : h a = some (.arg p n none)) : Owns h w (some a) [a]
  | both {w : Which} {a k n : Nat} {p : Ptr} (hw : w ≠ .validators) (ha : h a = some (.arg p n (some k))) (hk : h k ≠ none) (ne : a ≠ k) :
      Owns h w (some a) [a, k]

/-- the tables own their blocks, and none is of two entries -/
structure Held (h : Heap) (t : Tables) (fp : Which → Stage → List Nat) : Prop where
  owns : ∀ w s, Owns h w (t w s) (fp w s)
  apart : ∀ w s v u x, x ∈ fp w s → x ∈ fp v u → w = v ∧ s = u

/-- everything owned -/
def allOf (fp : Which → Stage → List Nat) : List Nat :=
  stages.flatMap (fp .validators) ++ (stages.flatMap (fp .genArgs) ++ stages.flatMap (fp .checkArgs))

end Ecgen.Tables
