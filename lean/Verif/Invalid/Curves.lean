import Verif.Json.Spec

/-!
# Model of the generation of invalid curves

`/repo/src/invalid/invalid.c`, 121-396 and `/repo/src/invalid/invalid_thread.c`, 13-96.

Modelled: the choice of primes a new curve is kept for, the arrays `curves`, `states`, `old_states` and the counter `generated`, the
worker threads, the printing thread, the mutex and the condition variable, the printed tokens.

Simplifications:
* a run of `exhaustive_gen` for the offsets B to GENERATORS sets `b`, `curve` and `order` (the generators at these offsets); which values
  it sets is arbitrary. The rest of the curve (`b`, generators, points) is one component `rest`; the generators for the remaining offsets
  only change this component.
* copies of a curve are the same value; memory and the PARI stacks are not modelled.
* the bodies of critical sections are one step each. The mutex is modelled, and the steps of a critical section need it.
* the workers start when the main thread already waits: it holds the mutex until it first waits, and the first thing a worker
  does with shared data needs the mutex.
-/

namespace Ecgen.Invalid

open Json

/-- a curve: the field, `a`, the order, and everything else -/
structure Curve (F R : Type) where
  field : F
  a : F
  order : Nat
  rest : R

/-- an entry of the printed array: the original curve (`none`) or the curve for the prime with the index `i`, with the value printed -/
abbrev Entry (F R : Type) := Option Nat × Option (Curve F R)

/-- writing to an array -/
def upd {α : Type} (f : Nat → α) (i : Nat) (x : α) : Nat → α := fun j => if j = i then x else f j

section Single

variable {F R σ : Type}

/-- the generators used in a loop iteration, with the world as state: -/
structure Gens (F R σ : Type) where
  /-- offsets B to GENERATORS: the order and the rest of the curve, invalid.c:140 -/
  curve : σ → Nat × R × σ
  /-- offsets GENERATORS to POINTS, one try, invalid.c:158; `none` is a failure -/
  gens : Curve F R → σ → Option R × σ
  /-- offsets POINTS to END, for the given primes, invalid.c:188 -/
  points : List Nat → Curve F R → σ → R × σ

/-- is a curve for the prime with index `i` still needed, and does the prime divide the order? -/
def wanted (p : Nat → Nat) (curves : Nat → Option (Curve F R)) (o i : Nat) : Bool := (curves i).isNone && o % p i == 0

/-- invalid.c:146-155: number of primes without a curve which divide the order -/
def total (p : Nat → Nat) (curves : Nat → Option (Curve F R)) (o : Nat) : Nat → Nat
  | 0 => 0
  | i + 1 => (if wanted p curves o i then 1 else 0) + total p curves o i

/-- the variables of `invalid_curves_single` and the printed tokens -/
structure SSt (F R : Type) where
  curves : Nat → Option (Curve F R)
  ncurves : Nat
  out : List (Tok (Entry F R))

/-- invalid.c:190-207: store and print the curve, for `i` downwards -/
def saveLoop (p : Nat → Nat) (n : Nat) (c : Curve F R) : Nat → SSt F R → SSt F R
  | 0, s => s
  | i + 1, s =>
    saveLoop p n c i <|
      if wanted p s.curves c.order i then
        { curves := upd s.curves i (some c)
          ncurves := s.ncurves + 1
          out := s.out ++ .obj (some i, some c) :: (if s.ncurves ≠ n - 1 then [.comma] else []) }
      else s

/-- the loop of `invalid_curves_single`, invalid.c:137-233; `none` when the budget is exhausted -/
def singleLoop (g : Gens F R σ) (p : Nat → Nat) (n : Nat) (orig : Curve F R) : Nat → SSt F R → σ → Option (SSt F R)
  | 0, _, _ => none
  | fuel + 1, s, w =>
    if s.ncurves < n then
      let (o, r, w) := g.curve w
      let invalid : Curve F R := { field := orig.field, a := orig.a, order := o, rest := r }
      if total p s.curves o n > 0 then
        match g.gens invalid w with
        | (none, w) => singleLoop g p n orig fuel s w
        | (some r, w) =>
          let invalid := { invalid with rest := r }
          let dprimes := ((List.range n).filter (wanted p s.curves o)).map p
          let (r, w) := g.points dprimes invalid w
          singleLoop g p n orig fuel (saveLoop p n { invalid with rest := r } n s) w
      else singleLoop g p n orig fuel s w
    else some s

/-- `invalid_do` with one thread, invalid.c:362-385: the stored curves, the printed tokens and the exit status; `primes` are the selected
primes -/
def invalidDoSingle (g : Gens F R σ) (primes : List Nat) (orig : Curve F R) (fuel : Nat) (w : σ) :
    Option ((Nat → Option (Curve F R)) × List (Tok (Entry F R)) × Int) :=
  let out := [.open, .obj (none, some orig), .comma]
  if primes.length = 0 then some (fun _ => none, out, 1)
  else
    match singleLoop g (fun i => primes.getD i 0) primes.length orig fuel ⟨fun _ => none, 0, out⟩ w with
    | none => none
    | some s => some (s.curves, s.out ++ [.close], 0)

end Single

section Threads

/-- `state_e`, invalid_thread.h:15 -/
inductive PState where
  | free | generating | generated
  deriving DecidableEq, Repr

variable {F R : Type}

/-- where a worker is -/
inductive Worker (F R : Type) where
  /-- at the mutex in `invalid_get_generated`, and inside -/
  | wantCheck | inCheck
  /-- generating a curve, invalid_thread.c:39-52 -/
  | search
  /-- at the mutex before claiming primes, and inside, invalid_thread.c:53-63 -/
  | wantClaim (c : Curve F R) | inClaim (c : Curve F R)
  /-- generating points for the claimed primes, invalid_thread.c:66-69 -/
  | points (c : Curve F R) (l : List Nat)
  /-- at the mutex before storing, and inside, invalid_thread.c:71-82 -/
  | wantStore (c : Curve F R) (l : List Nat) | inStore (c : Curve F R) (l : List Nat)
  | exited

/-- where the main thread is: in `pthread_cond_wait`, woken up and at the mutex, holding the mutex, behind the loop -/
inductive Main where
  | blocked | woken | scanning | finished
  deriving DecidableEq, Repr

/-- who holds the mutex -/
inductive Owner where
  | nobody | main | worker (t : Nat)
  deriving DecidableEq, Repr

/-- shared data and threads -/
structure G (F R : Type) where
  states : Nat → PState
  curves : Nat → Option (Curve F R)
  generated : Nat
  owner : Owner
  workers : Nat → Worker F R
  main : Main
  old : Nat → PState
  out : List (Tok (Entry F R))

/-- invalid_thread.c:56-62: claim the free primes that divide the order -/
def claimLoop (p : Nat → Nat) (o : Nat) : Nat → (Nat → PState) → List Nat → (Nat → PState) × List Nat
  | 0, s, l => (s, l)
  | i + 1, s, l =>
    if o % p i = 0 ∧ s i = .free then claimLoop p o i (upd s i .generating) (l ++ [p i])
    else claimLoop p o i s l

/-- invalid_thread.c:72-79: store the curve; `l` are the claimed primes from index `count` on. Returns the final `count`. -/
def storeLoop (p : Nat → Nat) (c : Curve F R) : Nat → (Nat → PState) → (Nat → Option (Curve F R)) → List Nat → Nat →
    (Nat → PState) × (Nat → Option (Curve F R)) × Nat
  | 0, s, cs, _, count => (s, cs, count)
  | i + 1, s, cs, [], count => storeLoop p c i s cs [] count
  | i + 1, s, cs, q :: l, count =>
    if q = p i then storeLoop p c i (upd s i .generated) (upd cs i (some c)) l (count + 1)
    else storeLoop p c i s cs (q :: l) count

/-- invalid.c:285-293: print what is new; `left` is `nprimes - i` -/
def scanLoop (n : Nat) (g : G F R) : Nat → (Nat → PState) → List (Tok (Entry F R)) → (Nat → PState) × List (Tok (Entry F R))
  | 0, old, out => (old, out)
  | left + 1, old, out =>
    let i := n - (left + 1)
    if old i ≠ g.states i ∧ g.states i = .generated then
      scanLoop n g left (upd old i (g.states i))
        (out ++ .obj (some i, g.curves i) :: (if g.generated ≠ n then [.comma] else []))
    else scanLoop n g left old out

/-- the state when the main thread first waits -/
def initial (orig : Curve F R) : G F R where
  states := fun _ => .free
  curves := fun _ => none
  generated := 0
  owner := .nobody
  workers := fun _ => .wantCheck
  main := .blocked
  old := fun _ => .free
  out := [.open, .obj (none, some orig), .comma]

/-- one step of one of the threads; `p i` for `i < n` are the selected primes -/
inductive Step (p : Nat → Nat) (n threads : Nat) (orig : Curve F R) : G F R → G F R → Prop
  /-- `invalid_get_generated`: lock, read, unlock -/
  | checkLock (g : G F R) (t : Nat) : t < threads → g.workers t = .wantCheck → g.owner = .nobody →
      Step p n threads orig g { g with owner := .worker t, workers := upd g.workers t .inCheck }
  | check (g : G F R) (t : Nat) : t < threads → g.workers t = .inCheck → g.owner = .worker t →
      Step p n threads orig g
        { g with owner := .nobody, workers := upd g.workers t (if g.generated < n then .search else .exited) }
  /-- a curve whose order is not divisible by any prime, or without generators -/
  | searchFail (g : G F R) (t : Nat) : t < threads → g.workers t = .search →
      Step p n threads orig g { g with workers := upd g.workers t .wantCheck }
  /-- a curve with any order and rest, the field and `a` of the original curve, and an order divisible by a prime -/
  | searchFound (g : G F R) (t : Nat) (o : Nat) (r : R) : t < threads → g.workers t = .search → (∃ i, i < n ∧ o % p i = 0) →
      Step p n threads orig g { g with workers := upd g.workers t (.wantClaim ⟨orig.field, orig.a, o, r⟩) }
  | claimLock (g : G F R) (t : Nat) (c : Curve F R) : t < threads → g.workers t = .wantClaim c → g.owner = .nobody →
      Step p n threads orig g { g with owner := .worker t, workers := upd g.workers t (.inClaim c) }
  | claim (g : G F R) (t : Nat) (c : Curve F R) : t < threads → g.workers t = .inClaim c → g.owner = .worker t →
      Step p n threads orig g
        { g with
          owner := .nobody
          states := (claimLoop p c.order n g.states []).1
          workers := upd g.workers t
            (if (claimLoop p c.order n g.states []).2.length > 0 then .points c (claimLoop p c.order n g.states []).2
             else .wantCheck) }
  | points (g : G F R) (t : Nat) (c : Curve F R) (l : List Nat) (r : R) : t < threads → g.workers t = .points c l →
      Step p n threads orig g { g with workers := upd g.workers t (.wantStore { c with rest := r } l) }
  | storeLock (g : G F R) (t : Nat) (c : Curve F R) (l : List Nat) : t < threads → g.workers t = .wantStore c l →
      g.owner = .nobody →
      Step p n threads orig g { g with owner := .worker t, workers := upd g.workers t (.inStore c l) }
  /-- store and signal: `pthread_cond_signal` wakes the main thread if it waits -/
  | store (g : G F R) (t : Nat) (c : Curve F R) (l : List Nat) : t < threads → g.workers t = .inStore c l →
      g.owner = .worker t →
      Step p n threads orig g
        { g with
          owner := .nobody
          states := (storeLoop p c n g.states g.curves l 0).1
          curves := (storeLoop p c n g.states g.curves l 0).2.1
          generated := g.generated + (storeLoop p c n g.states g.curves l 0).2.2
          workers := upd g.workers t .wantCheck
          main := if g.main = .blocked then .woken else g.main }
  /-- `pthread_cond_wait` may return without a signal -/
  | spurious (g : G F R) : g.main = .blocked → Step p n threads orig g { g with main := .woken }
  | mainLock (g : G F R) : g.main = .woken → g.owner = .nobody →
      Step p n threads orig g { g with owner := .main, main := .scanning }
  /-- print, then unlock and leave the loop, or wait again (which unlocks) -/
  | scan (g : G F R) : g.main = .scanning → g.owner = .main →
      Step p n threads orig g
        { g with
          owner := .nobody
          old := (scanLoop n g n g.old g.out).1
          out := (scanLoop n g n g.old g.out).2
          main := if g.generated = n then .finished else .blocked }

/-- reachable states -/
inductive Reachable (p : Nat → Nat) (n threads : Nat) (orig : Curve F R) : G F R → Prop
  | initial : Reachable p n threads orig (initial orig)
  | step {g g' : G F R} : Reachable p n threads orig g → Step p n threads orig g g' → Reachable p n threads orig g'

/-- what has been printed when `invalid_do` returns, invalid.c:385 -/
def finalOutput (g : G F R) : List (Tok (Entry F R)) := g.out ++ [.close]

end Threads

end Ecgen.Invalid
