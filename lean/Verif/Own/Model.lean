import Verif.Engine.Model

/-!
# Model of the ownership of memory blocks during a search

`/repo/src/obj/*.c`, `/repo/src/gen/seed.c`, the parts of `gens.c`, `point.c`, `curve.c`, `twists.c`, `ansi.c`, `brainpool.c`, `nums.c` and
`family.c` in `/repo/src` that allocate or release blocks, run by the search engine, and `exhaustive_generate`.

A block is a number; `live` are the blocks allocated and not yet released. Releasing a block that is not live, an index outside an array and
the use of a null pointer are undefined behaviour, `none`. The objects of a curve are only reached through the curve, so that they are a
tree of values that carry their block numbers. Only blocks that outlive the function that allocates them are modelled; `GEN` values on the
PARI stack are not blocks (`isclone` is false for them), the cached data of a `t_ELL` (`obj_free`) is one block.

What the generators compute is arbitrary: a `Pick` says how a call of a generator goes. A generator that the timer cuts off (`longjmp`) has
done some of its assignments, and has lost some blocks that were not yet assigned.
-/

namespace Ecgen.Own
open Ecgen.Engine

/-- `seed_t` (types.h:33-55): its block and the blocks of `seed`, `hash20`, `seed_a`, `seed_b` that are there -/
structure Seed where
  id : Nat
  parts : List Nat
  deriving DecidableEq, Repr

/-- `subgroup_t` (types.h:74-78); an array of pointers has its block and its entries -/
structure Sub where
  id : Nat
  gen : Option Nat
  npoints : Nat
  points : Option (Nat × List (Option Nat))
  deriving DecidableEq, Repr

/-- `curve_t` (types.h:104-114) -/
structure Curve where
  id : Nat
  seed : Option Seed
  crv : Option Nat
  gens : Option (Nat × List (Option Sub))
  ngens : Nat
  deriving DecidableEq, Repr

/-- the memory and the curve under construction -/
structure M where
  live : Nat → Bool
  next : Nat
  cur : Curve

/-- `try_malloc`, `try_calloc` (memory.c:46-48): a new block -/
def alloc (m : M) : Nat × M :=
  (m.next, { m with live := fun x => if x = m.next then true else m.live x, next := m.next + 1 })

/-- `try_free` (memory.c:73) -/
def free (x : Nat) (m : M) : Option M :=
  if m.live x then some { m with live := fun y => if y = x then false else m.live y } else none

/-- releasing what a pointer refers to, if it is not `NULL` -/
def freeOpt (x : Option Nat) (m : M) : Option M :=
  match x with
  | none => some m
  | some x => free x m

/-- several blocks one after the other -/
def freeList : List Nat → M → Option M
  | [], m => some m
  | x :: l, m => (free x m).bind (freeList l)

/-- `points_free_deep`, obj/point.c:44-51 (`point_free` 21-35, `points_free` 37-42): the first `n` entries, then the array -/
def pointsFreeDeep (p : Option (Nat × List (Option Nat))) (n : Nat) (m : M) : Option M :=
  match p with
  | none => some m
  | some (a, l) => if l.length < n then none else (freeList ((l.take n).filterMap id) m).bind (free a)

/-- `subgroup_free_deep`, obj/subgroup.c:36-41 (`subgroup_free` 26-34) -/
def subgroupFreeDeep (s : Option Sub) (m : M) : Option M :=
  match s with
  | none => some m
  | some s => (pointsFreeDeep s.points s.npoints m).bind fun m => (freeOpt s.gen m).bind (free s.id)

/-- the loop of `subgroups_free_deep`, obj/subgroup.c:52-54 -/
def subgroupsLoop : List (Option Sub) → M → Option M
  | [], m => some m
  | s :: l, m => (subgroupFreeDeep s m).bind (subgroupsLoop l)

/-- `subgroups_free_deep`, obj/subgroup.c:50-57 -/
def subgroupsFreeDeep (g : Option (Nat × List (Option Sub))) (n : Nat) (m : M) : Option M :=
  match g with
  | none => some m
  | some (a, l) => if l.length < n then none else (subgroupsLoop (l.take n) m).bind (free a)

/-- `seed_free`, gen/seed.c:36-62 -/
def seedFree (s : Option Seed) (m : M) : Option M :=
  match s with
  | none => some m
  | some s => (freeList s.parts m).bind (free s.id)

/-- `curve_free`, obj/curve.c:36-65 -/
def curveFree (m : M) : Option M :=
  (seedFree m.cur.seed m).bind fun m =>
  (subgroupsFreeDeep m.cur.gens m.cur.ngens m).bind fun m =>
  (freeOpt m.cur.crv m).bind fun m => free m.cur.id m

/-- `curve_new`, obj/obj.h:8 -/
def curveNew (m : M) : M :=
  let r := alloc m
  { r.2 with cur := { id := r.1, seed := none, crv := none, gens := none, ngens := 0 } }

/-! ### assignments of the generators -/

/-- `curve->seed` is set to a new seed; with `hash` its block of the hash, `bits` its bits -/
def putSeed (n : Nat) (m : M) : Option M :=
  let r := alloc m
  let k := r.2.next
  some { r.2 with live := fun x => if k ≤ x ∧ x < k + n then true else r.2.live x, next := k + n,
                  cur := { r.2.cur with seed := some { id := r.1, parts := (List.range n).map (k + ·) } } }

/-- `curve->seed->seed = bits_from_i(…)`, family.c:83, 91 -/
def addPart (m : M) : Option M :=
  match m.cur.seed with
  | none => none
  | some s =>
    let r := alloc m
    some { r.2 with cur := { r.2.cur with seed := some { s with parts := s.parts ++ [r.1] } } }

/-- `curve->curve = …` -/
def putCrv (m : M) : Option M :=
  let r := alloc m
  some { r.2 with cur := { r.2.cur with crv := some r.1 } }

/-- the end of `twist_rand`, twists.c:35-36 -/
def dropForTwist (m : M) : Option M :=
  (seedFree m.cur.seed m).bind fun m =>
  (subgroupsFreeDeep m.cur.gens m.cur.ngens m).bind fun m =>
  some { m with cur := { m.cur with seed := none, gens := none } }

/-- `curve->generators = subgroups_new(len)`; `subgroups_new` (obj/obj.h:19-21) allocates `len * sizeof(subgroup_t)` bytes, which is room
for three times as many pointers, all zero -/
def putGens (len : Nat) (m : M) : Option M :=
  let r := alloc m
  some { r.2 with cur := { r.2.cur with gens := some (r.1, List.replicate (3 * len) none) } }

/-- `curve->ngens = len` -/
def putNgens (len : Nat) (m : M) : Option M := some { m with cur := { m.cur with ngens := len } }

/-- `curve->generators[i] = s` -/
def setSub (i : Nat) (s : Sub) (m : M) : Option M :=
  match m.cur.gens with
  | none => none
  | some (a, l) => if i < l.length then some { m with cur := { m.cur with gens := some (a, l.set i (some s)) } } else none

/-- `curve->generators[i] = subgroup_new()`, `brainpool.c:236-237` -/
def putBareSub (i : Nat) (m : M) : Option M :=
  let r := alloc m
  setSub i { id := r.1, gen := none, npoints := 0, points := none } r.2

/-- `curve->generators[i] = gens_point(…)`, gens.c:12-20, 27 -/
def putSub (i : Nat) (m : M) : Option M :=
  let r := alloc m
  let q := alloc r.2
  setSub i { id := r.1, gen := some q.1, npoints := 0, points := none } q.2

/-- `curve->generators[i]`, which must not be `NULL` where it is dereferenced -/
def getSub (i : Nat) (m : M) : Option Sub :=
  match m.cur.gens with
  | none => none
  | some (_, l) => (l[i]?).join

/-- `sub->generator = point_new()`, brainpool.c:238-239, nums.c:96-97 -/
def putGenerator (i : Nat) (m : M) : Option M :=
  (getSub i m).bind fun s => let r := alloc m; setSub i { s with gen := some r.1 } r.2

/-- `subgroup->npoints = n` -/
def putNpoints (i n : Nat) (m : M) : Option M := (getSub i m).bind fun s => setSub i { s with npoints := n } m

/-- `subgroup->points = points_new(n)` (obj/obj.h:19-21, room for `3 n` pointers) -/
def putPoints (i n : Nat) (m : M) : Option M :=
  (getSub i m).bind fun s => let r := alloc m; setSub i { s with points := some (r.1, List.replicate (3 * n) none) } r.2

/-- `subgroup->points[j] = point` -/
def putPoint (i j : Nat) (m : M) : Option M :=
  (getSub i m).bind fun s =>
    match s.points with
    | none => none
    | some (a, l) =>
      if j < l.length then
        let r := alloc m
        setSub i { s with points := some (a, l.set j (some r.1)) } r.2
      else none

/-- the entries of an array that `points_from_orders` (point.c:66-94) fills: a new point where the order divides -/
def fillPoints : List Bool → Nat → List (Option Nat)
  | [], _ => []
  | true :: l, k => some k :: fillPoints l (k + 1)
  | false :: l, k => none :: fillPoints l k

/-- `subgroup->points = points_from_orders(…)`, point.c:128, 140, 151, 163 -/
def putFilled (i : Nat) (which : List Bool) (m : M) : Option M :=
  (getSub i m).bind fun s =>
    let r := alloc m
    let k := r.2.next
    let n := which.count true
    setSub i { s with points := some (r.1, fillPoints which k ++ List.replicate (2 * which.length) none) }
      { r.2 with live := fun x => if k ≤ x ∧ x < k + n then true else r.2.live x, next := k + n }

/-! ### the generators -/

inductive SeedKind | none | hashed | bare | family
  deriving DecidableEq, Repr
inductive CurveKind | any | twist
  deriving DecidableEq, Repr
inductive GensKind | put | cofactor | base
  deriving DecidableEq, Repr
inductive PointsKind | skip | single | random | orders
  deriving DecidableEq, Repr

/-- which generators a run uses: `hashed` are the ANSI seeds (seed and hash), `bare` the Brainpool ones; `put` is `gens_gen_any` and
`gens_gen_one`, `base` are `brainpool_gen_gens` and `nums_gen_gens`; `orders` stands for `points_gen_prime`, `points_gen_allgroups` and
`points_gen_nonprime` -/
structure Cfg where
  seed : SeedKind
  curve : CurveKind
  gens : GensKind
  points : PointsKind
  deriving DecidableEq, Repr

/-- how a call of a generator goes. `fail s`: at stage `s` it returns this value, before it has allocated anything (as all generators do). `cut`:
the timer cuts it off after so many assignments, so many blocks are lost. `len`: the number of generators PARI finds. `which`: the one
`point_gen_random` chooses (modulo their number). `counts`, `orders`: the points for each generator (`none`: no list of orders). `check s`: what
the validators of stage `s` say if they refuse. -/
structure Pick where
  fail : Nat → Option Int
  cut : Option (Nat × Nat)
  len : Nat
  which : Nat
  counts : List Nat
  orders : List (Option (List Bool))
  check : Nat → Option Int

/-- the assignments of `points_gen_random` for generator `i`, point.c:41-62 -/
def randomFor (i n : Nat) : List (M → Option M) :=
  if n = 0 then [putNpoints i 0] else putNpoints i n :: putPoints i n :: (List.range n).map (putPoint i)

/-- the assignments of the generators that make points of given orders, for generator `i`, point.c:136-165 -/
def ordersFor (i : Nat) : Option (List Bool) → List (M → Option M)
  | none => []
  | some w => [putNpoints i w.length, putFilled i w]

/-- the assignments of the generator of a stage: seeds (ansi.c:39-72, brainpool.c:68-101, family.c:76-93), curves (curve.c:8-47),
generators (gens.c:22-29, 65-96; brainpool.c:233-239; nums.c:91-97), points (point.c:11-63, 134-167) -/
def prog (C : Cfg) (s : Nat) (p : Pick) (ngens : Nat) : List (M → Option M) :=
  match s with
  | 0 =>
    match C.seed with
    | .none => []
    | .hashed => [putSeed 2]
    | .bare => [putSeed 1]
    | .family => [putSeed 0, addPart]
  | 4 =>
    match C.curve with
    | .any => [putCrv]
    | .twist => [putCrv, dropForTwist]
  | 6 =>
    match C.gens with
    | .put => putGens p.len :: putNgens p.len :: (List.range p.len).map putSub
    | .cofactor => putNgens (p.len + 1) :: putGens (p.len + 1) :: ((List.range p.len).map fun i => putSub (i + 1)) ++ [putSub 0]
    | .base => [putGens 1, putNgens 1, putBareSub 0, putGenerator 0]
  | 7 =>
    match C.points with
    | .skip => []
    | .single => [putNpoints (p.which % ngens) 1, putPoints (p.which % ngens) 1, putPoint (p.which % ngens) 0]
    | .random => (List.range ngens).flatMap fun i => randomFor i (p.counts.getD i 0)
    | .orders => (List.range ngens).flatMap fun i => ordersFor i (p.orders.getD i none)
  | _ => []

/-- assignments one after the other -/
def runProg : List (M → Option M) → M → Option M
  | [], m => some m
  | f :: l, m => (f m).bind (runProg l)

/-- blocks that nobody refers to -/
def lose (n : Nat) (m : M) : M :=
  { m with live := fun x => if m.next ≤ x ∧ x < m.next + n then true else m.live x, next := m.next + n }

/-- the world: the memory (`none` after undefined behaviour) and how the calls to come will go -/
structure W where
  mem : Option M
  tape : Nat → Pick
  pos : Nat

/-- a call of the generator of a stage -/
def genStage (C : Cfg) (s : Nat) (w : W) : W × GenRes :=
  let p := w.tape w.pos
  match w.mem with
  | none => (w, .ret INT_MIN)
  | some m =>
    match p.fail s with
    | some d => ({ w with pos := w.pos + 1 }, .ret d)
    | none =>
      match p.cut with
      | some (k, e) => ({ w with mem := (runProg ((prog C s p m.cur.ngens).take k) m).map (lose e), pos := w.pos + 1 }, .timeout)
      | none => ({ w with mem := runProg (prog C s p m.cur.ngens) m }, .ret 1)

/-- `curve_unroll`, curve.c:55-61 -/
def curveUnroll (m : M) : Option M :=
  (freeOpt m.cur.crv m).map fun m => { m with cur := { m.cur with crv := none } }

/-- `gens_unroll`, gens.c:134-139 -/
def gensUnroll (m : M) : Option M :=
  (subgroupsFreeDeep m.cur.gens m.cur.ngens m).map fun m => { m with cur := { m.cur with gens := none } }

/-- `seed_unroll`, gen/seed.c:64-67 -/
def seedUnroll (m : M) : Option M :=
  (seedFree m.cur.seed m).map fun m => { m with cur := { m.cur with seed := none } }

/-- the loop of `points_unroll`, point.c:176-179: from generator `i`, `n` of them -/
def pointsUnrollLoop : Nat → Nat → M → Option M
  | _, 0, m => some m
  | i, n + 1, m =>
    (getSub i m).bind fun s =>
    (pointsFreeDeep s.points s.npoints m).bind fun m =>
    (setSub i { s with points := none } m).bind (pointsUnrollLoop (i + 1) n)

/-- `points_unroll`, point.c:174-182 -/
def pointsUnroll (m : M) : Option M :=
  match m.cur.gens with
  | none => some m
  | some _ => pointsUnrollLoop 0 m.cur.ngens m

/-- an operation on the memory, on the world -/
def onMem (f : M → Option M) (w : W) : W := { w with mem := w.mem.bind f }

/-- the setup of the engine: the cleanups are those of `exhaustive_uinit`, exhaustive.c:328-341. All the validators of a stage are one. -/
def setup (C : Cfg) : Setup W where
  gen := genStage C
  checks s := [fun w => ({ w with pos := w.pos + 1 }, ((w.tape w.pos).check s).getD 1)]
  unroll s :=
    match s with
    | 0 => some (onMem (if C.seed = .none then some else seedUnroll))
    | 4 => some (onMem curveUnroll)
    | 6 => some (onMem gensUnroll)
    | 7 => some (onMem pointsUnroll)
    | 8 => none
    | _ => some id

/-- `exhaustive_generate`, exhaustive.c:466-488: `count` curves, each released after it is printed or when the search has failed; `none`:
the budget for a search was used up -/
def generate (C : Cfg) (fuel : Nat) : Nat → W → Option W
  | 0, w => some w
  | n + 1, w =>
    match gen (setup C) 0 9 fuel { w with mem := w.mem.map curveNew } with
    | none => none
    | some (r, st) =>
      let w' := { st.w with mem := st.w.mem.bind curveFree }
      if r = 0 then some w' else generate C fuel n w'

end Ecgen.Own
