import Verif.Stack.Model
import Verif.Cli.Setup

/-!
# The generators, checks and cleanup functions as programs over PARI's stack

One function body per C function, with the same operations on `avma` in the same places. `L n` are local variables; positions 9 to 15 are local
variables of type `pari_sp`. A function that falls through returns 1.

Simplifications: PARI's own functions are `call`s; conditions on numbers are `choice`s; the branches on the field, which is the same in the
whole run, are choices too; universal constants and the clones made before the search (the tables of `family.c`) have no blocks. Where the code tests
for a null pointer returned by PARI, the model has a choice; where it does not (`Fp_invsafe` at ansi.c:126, `anomalous_c` at anomalous.c:112, the
empty entry of the table of `anomalous.c`), PARI is taken to return a number. The timer cuts between operations, not within one. Loops `while (true)`
may also end on the tape; the function then returns `INT_MIN`. What PARI caches in a curve object besides the order and the generators is not
modelled. The two `return -7` of `metadata_gen` (neither kind of field) are left out.
-/

namespace Ecgen.Stack.Prog
open Ecgen.Engine (INT_MIN)

abbrev L (n : Nat) : Slot := .loc n
def call (d : Slot) (xs : List Slot) : Stmt := .op (.call d xs)
def copy (d x : Slot) : Stmt := .op (.copy d x)
def part (d x : Slot) : Stmt := .op (.part d x)
def const (d : Slot) : Stmt := .op (.const d)
def set (d : Slot) (xs : List Slot) : Stmt := .op (.set d xs)
def null (d : Slot) : Stmt := .op (.null d)
def read (xs : List Slot) : Stmt := .op (.read xs)
def readIf (x : Slot) : Stmt := .op (.readIf x)
def save (k : Nat) : Stmt := .op (.save k)
def restore (k : Nat) : Stmt := .op (.restore k)
def keep (k : Nat) (xs : List Slot) : Stmt := .op (.keep k xs)
def card (d : Slot) : Stmt := .op (.card d)
def cacheGens (d : Slot) : Stmt := .op (.cacheGens d)
def insert (x : Slot) : Stmt := .op (.insert x)
def insertClone (x : Slot) : Stmt := .op (.insertClone x)
def objFree : Stmt := .op .objFree
def statNew : Stmt := .op .statNew
def statDrop : Stmt := .op .statDrop
def statRead : Stmt := .op .statRead

/-- `if (…) p` -/
def may (p : Stmt) : Stmt := .choice p .skip
/-- `avma = top; return d;` -/
def back (k : Nat) (d : Int) : Stmt := .seq (restore k) (.ret d)
/-- `if (…) { avma = top; return d; }` -/
def refuse (k : Nat) (d : Int) : Stmt := may (back k d)
/-- `do p while (…)` -/
def doWhile (p : Stmt) : Stmt := .seq p (.loop p)

/-! ## helpers -/

/-- `d = f(…)` where `f` notes the position, computes and ends with `return gerepilecopy(ltop, …)`: `random_int` (random.c:59-64), `random_range`
(66-74), `bits_to_i` (bits.c:150-161), `field_ielement` (field.c:165-179), `poly_find_gen`, `subgroups_2n_factors` (subgroup.c:44-71) -/
def fill (d : Slot) (xs : List Slot) : Stmt :=
  seqs [save 12, call (L 11) xs, call (L 10) (L 11 :: xs), keep 12 [L 10], set d [L 10]]

/-- a function that notes the position, computes and ends with `avma = ltop`, without a number as result: `bits_from_i` (bits.c:70-83),
`bits_from_i_len` (85-102), `seed_wv` (brainpool.c:22-28), `brainpool_update_seed` (30-38), `brainpool_hash` (40-60) -/
def scratch (xs : List Slot) : Stmt := seqs [save 12, call (L 11) xs, call (L 10) (L 11 :: xs), restore 12]

/-- `random_prime`, random.c:44-57 -/
def randomPrime (d : Slot) : Stmt :=
  seqs [save 12, call (L 11) [], save 13, doWhile (seqs [call (L 10) [L 11], keep 13 [L 10], read [L 10]]), keep 12 [L 10], set d [L 10]]

/-- `input_int`, `input_prime`, `input_short`, `input_string` (input.c): a new number, or `gen_m1`, `gen_m2` -/
def input (d : Slot) : Stmt := .choice (fill d []) (const d)

/-! ## ansi.c -/

/-- `seed_tsh` (30-37) and `curve->seed = seed` -/
def seedTsh : Stmt :=
  seqs [save 9, call (L 0) [], call (L 1) [L 0], call (L 2) [L 0, L 1], keep 9 [L 0, L 1, L 2], set .z [L 0, L 1, L 2]]

/-- 39-46 -/
def ansiSeedRandom : Stmt := seqs [fill (L 3) [], scratch [L 3], seedTsh]
/-- 48-55 -/
def ansiSeedArgument : Stmt := seedTsh
/-- 57-74 -/
def ansiSeedInput : Stmt := seqs [save 10, call (L 3) [], read [L 3], refuse 10 0, seedTsh]

/-- `seed_process`, 76-106 -/
def seedProcess : Stmt :=
  seqs [save 10, read [.z], fill (L 0) [], call (L 1) [],
    .loop (seqs [save 11, call (L 2) [L 0], call (L 2) [L 2, L 1], scratch [L 2], restore 11]), restore 10]

/-- `ansi_gen_equation_fp`, 108-143 -/
def ansiEquationFp : Stmt :=
  seqs [save 9, read [.z], seedProcess, read [.z], const (L 0), .loop (call (L 0) [L 0]), set .r [L 0], call (L 1) [L 0, .field],
    doWhile (seqs [fill (L 2) [], call (L 3) [L 2, L 1], read [L 3, .field]]), call (L 4) [L 3, .field], set .a [L 2], set .b [L 4],
    keep 9 [.r, .a, .b]]

/-- `ansi_gen_equation_f2m`, 145-164 -/
def ansiEquationF2m : Stmt :=
  seqs [save 9, read [.z], seedProcess, fill (L 0) [], read [L 0], refuse 9 (-3), fill (L 1) [], fill (L 2) [.field, L 1], set .a [L 2],
    fill (L 3) [.field, L 0], set .b [L 3], keep 9 [.a, .b]]

/-- 166-176 -/
def ansiEquation : Stmt := .choice ansiEquationFp ansiEquationF2m

/-! ## brainpool.c -/

/-- 67-73 and 75-81: the seed has no numbers yet -/
def brainpoolSeed : Stmt := scratch []
/-- 83-99 -/
def brainpoolSeedInput : Stmt := seqs [save 9, call (L 0) [], read [L 0], refuse 9 0, scratch []]

/-- one round of the outer loop of `brainpool_gen_field` up to the last check, 105-130; `L 1` is `p`. The inner loop (115-120): its first round
takes `p = c`; in the others `avma = bbtop` comes before `p` is used. -/
def brainpoolFieldRound : Stmt :=
  seqs [may (scratch []), scratch [], fill (L 0) [], set (L 1) [L 0], save 11, call (L 2) [L 1], call (L 1) [L 2], read [L 1],
    .again (seqs [restore 11, call (L 2) [L 1], call (L 1) [L 2], read [L 1]]), call (L 3) [], call (L 4) [], read [L 1, L 3, L 4]]

/-- 101-143 -/
def brainpoolField : Stmt :=
  seqs [save 10, .loop (seqs [brainpoolFieldRound, scratch [], restore 10]), brainpoolFieldRound, copy .field (L 1), keep 10 [.field]]

/-- `a`, its inverse and the fourth root, 150-173: `p` is what follows if they exist -/
def brainpoolA (p : Stmt) : Stmt :=
  seqs [may (scratch []), scratch [], fill (L 0) [], call (L 1) [L 0, .field],
    .choice (seqs [scratch [], restore 10])
      (seqs [call (L 2) [L 1, .field], call (L 2) [L 2, .field], .choice (seqs [scratch [], restore 10]) p])]

/-- 190-204 and brainpool_rfc.c:77-91: `p` is what follows if the curve is not singular -/
def brainpoolAB (p : Stmt) : Stmt :=
  seqs [call (L 4) [L 0, .field], call (L 5) [L 3, .field], call (L 6) [L 4, L 5], read [L 6], .choice (seqs [scratch [], restore 10]) p]

/-- 202-205: the round that succeeds ends the loop -/
def brainpoolDone : Stmt := seqs [set .a [L 4], set .b [L 5], keep 10 [.a, .b], .ret 1]

/-- one round of `brainpool_gen_equation`, 150-206 -/
def brainpoolEquationRound (p : Stmt) : Stmt :=
  brainpoolA (seqs [scratch [], scratch [], fill (L 3) [], read [L 3, .field], .choice (seqs [scratch [], restore 10]) (brainpoolAB p)])

/-- 145-210: rounds until one succeeds -/
def brainpoolEquation : Stmt := seqs [save 10, .loop (brainpoolEquationRound brainpoolDone), .ret INT_MIN]

/-- 212-255 -/
def brainpoolGens : Stmt :=
  seqs [save 9, scratch [], scratch [], fill (L 0) [], const (L 1), call (L 2) [.crv, L 1],
    .loop (seqs [read [L 2], call (L 1) [L 1], call (L 2) [.crv, L 1]]), read [L 2], refuse 9 INT_MIN, call (L 3) [L 1, L 2],
    const .gens, call (L 4) [.crv, L 3, L 0], set .gens [.gens, L 4], call (L 5) [.crv, L 4], set .gens [.gens, L 5],
    call (L 6) [.order, L 5], set .gens [.gens, L 6], set .mult [L 0], keep 9 [.gens, .mult]]

/-- `brainpool_check_gens`, 257-267 -/
def brainpoolCheckGens : Stmt :=
  seqs [save 15, call (L 0) [.gens], call (L 1) [.field, .gens], read [L 0, L 1], refuse 15 (-5), restore 15]

/-- `brainpool_check_order`, 269-275 -/
def brainpoolCheckOrder : Stmt := seqs [read [.order, .field], may (.ret (-4))]

/-! ## brainpool_rfc.c -/

/-- one round of `brainpool_rfc_gen_equation`, 37-93. The loop at 64-73 gives back each `b` before it makes the next. -/
def brainpoolRfcRound (p : Stmt) : Stmt :=
  brainpoolA (seqs [save 11, scratch [], scratch [], fill (L 3) [], read [L 3, .field],
    .loop (seqs [restore 11, scratch [], scratch [], fill (L 3) [], read [L 3, .field]]), brainpoolAB p])

/-- 32-97 -/
def brainpoolRfcEquation : Stmt := seqs [save 10, .loop (brainpoolRfcRound brainpoolDone), .ret INT_MIN]

/-! ## nums.c -/

/-- 11-22 -/
def numsField : Stmt :=
  seqs [save 9, call (L 0) [], call (L 1) [], call (L 2) [L 0, L 1], .loop (seqs [read [L 2], call (L 1) [L 1], call (L 2) [L 0, L 1]]),
    read [L 2], keep 9 [L 2], set .field [L 2]]

/-- 24-27 -/
def numsA : Stmt := seqs [call (L 0) [], call (L 1) [L 0, .field], set .a [L 1]]

/-- 29-61 -/
def numsB : Stmt :=
  seqs [save 9,
    .ifStat (seqs [statNew, call (L 0) [.field], set .b [L 0]])
      (.choice
        (seqs [statRead, call (L 0) [], statDrop, statNew, call (L 1) [L 0, .field], keep 9 [L 1], set .b [L 1]])
        (seqs [statDrop, statNew, call (L 1) [.field], keep 9 [L 1], set .b [L 1]]))]

/-- 63-76 -/
def numsOrder : Stmt :=
  seqs [save 9, call (L 0) [.crv], call (L 1) [.field, L 0], call (L 2) [L 0, L 1], read [L 0, L 2], refuse 9 (-2), keep 9 [L 0],
    set .order [L 0], insert .order]

/-- 78-104 -/
def numsGens : Stmt :=
  seqs [save 9, call (L 0) [], call (L 1) [.crv, L 0], .loop (seqs [read [L 1], call (L 0) [L 0], call (L 1) [.crv, L 0]]),
    call (L 2) [L 0, .field, L 1], const .gens, set .gens [.gens, L 2], call (L 3) [.crv, L 2], set .gens [.gens, L 3],
    call (L 4) [.order, L 3], set .gens [.gens, L 4], keep 9 [.gens]]

/-! ## family.c -/

/-- 77-85 -/
def familySeedRandom : Stmt := seqs [null .z, fill (L 0) [], set .z [L 0], read [.z], scratch [.z]]
/-- 87-93 -/
def familySeedInput : Stmt := seqs [input (L 0), null .z, set .z [L 0], scratch [.z]]

/-- 95-110 -/
def familyField : Stmt :=
  seqs [save 9, call (L 0) [.z], call (L 1) [L 0], read [L 1], refuse 9 (-1), call (L 2) [L 0], read [L 2], refuse 9 (-1), keep 9 [L 1],
    set .field [L 1]]

/-- 112-140 -/
def familyEquationIter : Stmt :=
  seqs [call (L 0) [.field], set .a [L 0], save 9,
    .ifStat (seqs [statNew, call (L 0) [.field], set .b [L 0]])
      (.choice
        (seqs [statRead, call (L 0) [], statDrop, statNew, call (L 1) [L 0, .field], keep 9 [L 1], set .b [L 1]])
        (seqs [statDrop, statNew, call (L 1) [.field], keep 9 [L 1], set .b [L 1]]))]

/-- `cm_construct_curve_subgroup(L 1, D, field)`, cm_any.c:214-248, with the result in `L 5`, and family.c:147-152 -/
def familyEquationCm : Stmt :=
  seqs [call (L 0) [.z], call (L 1) [L 0], save 10, call (L 2) [], call (L 3) [L 2, .field], read [L 3], refuse 10 (-3), save 11,
    .loop (seqs [part (L 4) (L 3), call (L 5) [L 4, .field], call (L 6) [L 5],
      .choice (restore 11)
        (seqs [read [L 6, L 1], .choice (seqs [keep 10 [L 5], part .a (L 5), part .b (L 5), .ret 1]) (restore 11)])]),
    back 10 (-3)]

/-- 155-172 -/
def familyOrder : Stmt :=
  seqs [save 9, call (L 0) [.z], call (L 1) [L 0], card (L 2), read [L 2, L 1],
    .choice
      (.ifClone (L 2) (seqs [set (L 3) [L 2], keep 9 [L 3], set .order [L 3]]) (seqs [restore 9, set .order [L 2]]))
      (back 9 (-2))]

/-! ## field.c -/

/-- 23-34 -/
def fieldRandom : Stmt := .choice (seqs [randomPrime (L 0), set .field [L 0]]) (seqs [fill (L 0) [], set .field [L 0]])

/-- 36-100 -/
def fieldInput : Stmt :=
  .seq (save 9) (.choice
    (seqs [input (L 0), read [L 0], refuse 9 0, refuse 9 INT_MIN, set .field [L 0]])
    (seqs [input (L 0), read [L 0], refuse 9 0, input (L 1), read [L 1, L 0], refuse 9 0, input (L 2), read [L 2, L 0], refuse 9 0,
      input (L 3), read [L 3, L 0], refuse 9 0, read [L 1, L 2, L 3], refuse 9 0, call (L 4) [], read [L 0, L 1, L 2, L 3],
      call (L 5) [L 4], read [L 5], refuse 9 0, call (L 6) [L 5], keep 9 [L 6], set .field [L 6]]))

/-! ## equation.c -/

/-- 9-12 -/
def aRandom : Stmt := seqs [call (L 0) [.field], set .a [L 0]]
/-- 14-32 -/
def aInput : Stmt :=
  seqs [save 9, input (L 0), read [L 0], refuse 9 0, refuse 9 INT_MIN, call (L 1) [.field, L 0], refuse 9 0, set .a [L 1]]
/-- 53-61 -/
def aConst : Stmt := const .a
/-- 63-66 -/
def bRandom : Stmt := seqs [call (L 0) [.field], set .b [L 0]]
/-- 68-86 -/
def bInput : Stmt :=
  seqs [save 9, input (L 0), read [L 0], refuse 9 0, refuse 9 INT_MIN, call (L 1) [.field, L 0], refuse 9 0, set .b [L 1]]
/-- 112-115 -/
def bOne : Stmt := const .b

/-! ## curve.c and twists.c -/

/-- `curve_gen_any`, curve.c:8-35. The new curve object has an empty cache. -/
def curveAny : Stmt :=
  seqs [save 9, read [.field], call (L 0) [.a, .b], call (L 1) [L 0, .field], read [L 1], refuse 9 (-3), keep 9 [L 1], null .card, set .crv [L 1]]

/-- `twist_rand_to(what, what)`, twists.c:9-30, and the end of `twist_rand` (no generators and no seed at this point) -/
def twist : Stmt :=
  seqs [copy (L 0) .field, set .field [L 0], call (L 1) [.crv], call (L 2) [L 1, .field], null .card, set .crv [L 2], read [.field],
    part .a .crv, part .b .crv,
    .ifNull .order .skip (seqs [call (L 3) [.field], call (L 4) [L 3, .order], set .order [L 4], insert .order])]

/-- `curve_gen_any_twist`, curve.c:37-45 -/
def curveAnyTwist : Stmt := .seq curveAny twist

/-- `curve_check_nonzero`, curve.c:47-53 -/
def curveNonzero : Stmt := seqs [read [.crv], may (.ret (-3))]

/-! ## order.c -/

/-- 24-34 -/
def orderAny : Stmt :=
  seqs [save 9, card (L 0), .ifClone (L 0) (seqs [set (L 1) [L 0], keep 9 [L 1], set .order [L 1]]) (seqs [restore 9, set .order [L 0]])]

/-- 49-67 -/
def orderCofactor : Stmt :=
  seqs [save 9, card (L 0), call (L 1) [], read [L 0, L 1], refuse 9 (-4), call (L 2) [L 0], read [L 2], refuse 9 (-4), set (L 3) [L 0],
    keep 9 [L 3], set .order [L 3], insert .order]

/-- 69-90: what is inserted is the number from the cache -/
def orderSmooth : Stmt :=
  seqs [save 9, card (L 0), call (L 1) [L 0], part (L 2) (L 1), .loop (seqs [call (L 3) [L 2], read [L 3], refuse 9 (-4)]), set (L 4) [L 0],
    keep 9 [L 4], set .order [L 4], insert (L 0)]

/-- 92-103 -/
def orderPrime : Stmt := seqs [save 9, call (L 0) [.crv], read [L 0], refuse 9 (-4), keep 9 [L 0], set .order [L 0], insert .order]

/-- 105-121 -/
def orderKoblitz : Stmt :=
  seqs [save 9, read [.a],
    .choice (seqs [call (L 0) [], keep 9 [L 0], set .order [L 0], insert .order])
      (seqs [card (L 0), .ifClone (L 0) (seqs [set (L 1) [L 0], keep 9 [L 1], set .order [L 1]]) (seqs [restore 9, set .order [L 0]])])]

/-! ## gens.c -/

/-- `gens_point`, 12-20, of a component of `L 0` -/
def gensPoint : Stmt :=
  seqs [part (L 1) (L 0), copy (L 2) (L 1), call (L 3) [.crv, L 2], call (L 4) [.order, L 3], set .gens [.gens, L 2, L 3, L 4]]

/-- `ellff_get_gens`, which computes the order first -/
def getGens : Stmt := seqs [card (L 5), cacheGens (L 0)]

/-- 32-36 with `gens_put`, 22-30 -/
def gensAny : Stmt := seqs [getGens, read [L 0], const .gens, .loop gensPoint]

/-- 38-47 -/
def gensOne : Stmt := seqs [save 9, getGens, read [L 0], refuse 9 (-5), const .gens, .loop gensPoint]

/-- 80-89: after the loop, with the point found in `L 6` to `L 8` -/
def gensCofactorPut : Stmt := seqs [const .gens, .loop gensPoint, set .gens [.gens, L 6, L 7, L 8], .ret 1]

/-- 49-94 -/
def gensCofactor : Stmt :=
  seqs [save 9, call (L 9) [.order], getGens, read [L 0],
    .loop (seqs [part (L 1) (L 0), call (L 7) [.crv, L 1], read [L 9, L 7],
      .choice (seqs [copy (L 6) (L 1), call (L 8) [], gensCofactorPut]) .skip,
      .choice (seqs [call (L 7) [L 7], call (L 6) [.crv, L 1], copy (L 6) (L 6), call (L 8) [], gensCofactorPut]) .skip]),
    back 9 (-5)]

/-- `gens_check_anomalous`, 96-104 -/
def gensAnomalous : Stmt := .choice .skip (seqs [read [.field, .gens], may (.ret (-5))])

/-! ## point.c -/

/-- 11-24 -/
def pointRandom : Stmt :=
  seqs [call (L 0) [], fill (L 1) [L 0], read [L 1], fill (L 2) [.gens], call (L 3) [.crv, .gens, L 2], call (L 4) [.crv, L 3],
    set .pts [.pts, L 3, L 4]]

/-- 26-65 -/
def pointsRandom : Stmt :=
  seqs [.loop (seqs [call (L 0) [], fill (L 1) [L 0], read [L 1]]),
    .loop (.loop (seqs [read [.gens],
      .choice (seqs [copy (L 3) .gens, call (L 4) []]) (seqs [fill (L 2) [.gens], call (L 3) [.crv, .gens, L 2], call (L 4) [.crv, L 3]]),
      set .pts [.pts, L 3, L 4]]))]

/-- `points_from_orders`, 67-93, of the orders in `L 0`, and the assignment of its result -/
def pointsFromOrders : Stmt :=
  seqs [read [L 0], const (L 5),
    .loop (seqs [save 11, part (L 1) (L 0), read [.gens, L 1],
      .choice .skip (seqs [.choice (copy (L 3) .gens) (seqs [call (L 2) [.gens, L 1], call (L 3) [.crv, .gens, L 2]]), read [.crv, L 3, L 1],
        keep 11 [L 3], set (L 5) [L 5, L 3], copy (L 4) (L 1), set (L 5) [L 5, L 4]])]),
    set .pts [.pts, L 5]]

/-- 139-148, `subgroups_prime` of subgroup.c:73-79 -/
def pointsPrime : Stmt :=
  .loop (seqs [read [.gens], .choice (call (L 0) [.gens]) (seqs [call (L 1) [.gens], call (L 0) [L 1]]), pointsFromOrders])

/-- 150-159, `subgroups_all` of subgroup.c:89-95 -/
def pointsAll : Stmt :=
  .loop (seqs [read [.gens], .choice (call (L 0) [.gens]) (seqs [call (L 1) [.gens], fill (L 0) [L 1]]), pointsFromOrders])

/-- 161-172, `subgroups_nonprime` of subgroup.c:81-87 -/
def pointsNonprime : Stmt :=
  .loop (seqs [read [.gens], .choice .skip (seqs [call (L 1) [.gens], fill (L 0) [L 1], pointsFromOrders])])

/-- 95-137. (The generators that get points are the same in each attempt, so the points of an attempt that was cut off are all replaced.) -/
def pointsTrial : Stmt :=
  seqs [call (L 6) [], const (L 7), .loop (.loop (seqs [part (L 8) (L 6), read [.gens, L 8], may (call (L 7) [L 7, L 8])])), null .pts,
    .loop (seqs [set (L 0) [L 7], pointsFromOrders])]

/-! ## metadata.c, hex.c -/

/-- 9-46 -/
def metadata : Stmt :=
  seqs [save 9, call (L 0) [.crv], call (L 1) [.crv],
    .choice
      (seqs [call (L 2) [.field, .order], call (L 3) [.field, .order], call (L 4) [L 3, .field], copy (L 5) (L 4), copy (L 6) (L 4),
        keep 9 [L 0, L 1, L 2, L 3, L 5, L 6], null .data, set .data [L 0, L 1, L 2, L 3, L 5, L 6]])
      (seqs [call (L 2) [.field], call (L 3) [L 2, .order], keep 9 [L 0, L 1, L 3], null .data, set .data [L 0, L 1, L 3]])]

/-- `hex_check_param` after the points, hex.c:43-124 -/
def hexParam : Stmt := seqs [read [.field], read [.a], read [.b], read [.order], read [.gens], readIf .pts, may (.ret (-6))]

/-! ## cm_prime.c, cm_any.c -/

/-- `add_primes(r, order, &Sp, nprimes)`, cm_prime.c:14-51; `L 5` are the numbers in `Sp` -/
def addPrimes : Stmt :=
  seqs [call (L 9) [L 0], call (L 10) [L 4, L 9], .loop (seqs [call (L 9) [L 10], read [L 0, L 9],
    may (seqs [call (L 11) [L 9], .choice (call (L 11) [L 9]) (copy (L 11) (L 9)), set (L 5) [L 5, L 11]])])]

/-- one value of `i` in `qdisc_next`, 83-127, if it goes on -/
def qdiscRound : Stmt :=
  seqs [read [L 3, L 8], const (L 9), scratch [L 3], .loop (call (L 9) [L 9, L 5]), call (L 10) [L 9], read [L 10, L 7, L 9],
    may (seqs [call (L 11) [L 10, L 0], may (seqs [call (L 11) [L 0, L 11], read [L 11]])]), call (L 3) [L 3], keep 9 [L 3]]

/-- the same if it returns: `L 2` is `p` and `L 1` is `D` -/
def qdiscFound : Stmt :=
  seqs [read [L 3, L 8], const (L 9), scratch [L 3], .loop (call (L 9) [L 9, L 5]), call (L 10) [L 9], read [L 10, L 7, L 9],
    call (L 11) [L 10, L 0], call (L 2) [L 0, L 11], read [L 2], set (L 1) [L 9], call (L 3) [L 3]]

/-- `qdisc_next`, 65-137. `L 0` is the order, `L 3` is `i`, `L 4` is `r`, `L 6` is `logN`, `L 7` is `rlog2`, `L 8` is `imax`. -/
def qdiscNext : Stmt :=
  seqs [call (L 6) [L 0], call (L 7) [L 4, L 6], call (L 8) [], read [L 3, L 8], may (seqs [addPrimes, call (L 8) []]), save 9,
    .loop (seqs [.loop qdiscRound, call (L 4) [L 4], addPrimes, call (L 7) [L 4, L 6], call (L 8) [], save 9]),
    .loop qdiscRound, qdiscFound]

/-- `cm_construct_curve(order, d, p, …)`, cm_any.c:136-212, of `L 0`, `L 1`, `L 2`; `p` is what follows with the curve in `L 11`, and it returns
`NULL` otherwise. `pari_CATCH` (156) goes on with the next root. -/
def constructCurve (p : Stmt) : Stmt :=
  seqs [read [L 0, L 1, L 2], save 10, call (L 9) [L 1], call (L 10) [L 9, L 2], read [L 10],
    .choice (restore 10)
      (seqs [.loop (seqs [part (L 9) (L 10), call (L 11) [L 9, L 2],
          .choice .skip (.choice
            (seqs [call (L 9) [L 11], read [L 11, L 9, L 0], .choice .skip (call (L 11) [L 11, L 2]), keep 10 [L 11], p])
            (seqs [call (L 6) [L 2, L 0], call (L 7) [L 11, L 2], call (L 8) [L 0, L 6], .loop (seqs [call (L 9) [L 11], read [L 11, L 9, L 8],
                call (L 9) [L 7], read [L 11, L 9, L 8]]),
              .choice .skip (set (L 11) [L 7]), keep 10 [L 11], p]))]),
        restore 10])]

/-- cm_prime.c:155-159 and cm_any.c:264-268 -/
def cmPut : Stmt := seqs [set .field [L 2], part .a (L 11), part .b (L 11), null .card, set .crv [L 11], .ret 1]

/-- `cm_gen_curve_prime`, cm_prime.c:141-160 -/
def cmCurvePrime : Stmt :=
  seqs [call (L 0) [], const (L 1), const (L 2), const (L 3), const (L 4), const (L 5),
    .loop (seqs [qdiscNext, constructCurve cmPut]), .ret INT_MIN]

/-- `good_qdisc_minimal`, cm_any.c:17-53: `L 1` is `D`, `L 2` is `p`, `L 3` is `d` -/
def goodQdisc : Stmt :=
  seqs [save 10, call (L 3) [],
    .loop (seqs [read [L 3], .choice (call (L 3) [L 3])
      (seqs [call (L 4) [L 3], call (L 5) [L 4], call (L 6) [L 5, L 0], .loop (seqs [part (L 7) (L 6), call (L 8) [L 5, L 7], call (L 9) [L 0, L 8], read [L 9]]),
        call (L 3) [L 3], keep 10 [L 3]])]),
    read [L 3], call (L 1) [L 3], call (L 5) [L 1], call (L 6) [L 5, L 0], part (L 7) (L 6), call (L 8) [L 5, L 7], call (L 2) [L 0, L 8], read [L 2],
    keep 10 [L 2, L 1]]

/-- `cm_gen_curve_any`, cm_any.c:250-269 -/
def cmCurveAny : Stmt := seqs [save 9, call (L 0) [], goodQdisc, constructCurve cmPut, back 9 (-3)]

/-- `cm_gen_order`, cm_any.c:271-276 -/
def cmOrder : Stmt := seqs [call (L 0) [], set .order [L 0]]

/-! ## anomalous.c, supersingular.c -/

/-- `anomalous_prime`, 40-71 -/
def anomalousPrime (d : Slot) : Stmt :=
  seqs [save 10, call (L 0) [.disc], call (L 1) [L 0, .disc], call (L 2) [L 1], save 11,
    doWhile (seqs [call (L 3) [L 2], call (L 4) [.disc, L 3], call (L 5) [L 4, L 0], keep 11 [L 5, L 0], read [L 5]]), keep 10 [L 5], set d [L 5]]

/-- 91-105 -/
def anomalousField : Stmt :=
  seqs [save 9, doWhile (seqs [anomalousPrime (L 6), keep 9 [L 6], read [.disc, L 6]]), keep 9 [L 6], set .field [L 6]]

/-- `anomalous_c`, 73-89 (the case of a null pointer is left out), and 107-122 -/
def anomalousEquation : Stmt :=
  seqs [save 9, save 10, read [.disc, .field], save 11, doWhile (seqs [call (L 0) [.field], keep 11 [L 0], read [L 0, .field]]), keep 10 [L 0],
    call (L 1) [.disc, .field], call (L 2) [.disc, .field], call (L 3) [L 1, L 2], call (L 4) [L 0, L 3], set .a [L 4], call (L 5) [L 0, L 3],
    set .b [L 5], keep 9 [.a, .b]]

/-- 124-129 -/
def anomalousOrder : Stmt := seqs [copy (L 0) .field, set .order [L 0], insertClone .order]

/-- `supersingular_gen_equation`, supersingular.c:7-38 -/
def supersingularEquation : Stmt :=
  seqs [read [.field], may (.ret (-2)), read [.field],
    may (seqs [call (L 0) [.field], set .a [L 0], call (L 0) [.field], set .b [L 0], .ret 1]), call (L 1) [],
    .loop (seqs [read [L 1, .field], call (L 1) [L 1]]), read [L 1],
    .choice (seqs [call (L 0) [.field], set .a [L 0], call (L 0) [.field], set .b [L 0]])
      (seqs [call (L 2) [L 1], call (L 3) [L 2, .field], part (L 4) (L 3), call (L 5) [L 4, .field], set .a [L 5], call (L 6) [.a], set .b [L 6]])]

/-- 40-45 -/
def supersingularOrder : Stmt := seqs [call (L 0) [.field], set .order [L 0], insertClone .order]

/-! ## all of them -/

/-- the function a generator stands for -/
def gen : Cli.Gen → Stmt
  | .skip => .skip
  | .ansiSeedArgument => ansiSeedArgument
  | .ansiSeedRandom => ansiSeedRandom
  | .ansiSeedInput => ansiSeedInput
  | .ansiEquation => ansiEquation
  | .brainpoolSeedArgument => brainpoolSeed
  | .brainpoolSeedRandom => brainpoolSeed
  | .brainpoolSeedInput => brainpoolSeedInput
  | .brainpoolField => brainpoolField
  | .brainpoolEquation => brainpoolEquation
  | .brainpoolGens => brainpoolGens
  | .brainpoolRfcSeedArgument => brainpoolSeed
  | .brainpoolRfcSeedRandom => brainpoolSeed
  | .brainpoolRfcSeedInput => brainpoolSeedInput
  | .brainpoolRfcEquation => brainpoolRfcEquation
  | .numsField => numsField
  | .numsA => numsA
  | .numsB => numsB
  | .numsOrder => numsOrder
  | .numsGens => numsGens
  | .familySeedRandom => familySeedRandom
  | .familySeedInput => familySeedInput
  | .familyField => familyField
  | .familyEquationCm => familyEquationCm
  | .familyEquationIter => familyEquationIter
  | .familyOrder => familyOrder
  | .fieldRandom => fieldRandom
  | .fieldInput => fieldInput
  | .aRandom => aRandom
  | .aInput => aInput
  | .aZero => aConst
  | .aOne => aConst
  | .bRandom => bRandom
  | .bInput => bInput
  | .bOne => bOne
  | .curveAny => curveAny
  | .curveAnyTwist => curveAnyTwist
  | .orderAny => orderAny
  | .orderPrime => orderPrime
  | .orderCofactor => orderCofactor
  | .orderSmooth => orderSmooth
  | .orderKoblitz => orderKoblitz
  | .gensAny => gensAny
  | .gensOne => gensOne
  | .gensCofactor => gensCofactor
  | .pointRandom => pointRandom
  | .pointsRandom => pointsRandom
  | .pointsPrime => pointsPrime
  | .pointsNonprime => pointsNonprime
  | .pointsAll => pointsAll
  | .pointsTrial => pointsTrial
  | .metadata => metadata
  | .cmCurvePrime => cmCurvePrime
  | .cmCurveAny => cmCurveAny
  | .cmOrder => cmOrder
  | .anomalousField => anomalousField
  | .anomalousEquation => anomalousEquation
  | .anomalousOrder => anomalousOrder
  | .supersingularEquation => supersingularEquation
  | .supersingularOrder => supersingularOrder

/-- the function a check stands for -/
def check : Cli.Check → Stmt
  | .curveNonzero => curveNonzero
  | .hexParam => hexParam
  | .brainpoolOrder => brainpoolCheckOrder
  | .gensAnomalous => gensAnomalous
  | .brainpoolGens => brainpoolCheckGens

/-- the cleanup functions by stage, exhaustive.c:328-341: `curve_unroll` (curve.c:55-61), `gens_unroll` (gens.c:134-139) with
`subgroups_free_deep`, which looks whether the numbers are clones (obj/point.c:21-51), and `points_unroll` (point.c:174-182). (That of the seed
is never called; the others are empty.) -/
def unroll : Nat → Stmt
  | 4 => .ifNull .crv .skip objFree
  | 6 => .ifNull .gens .skip (seqs [readIf .pts, read [.gens], null .gens, null .pts])
  | 7 => .ifNull .gens .skip (seqs [readIf .pts, null .pts])
  | _ => .skip

/-- `curve_new` (calloc) -/
def curveNew : Stmt :=
  seqs ([Slot.field, .a, .b, .crv, .card, .order, .z, .r, .mult, .gens, .pts, .data].map null)

/-- `output_o` of a curve, output.c:51-177 -/
def output (meta' : Bool) : Stmt :=
  seqs [save 9, read [.field], read [.a], read [.b], read [.order], readIf .gens, readIf .pts, if meta' then readIf .data else .skip, restore 9]

/-- `curve_free`, obj/curve.c:36-65 -/
def curveFree : Stmt :=
  seqs [null .z, .ifNull .gens .skip (seqs [readIf .pts, read [.gens], null .gens, null .pts]),
    .ifNull .crv .skip (.seq objFree .skip), readIf .field, readIf .a, readIf .b, readIf .order]

end Ecgen.Stack.Prog

namespace Ecgen.Stack
open Ecgen

/-- the entry of a table at a stage, `d` from stage 9 on -/
def entry {α : Type} (d : α) (t : Cli.Table α) : Nat → α
  | 0 => t.seed | 1 => t.field | 2 => t.a | 3 => t.b | 4 => t.curve | 5 => t.order | 6 => t.gens | 7 => t.points | 8 => t.metadata
  | _ => d

/-- calling a null pointer -/
def crash : Stmt := .op (.read [.loc 99])

/-- the function an entry of the table stands for -/
def genOf : Option Cli.Gen → Stmt
  | some g => Prog.gen g
  | none => crash

/-- the functions of a setup -/
def fns (s : Cli.Setup) : Fns where
  gen n := genOf (entry none s.gens n)
  check n := seqs ((entry [] s.checks n).map Prog.check)
  unroll := Prog.unroll

/-! ## a run -/

/-- `curve_new`, exhaustive.c:471 -/
def begin' (rel : Bool) (w : W) : W := (call rel Prog.curveNew w).1

/-- `output_o` and `curve_free`, exhaustive.c:479-483 -/
def finish (rel meta' : Bool) (w : W) : W := (call rel (.seq (Prog.output meta') Prog.curveFree) w).1

/-- the memory at the beginning of the rounds of the loop in `exhaustive_generate`, exhaustive.c:469-484 (cm.c:252 calls the same function) -/
inductive Rounds (rel : Bool) (F : Fns) (meta' : Bool) (w : W) : W → Prop
  | first : Rounds rel F meta' w w
  | next {w' st} : Rounds rel F meta' w w' → Reaches rel F 0 9 0 (Engine.init 0 (begin' rel w')) st → 9 ≤ st.state →
      Rounds rel F meta' w (finish rel meta' st.w)

end Ecgen.Stack
