import Verif.Cli.Model

/-!
# Model of the setup of a run

`exhaustive_ginit`, `exhaustive_cinit`, `exhaustive_ainit` (`/repo/src/exhaustive/exhaustive.c`, 46-326), `cm_ginit`, `cm_ainit`,
`cm_cinit`, `cm_init` (`/repo/src/cm/cm.c`, 21-223), the two setups of `/repo/src/invalid/invalid.c` (19-69), the choice in `main`
(`/repo/src/ecgen.c`, 122-131) and `config_report_unused` (`/repo/src/misc/config.c`, 18-122). Generators and checks are names. The
tables of unroll functions are the same for all runs but for the seed (exhaustive.c:328-341) and not modelled.
-/

namespace Ecgen.Cli

/-- the stages of the search with their generators; an unset pointer is `none` -/
structure Table (α : Type) where
  seed : α
  field : α
  a : α
  b : α
  curve : α
  order : α
  gens : α
  points : α
  metadata : α
  deriving DecidableEq, Repr

/-- the generators -/
inductive Gen where
  | skip
  | ansiSeedArgument | ansiSeedRandom | ansiSeedInput | ansiEquation
  | brainpoolSeedArgument | brainpoolSeedRandom | brainpoolSeedInput | brainpoolField | brainpoolEquation | brainpoolGens
  | brainpoolRfcSeedArgument | brainpoolRfcSeedRandom | brainpoolRfcSeedInput | brainpoolRfcEquation
  | numsField | numsA | numsB | numsOrder | numsGens
  | familySeedRandom | familySeedInput | familyField | familyEquationCm | familyEquationIter | familyOrder
  | fieldRandom | fieldInput | aRandom | aInput | aZero | aOne | bRandom | bInput | bOne
  | curveAny | curveAnyTwist
  | orderAny | orderPrime | orderCofactor | orderSmooth | orderKoblitz
  | gensAny | gensOne | gensCofactor
  | pointRandom | pointsRandom | pointsPrime | pointsNonprime | pointsAll | pointsTrial
  | metadata
  | cmCurvePrime | cmCurveAny | cmOrder
  | anomalousField | anomalousEquation | anomalousOrder
  | supersingularEquation | supersingularOrder
  deriving DecidableEq, Repr

/-- the checks -/
inductive Check where
  | curveNonzero | hexParam | brainpoolOrder | gensAnomalous | brainpoolGens
  deriving DecidableEq, Repr

/-- what the `args` of an `arg_t` point to -/
inductive Arg where
  /-- a `size_t` -/
  | size (n : Nat)
  /-- a `long` read as `pari_ulong` -/
  | long (v : Int)
  /-- a string -/
  | text (s : Str)
  /-- the counter of the anomalous method -/
  | counter
  deriving DecidableEq, Repr

/-- the kinds of arguments -/
inductive ArgKind where
  | size | long | text | counter
  deriving DecidableEq, Repr

def Arg.kind : Arg → ArgKind
  | .size _ => .size
  | .long _ => .long
  | .text _ => .text
  | .counter => .counter

/-- `exhaustive_t` without the unroll functions, and the members of `cfg_used` that are true -/
structure Setup where
  gens : Table (Option Gen)
  genArgs : Table (Option Arg)
  checks : Table (List Check)
  checkArgs : Table (Option Arg)
  used : List Name
  deriving DecidableEq, Repr

/-- a table with the same entry everywhere -/
def Table.const {α : Type} (x : α) : Table α := ⟨x, x, x, x, x, x, x, x, x⟩

/-- `cfg->random & bit` -/
def has (r bit : Nat) : Bool := r &&& bit ≠ 0

/-- exhaustive.c:50-58 (and 200-210 without Koblitz): the order stage and the flags read -/
def orderChoice (c : Config) : Gen × List Name :=
  if c.prime then (.orderPrime, [.prime])
  else if c.cofactor then (.orderCofactor, [.prime, .cofactor])
  else if c.smooth then (.orderSmooth, [.prime, .cofactor, .smooth])
  else (.orderAny, [.prime, .cofactor, .smooth])

/-- exhaustive.c:200-210 -/
def orderChoiceKoblitz (c : Config) : Gen × List Name :=
  if c.prime then (.orderPrime, [.prime])
  else if c.cofactor then (.orderCofactor, [.prime, .cofactor])
  else if c.smooth then (.orderSmooth, [.prime, .cofactor, .smooth])
  else if c.koblitz then (.orderKoblitz, [.prime, .cofactor, .smooth, .koblitz])
  else (.orderAny, [.prime, .cofactor, .smooth, .koblitz])

/-- exhaustive.c:60-66 and 212-218 -/
def gensChoice (c : Config) : Gen × List Name :=
  if c.unique then (.gensOne, [.unique])
  else if c.cofactor then (.gensCofactor, [.unique, .cofactor])
  else (.gensAny, [.unique, .cofactor])

/-- exhaustive.c:71-81, 92-102 and 110-121: the seed stage from the argument, at random or from the input -/
def seedChoice (c : Config) (argument random input : Gen) : Gen × List Name :=
  if c.seed.isSome then (argument, [.seed])
  else if has c.random RANDOM_SEED then (random, [.seed, .random])
  else (input, [.seed, .random])

/-- the first half of `exhaustive_ginit`, exhaustive.c:47-219: the stages seed, field, a, b, order and generators, and the flags read -/
def ginitMethod (c : Config) : Table (Option Gen) × List Name :=
  let t : Table (Option Gen) := Table.const none
  if c.seedAlgo ≠ .none then
    let t : Table (Option Gen) := { t with order := some (orderChoice c).1, gens := some (gensChoice c).1 }
    let u : List Name := [.field, .seedAlgo] ++ (orderChoice c).2 ++ (gensChoice c).2
    match c.seedAlgo with
    | .ansi =>
      let s := seedChoice c .ansiSeedArgument .ansiSeedRandom .ansiSeedInput
      ({ t with seed := some s.1, field := some (if has c.random RANDOM_FIELD then .fieldRandom else .fieldInput),
                a := some .skip, b := some .ansiEquation }, u ++ s.2 ++ [.random])
    | .brainpool =>
      let s := seedChoice c .brainpoolSeedArgument .brainpoolSeedRandom .brainpoolSeedInput
      ({ t with seed := some s.1, field := some .brainpoolField, a := some .skip, b := some .brainpoolEquation,
                order := some .orderPrime, gens := some .brainpoolGens }, u ++ s.2)
    | .brainpoolRfc =>
      let s := seedChoice c .brainpoolRfcSeedArgument .brainpoolRfcSeedRandom .brainpoolRfcSeedInput
      ({ t with seed := some s.1, field := some .brainpoolField, a := some .skip, b := some .brainpoolRfcEquation,
                order := some .orderPrime, gens := some .brainpoolGens }, u ++ s.2)
    | .nums =>
      ({ t with seed := some .skip, field := some .numsField, a := some .numsA, b := some .numsB, order := some .numsOrder,
                gens := some .numsGens }, u)
    | _ => (t, u)
  else if c.method = METHOD_FAMILY then
    ({ t with seed := some (if c.random ≠ 0 then .familySeedRandom else .familySeedInput), field := some .familyField, a := some .skip,
              b := some (if c.family = .kss16 ∨ c.family = .kss40 then .familyEquationCm else .familyEquationIter),
              order := some .familyOrder, gens := some .gensAny }, [.field, .seedAlgo, .random])
  else
    let t : Table (Option Gen) := { t with seed := some .skip, field := some (if has c.random RANDOM_FIELD then .fieldRandom else .fieldInput) }
    let u : List Name := [.field, .seedAlgo, .random, .koblitz]
    let ab : Table (Option Gen) × List Name :=
      if c.koblitz then
        ({ t with a := if c.koblitzValue = 0 then some .aZero else if c.koblitzValue = 1 then some .aOne else none, b := some .bOne },
          u ++ [.koblitzValue])
      else
        ({ t with a := some (if has c.random RANDOM_A then .aRandom else .aInput),
                  b := some (if has c.random RANDOM_B then .bRandom else .bInput) }, u)
    ({ ab.1 with order := some (orderChoiceKoblitz c).1, gens := some (gensChoice c).1 },
      ab.2 ++ (orderChoiceKoblitz c).2 ++ (gensChoice c).2)

/-- exhaustive.c:236-257 and cm.c:40-61 -/
def pointsChoice (c : Config) : Gen :=
  match c.pointsType with
  | .random => if c.pointsAmount ≠ 0 then .pointsRandom else .pointRandom
  | .prime => .pointsPrime
  | .nonprime => .pointsNonprime
  | .all => .pointsAll
  | .none => .skip

/-- `exhaustive_ginit` -/
def ginit (c : Config) : Table (Option Gen) × List Name :=
  let r := ginitMethod c
  ({ r.1 with
      curve := some (if c.method = METHOD_TWIST then .curveAnyTwist else .curveAny)
      metadata := some (if c.metadata then .metadata else .skip)
      points := some (pointsChoice c) }, r.2 ++ [.method, .metadata, .points])

/-- `exhaustive_cinit`, exhaustive.c:260-292 -/
def cinit (c : Config) : Table (List Check) × List Name :=
  let t : Table (List Check) := { Table.const [] with curve := [.curveNonzero], points := if c.hexCheck.isSome then [.hexParam] else [] }
  let t :=
    if c.method = METHOD_SEED then
      match c.seedAlgo with
      | .brainpool => { t with order := [.brainpoolOrder], gens := [.gensAnomalous, .brainpoolGens] }
      | .brainpoolRfc => { t with order := [.brainpoolOrder], gens := [.gensAnomalous, .brainpoolGens] }
      | .nums => { t with gens := [.gensAnomalous, .brainpoolGens] }
      | _ => t
    else t
  (t, [.hexCheck, .method] ++ if c.method = METHOD_SEED then [.seedAlgo] else [])

/-- `exhaustive_ainit`, exhaustive.c:294-326: the arguments of the generators -/
def ainit (c : Config) : Table (Option Arg) :=
  let t : Table (Option Arg) := Table.const none
  let t := if c.pointsType = .random then { t with points := some (.size c.pointsAmount) } else t
  let t := if c.cofactor then { t with order := some (.long c.cofactorValue), gens := some (.long c.cofactorValue) } else t
  if c.smooth then { t with order := some (.long c.smoothValue) } else t

/-- exhaustive.c:320-325 and cm.c:133-138: the arguments of the checks -/
def checkArgs (c : Config) : Table (Option Arg) :=
  { Table.const none with points := c.hexCheck.map .text }

/-- `exhaustive_init` and `GET(count)` in `exhaustive_do`, exhaustive.c:503-504 -/
def exhaustiveSetup (c : Config) : Setup :=
  { gens := (ginit c).1, genArgs := ainit c, checks := (cinit c).1, checkArgs := checkArgs c
    used := (ginit c).2 ++ (cinit c).2 ++ [.count] }

/-- `cm_ginit`, cm.c:21-95; `prime` is whether the order asked for is one prime -/
def cmGinit (c : Config) (prime : Bool) : Table (Option Gen) × List Name :=
  let t : Table (Option Gen) :=
    { Table.const none with
      seed := some .skip, gens := some (if c.unique then .gensOne else .gensAny)
      metadata := some (if c.metadata then .metadata else .skip), points := some (pointsChoice c) }
  let u : List Name := [.field, .unique, .metadata, .points, .method]
  if c.method = METHOD_CM then
    let t : Table (Option Gen) := { t with field := some .skip, a := some .skip, b := some .skip, order := some .cmOrder }
    if prime then ({ t with curve := some .cmCurvePrime, points := some .pointsPrime }, u)
    else ({ t with curve := some .cmCurveAny }, u)
  else if c.method = METHOD_ANOMALOUS then
    ({ t with field := some .anomalousField, a := some .skip, b := some .anomalousEquation, curve := some .curveAny,
              order := some .anomalousOrder }, u ++ [.random])
  else if c.method = METHOD_SUPERSINGULAR then
    ({ t with field := some (if has c.random RANDOM_FIELD then .fieldRandom else .fieldInput), a := some .skip,
              b := some .supersingularEquation, curve := some .curveAny, order := some .supersingularOrder }, u ++ [.random])
  else (t, u)

/-- `cm_ainit`, cm.c:97-131; `order` is the text of the product of the factors given -/
def cmAinit (c : Config) (order : Str) : Table (Option Arg) :=
  let t : Table (Option Arg) := Table.const none
  let t := if c.method = METHOD_CM then { t with curve := some (.text order), order := some (.text order) } else t
  let t := if c.method = METHOD_ANOMALOUS then { t with field := some .counter, b := some .counter } else t
  if c.pointsType = .random then { t with points := some (.size c.pointsAmount) } else t

/-- `cm_cinit`, cm.c:141-149 -/
def cmCinit (c : Config) : Table (List Check) :=
  { Table.const [] with curve := [.curveNonzero], points := if c.hexCheck.isSome then [.hexParam] else [] }

/-- `cm_init` when it does not fail, and `GET(count)` in `cm_do`, cm.c:251. `order` and `prime` stand for the evaluation of the requested
order, cm.c:155-211, which is PARI's work. -/
def cmSetup (order : Str → Str) (prime : Str → Bool) (c : Config) : Setup :=
  let o := c.cmOrder.getD []
  { gens := (cmGinit c (if c.method = METHOD_CM then prime o else false)).1, genArgs := cmAinit c (order o), checks := cmCinit c
    checkArgs := checkArgs c
    used := (if c.method = METHOD_CM then [.cmOrder] else []) ++
      (cmGinit c (if c.method = METHOD_CM then prime o else false)).2 ++ [.hexCheck, .count] }

/-- `invalid_original_ginit` and `invalid_cinit`, invalid.c:19-43 and 61-64 -/
def originalSetup (c : Config) : Setup :=
  { gens :=
      { Table.const none with
        seed := some .skip, field := some (if has c.random RANDOM_FIELD then .fieldRandom else .fieldInput)
        a := some (if has c.random RANDOM_A then .aRandom else .aInput), b := some (if has c.random RANDOM_B then .bRandom else .bInput)
        gens := some .gensAny, curve := some .curveAny, order := some .orderAny, metadata := some .skip }
    genArgs := Table.const none, checks := { Table.const [] with curve := [.curveNonzero] }, checkArgs := Table.const none
    used := [.field, .random] }

/-- `invalid_invalid_ginit`, invalid.c:45-59, and `GET(invalid_primes)` -/
def invalidSetup (c : Config) : Setup :=
  { gens :=
      ⟨some .skip, some .skip, some .skip, some .bRandom, some .curveAny, some .orderAny,
        some (if c.unique then .gensOne else .gensAny), some .pointsTrial, some .skip⟩
    genArgs := Table.const none, checks := { Table.const [] with curve := [.curveNonzero] }, checkArgs := Table.const none
    used := [.unique, .invalidPrimes] }

/-- the search a run performs: with one table, or those of the invalid curve method and its range of primes -/
inductive Run where
  | search (s : Setup)
  | invalid (original invalid : Setup) (range : Option Str)
  deriving DecidableEq, Repr

/-- `main`, ecgen.c:122-131, up to the start of the search (and when `cm_init` accepts the order) -/
def run (order : Str → Str) (prime : Str → Bool) (c : Config) : Run :=
  if c.method = METHOD_CM ∨ c.method = METHOD_ANOMALOUS ∨ c.method = METHOD_SUPERSINGULAR then .search (cmSetup order prime c)
  else if c.method = METHOD_INVALID then .invalid (originalSetup c) (invalidSetup c) c.invalidPrimes
  else .search (exhaustiveSetup c)

/-- the flags `cfg_used` when `config_report_unused` is called; `GET(method)` at ecgen.c:123 -/
def Run.used : Run → List Name
  | .search s => .method :: s.used
  | .invalid s t _ => .method :: s.used ++ t.used

/-- the names `config_report_unused` looks at, in its order, config.c:20-114 -/
def reportable : List Name :=
  [.field, .method, .count, .random, .prime, .cmOrder, .koblitz, .koblitzValue, .smooth, .cofactor, .invalidPrimes, .seedAlgo, .seed,
    .unique, .hexCheck, .points, .metadata]

/-- `config_report_unused`: the options warned about -/
def report (c : Config) (r : Run) : List Name := reportable.filter fun x => x ∈ c.set ∧ x ∉ r.used

end Ecgen.Cli
