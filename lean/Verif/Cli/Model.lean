import Verif.Str.Model
import Verif.Invalid.Model

/-!
# Model of the command line (`/repo/src/io/cli.c`, `/repo/src/misc/config.h`, `config.c`)

`argp` delivers the command line to `cli_parse` as a list of keys with their arguments; splitting `argv` into that list is glibc's
work and not modelled. Arguments that `cli_options` (cli.c:51-95) marks as required are present. `argp_failure` and `argp_usage` end the
program (no `ARGP_NO_EXIT`), which is `none` here. `char *` fields of the configuration are the strings they point to.
-/

namespace Ecgen.Cli

open Ecgen.Invalid (digit? digits)

abbrev Str := List Char

/-- `isspace` in the C locale -/
def isspace (c : Char) : Bool := c.toNat = 32 || (9 ≤ c.toNat && c.toNat ≤ 13)

/-- the subject sequence of `strtol` and `strtoul` in base 10: sign and absolute value, and the text after it; `none` when there is none -/
def number? (s : Str) : Option ((Bool × Nat) × Str) :=
  let t := s.dropWhile isspace
  let neg := t.head? == some '-'
  let u := if t.head? = some '-' ∨ t.head? = some '+' then t.drop 1 else t
  if (u.head?.bind digit?).isSome then some ((neg, (digits 0 u).1), (digits 0 u).2) else none

/-- C `strtoul(s, &end, 10)`: the value and the text at `end` -/
def strtoul (s : Str) : Nat × Str :=
  match number? s with
  | none => (0, s)
  | some ((neg, v), rest) => (if 2 ^ 64 ≤ v then 2 ^ 64 - 1 else if neg then (2 ^ 64 - v) % 2 ^ 64 else v, rest)

/-- C `strtol(s, &end, 10)` -/
def strtol (s : Str) : Int × Str :=
  match number? s with
  | none => (0, s)
  | some ((neg, v), rest) => (max (-2 ^ 63) (min (if neg then -(v : Int) else v) (2 ^ 63 - 1)), rest)

/-- conversion of an `unsigned long` to `long` -/
def toLong (x : Nat) : Int := if x < 2 ^ 63 then x else (x : Int) - 2 ^ 64

/-- conversion of a `long` to `size_t` -/
def toSize (x : Int) : Nat := (x % 2 ^ 64).toNat

/-- `cli_parse_memory`, cli.c:116-133 -/
def parseMemory (s : Str) : Option Nat :=
  let r := strtoul s
  if r.2 = s then none
  else
    match r.2.head? with
    | some c =>
      if c = 'k' ∨ c = 'K' then some (r.1 * 1000 % 2 ^ 64)
      else if c = 'm' ∨ c = 'M' then some (r.1 * 1000000 % 2 ^ 64)
      else if c = 'g' ∨ c = 'G' then some (r.1 * 1000000000 % 2 ^ 64)
      else some r.1
    | none => some r.1

/-- `cli_parse_time`, cli.c:135-151 -/
def parseTime (s : Str) : Option Nat :=
  let r := strtoul s
  if r.2 = s then none
  else
    match r.2.head? with
    | some c =>
      if c = 'm' ∨ c = 'M' then some (r.1 * 60 % 2 ^ 64)
      else if c = 'h' ∨ c = 'H' then some (r.1 * 3600 % 2 ^ 64)
      else if c = 'd' ∨ c = 'D' then some (r.1 * 86400 % 2 ^ 64)
      else some r.1
    | none => some r.1

/-- what the option parser receives: the keys of `cli_options` (cli.c:18-48) and `ARGP_KEY_ARG` with their arguments -/
inductive Opt where
  | fp | f2m
  | invalid (arg : Option Str) | order (arg : Str) | anomalous | supersingular | family (arg : Str)
  | ansi (arg : Option Str) | brainpool (arg : Option Str) | nums | brainpoolRfc (arg : Option Str) | twist
  | count (arg : Str) | random (arg : Option Str) | prime | smooth (arg : Str) | cofactor (arg : Str)
  | koblitz (arg : Option Str) | unique | hexCheck (arg : Str) | metadata | points (arg : Str)
  | input (arg : Str) | output (arg : Str) | append | verbose (arg : Option Str)
  | dataDir (arg : Str) | memory (arg : Str) | threadStack (arg : Str) | timeout (arg : Str) | threads (arg : Str)
  | arg (arg : Str)
  deriving DecidableEq, Repr

/-- `seed_e`, config.h:64-72 -/
inductive SeedAlgo where
  | none | ansi | brainpool | brainpoolRfc | fips | nums | family
  deriving DecidableEq, Repr

/-- `family_e`, config.h:77-85 -/
inductive Family where
  | bn | bls12 | bls24 | kss16 | kss18 | kss36 | kss40
  deriving DecidableEq, Repr

/-- `enum points_e`, config.h:16-22 -/
inductive PointsType where
  | prime | random | nonprime | all | none
  deriving DecidableEq, Repr

/-- `config_names_t`, config.h:170-189 -/
inductive Name where
  | field | method | count | random | prime | cmOrder | koblitz | koblitzValue | smooth | cofactor | invalidPrimes
  | seedAlgo | seed | family | unique | hexCheck | points | metadata
  deriving DecidableEq, Repr

/-- `config_t`, config.h:90-165, and the flags `cfg_set` (config.h:194). The bit sets `field`, `method` and `random` are numbers. -/
structure Config where
  field : Nat := 0
  method : Nat := 0
  count : Int := 0
  random : Nat := 0
  prime : Bool := false
  cmOrder : Option Str := none
  koblitz : Bool := false
  koblitzValue : Int := 0
  smooth : Bool := false
  smoothValue : Int := 0
  cofactor : Bool := false
  cofactorValue : Int := 0
  invalidPrimes : Option Str := none
  seedAlgo : SeedAlgo := .none
  seed : Option Str := none
  family : Family := .bn
  unique : Bool := false
  hexCheck : Option Str := none
  pointsType : PointsType := .prime
  pointsAmount : Nat := 0
  metadata : Bool := false
  datadir : Option Str := none
  memory : Nat := 0
  threads : Nat := 0
  threadMemory : Nat := 0
  timeout : Nat := 0
  output : Option Str := none
  input : Option Str := none
  append : Bool := false
  verbose : Nat := 0
  verboseLog : Option Str := none
  bits : Nat := 0
  hexDigits : Nat := 0
  /-- `state->arg_num`: positional arguments seen so far -/
  argNum : Nat := 0
  /-- the members of `cfg_set` that are true -/
  set : List Name := []
  deriving DecidableEq, Repr

/- The enumerators of config.h:6-59 -/
def FIELD_PRIME : Nat := 1
def FIELD_BINARY : Nat := 2
def RANDOM_SEED : Nat := 1
def RANDOM_FIELD : Nat := 2
def RANDOM_A : Nat := 4
def RANDOM_B : Nat := 8
def RANDOM_EQUATION : Nat := RANDOM_A ||| RANDOM_B
def RANDOM_ALL : Nat := RANDOM_SEED ||| RANDOM_FIELD ||| RANDOM_EQUATION
def METHOD_CM : Nat := 1
def METHOD_ANOMALOUS : Nat := 2
def METHOD_SEED : Nat := 4
def METHOD_INVALID : Nat := 8
def METHOD_TWIST : Nat := 16
def METHOD_SUPERSINGULAR : Nat := 32
def METHOD_FAMILY : Nat := 64

/-- `SET(x)`, config.h:199 -/
def Config.mark (c : Config) (x : Name) : Config := { c with set := c.set ++ [x] }

/-- `ansi_seed_valid`, ansi.c:20-23 -/
def ansiSeedValid (s : Str) : Bool :=
  match Str.strIsHex s with
  | some t => 40 ≤ t.length
  | none => false

/-- `brainpool_seed_valid`, brainpool.c:62-65 -/
def brainpoolSeedValid (s : Str) : Bool :=
  match Str.strIsHex s with
  | some t => t.length = 40
  | none => false

/-- `regexec(&re_cm_order, arg, 0, NULL, 0) == 0`, cli.c:101-104 and 271. The expression is not anchored and its shortest matches are
single digits, so it matches somewhere exactly when the text contains a digit. -/
def orderMatches (s : Str) : Bool := s.any fun c => (digit? c).isSome

/-- `tolower` in the C locale -/
def lower (c : Char) : Char := if 65 ≤ c.toNat ∧ c.toNat ≤ 90 then Char.ofNat (c.toNat + 32) else c

/-- `strcasecmp(a, b) == 0` -/
def caseEq (a b : Str) : Bool := a.map lower == b.map lower

/-- cli.c:290-306 -/
def parseFamily (s : Str) : Option Family :=
  if caseEq s "BN".toList then some .bn
  else if caseEq s "BLS12".toList then some .bls12
  else if caseEq s "BLS24".toList then some .bls24
  else if caseEq s "KSS16".toList then some .kss16
  else if caseEq s "KSS18".toList then some .kss18
  else if caseEq s "KSS36".toList then some .kss36
  else if caseEq s "KSS40".toList then some .kss40
  else none

/-- the tokens `strtok(arg, ",")` gives one after the other: the maximal non-empty pieces between commas; `cur` is the piece being read,
reversed -/
def tokens : Str → Str → List Str
  | cur, [] => if cur = [] then [] else [cur.reverse]
  | cur, c :: s => if c = ',' then (if cur = [] then tokens [] s else cur.reverse :: tokens [] s) else tokens (c :: cur) s

/-- one round of the loop cli.c:372-388 -/
def randomToken (r : Nat) (t : Str) : Option Nat :=
  if t = "seed".toList then some (r ||| RANDOM_SEED)
  else if t = "field".toList then some (r ||| RANDOM_FIELD)
  else if t = "a".toList then some (r ||| RANDOM_A)
  else if t = "b".toList then some (r ||| RANDOM_B)
  else if t = "equation".toList then some (r ||| RANDOM_EQUATION)
  else none

/-- the loop cli.c:371-388 -/
def randomTokens : Nat → List Str → Option Nat
  | r, [] => some r
  | r, t :: ts => (randomToken r t).bind fun r => randomTokens r ts

/-- cli.c:425-439: the pattern without `0x`, `none` when it contains another character than a hex digit -/
def hexPattern (s : Str) : Option Str :=
  let start :=
    if s.length > 2 then (if s[0]? = some '0' ∧ (s[1]? = some 'x' ∨ s[1]? = some 'X') then s.drop 2 else s) else s
  if start.all Str.isxdigit then some start else none

/-- cli.c:452-464 -/
def pointsKind (s : Str) : Option PointsType :=
  if "random".toList.isPrefixOf s then some .random
  else if "prime".toList.isPrefixOf s then some .prime
  else if "all".toList.isPrefixOf s then some .all
  else if "nonprime".toList.isPrefixOf s then some .nonprime
  else if "none".toList.isPrefixOf s then some .none
  else none

/-- the part of the three seeded methods with an optional SEED, cli.c:308-322, 323-337, 344-358 -/
def seeded (c : Config) (algo : SeedAlgo) (valid : Str → Bool) (a : Option Str) : Option Config :=
  let c := { c with method := c.method ||| METHOD_SEED }.mark .method
  let c := { c with seedAlgo := algo }.mark .seedAlgo
  match a with
  | none => some c
  | some s => if valid s then some ({ c with seed := some s }.mark .seed) else none

/-- `cli_parse`, cli.c:242-537, for every key but `ARGP_KEY_END` and `ARGP_KEY_NO_ARGS`; `nprocs` is the result of
`sysconf(_SC_NPROCESSORS_ONLN)` -/
def parse1 (nprocs : Int) (c : Config) : Opt → Option Config
  | .fp => some ({ c with field := c.field ||| FIELD_PRIME }.mark .field)
  | .f2m => some ({ c with field := c.field ||| FIELD_BINARY }.mark .field)
  | .invalid a =>
    let c := { c with method := c.method ||| METHOD_INVALID }.mark .method
    match a with
    | none => some c
    | some s =>
      if s.all (fun ch => (digit? ch).isSome || ch = '-') then some ({ c with invalidPrimes := some s }.mark .invalidPrimes) else none
  | .order s =>
    let c := { c with method := c.method ||| METHOD_CM }.mark .method
    if orderMatches s then some ({ c with cmOrder := some s }.mark .cmOrder) else none
  | .anomalous => some ({ c with method := c.method ||| METHOD_ANOMALOUS }.mark .method)
  | .supersingular => some ({ c with method := c.method ||| METHOD_SUPERSINGULAR }.mark .method)
  | .family s =>
    let c := { c with method := c.method ||| METHOD_FAMILY }.mark .method
    match parseFamily s with
    | some f => some { c with family := f }
    | none => none
  | .ansi a => seeded c .ansi ansiSeedValid a
  | .brainpool a => seeded c .brainpool brainpoolSeedValid a
  | .nums => some (({ c with method := c.method ||| METHOD_SEED, seedAlgo := .nums }.mark .method).mark .seedAlgo)
  | .brainpoolRfc a => seeded c .brainpoolRfc brainpoolSeedValid a
  | .twist => some ({ c with method := c.method ||| METHOD_TWIST }.mark .method)
  | .count s => some ({ c with count := toLong (strtoul s).1 }.mark .count)
  | .random a =>
    match a with
    | some s => (randomTokens c.random (tokens [] s)).map fun r => { c with random := r }.mark .random
    | none => some ({ c with random := RANDOM_ALL }.mark .random)
  | .prime => some ({ c with prime := true }.mark .prime)
  | .smooth s => some ({ c with smooth := true, smoothValue := (strtol s).1 }.mark .smooth)
  | .cofactor s => some ({ c with cofactor := true, cofactorValue := (strtol s).1 }.mark .cofactor)
  | .koblitz a =>
    let c := { c with koblitz := true }.mark .koblitz
    match a with
    | none => some c
    | some s =>
      let c := { c with koblitzValue := (strtol s).1 }.mark .koblitzValue
      if c.koblitzValue ≠ 0 ∧ c.koblitzValue ≠ 1 then none else some c
  | .unique => some ({ c with unique := true }.mark .unique)
  | .hexCheck s => (hexPattern s).map fun p => { c with hexCheck := some p }.mark .hexCheck
  | .metadata => some ({ c with metadata := true }.mark .metadata)
  | .points s =>
    let r := strtol s
    (pointsKind r.2).map fun t => { c with pointsAmount := toSize r.1, pointsType := t }.mark .points
  | .input s => some { c with input := some s }
  | .output s => some { c with output := some s }
  | .append => some { c with append := true }
  | .verbose a =>
    match a with
    | none => some { c with verbose := c.verbose + 1 }
    | some s => some { c with verbose := c.verbose + 1, verboseLog := some s }
  | .dataDir s => some { c with datadir := some s }
  | .memory s => (parseMemory s).map fun v => { c with memory := v }
  | .threadStack s => (parseMemory s).map fun v => { c with threadMemory := v }
  | .timeout s => (parseTime s).map fun v => { c with timeout := v }
  | .threads s =>
    if s = "auto".toList ∨ s = "AUTO".toList then
      if nprocs > 0 then some { c with threads := nprocs.toNat } else some c
    else if (strtoul s).1 = 0 then none
    else some { c with threads := (strtoul s).1 }
  | .arg s =>
    if c.argNum ≥ 1 then none
    else if (strtoul s).2 ≠ [] then none
    else
      let b := (strtoul s).1
      some { c with bits := b, hexDigits := 2 * (b / 8 + if b % 8 ≠ 0 then 1 else 0), argNum := c.argNum + 1 }

/-- the keys one after the other -/
def parseAll (nprocs : Int) : Config → List Opt → Option Config
  | c, [] => some c
  | c, o :: os => (parse1 nprocs c o).bind fun c => parseAll nprocs c os

/-- a C `bool` as a summand -/
def b2n (b : Bool) : Nat := if b then 1 else 0

/-- the checks of `cli_end`, cli.c:154-225: `true` when none of them fails -/
def endChecks (c : Config) : Bool :=
  !(c.field = 0 || c.field = (FIELD_PRIME ||| FIELD_BINARY)) &&
  !(b2n c.prime + b2n c.smooth + b2n c.cofactor > 1) &&
  (c.method = 0 || c.method = METHOD_CM || c.method = METHOD_ANOMALOUS || c.method = METHOD_SEED || c.method = METHOD_INVALID ||
    c.method = METHOD_TWIST || c.method = METHOD_SUPERSINGULAR || c.method = METHOD_FAMILY) &&
  !(c.method = METHOD_SEED && (c.seedAlgo = .brainpool || c.seedAlgo = .brainpoolRfc) && c.field = FIELD_BINARY) &&
  !(c.method = METHOD_SEED && c.seedAlgo = .nums && c.field = FIELD_BINARY) &&
  !(c.method = METHOD_CM && c.field = FIELD_BINARY) &&
  !(c.method = METHOD_ANOMALOUS && c.field = FIELD_BINARY) &&
  !(c.method = METHOD_FAMILY && c.field = FIELD_BINARY) &&
  !(c.method = METHOD_SUPERSINGULAR && c.field = FIELD_BINARY) &&
  !(c.method = METHOD_SEED && c.seedAlgo = .nums && c.random ≠ 0) &&
  !(c.method = METHOD_ANOMALOUS && c.random = 0)

/-- the default values, cli.c:226-239 -/
def defaults (c : Config) : Config :=
  { c with
    count := if c.count = 0 then 1 else c.count
    memory := if c.memory = 0 then 1000000000 else c.memory
    threads := if c.threads = 0 then 1 else c.threads
    threadMemory := if c.threadMemory = 0 then c.bits * 2000000 % 2 ^ 64 else c.threadMemory }

/-- `argp_parse` in `main` (ecgen.c:111-115): `cfg` is zeroed, the keys are delivered, then `ARGP_KEY_NO_ARGS` if there was no positional
argument, and `ARGP_KEY_END` -/
def commandLine (nprocs : Int) (os : List Opt) : Option Config :=
  (parseAll nprocs {} os).bind fun c =>
    if c.argNum = 0 then none else if endChecks c then some (defaults c) else none

end Ecgen.Cli
