import Verif.Cli.Model

/-!
# What a consistent configuration is, in terms of the given options
-/

namespace Ecgen.Cli.Spec

open Ecgen.Cli

/-- the generation methods -/
inductive Kind where
  | cm | anomalous | seed | invalid | twist | supersingular | family
  deriving DecidableEq, Repr

/-- the method an option asks for -/
def kind : Opt → Option Kind
  | .order _ => some .cm
  | .anomalous => some .anomalous
  | .ansi _ => some .seed
  | .brainpool _ => some .seed
  | .brainpoolRfc _ => some .seed
  | .nums => some .seed
  | .invalid _ => some .invalid
  | .twist => some .twist
  | .supersingular => some .supersingular
  | .family _ => some .family
  | _ => none

/-- the seeded algorithm an option asks for -/
def algo : Opt → Option SeedAlgo
  | .ansi _ => some .ansi
  | .brainpool _ => some .brainpool
  | .brainpoolRfc _ => some .brainpoolRfc
  | .nums => some .nums
  | _ => none

/-- the method `main` and the setup functions see -/
def code : Kind → Nat
  | .cm => METHOD_CM
  | .anomalous => METHOD_ANOMALOUS
  | .seed => METHOD_SEED
  | .invalid => METHOD_INVALID
  | .twist => METHOD_TWIST
  | .supersingular => METHOD_SUPERSINGULAR
  | .family => METHOD_FAMILY

/-- the order constraints -/
inductive Constraint where
  | prime | smooth | cofactor
  deriving DecidableEq, Repr

def constraint : Opt → Option Constraint
  | .prime => some .prime
  | .smooth _ => some .smooth
  | .cofactor _ => some .cofactor
  | _ => none

/-- methods that only make curves over prime fields -/
def primeOnly (k : Kind) (a : SeedAlgo) : Prop :=
  k = .cm ∨ k = .anomalous ∨ k = .family ∨ k = .supersingular ∨ (k = .seed ∧ (a = .brainpool ∨ a = .brainpoolRfc ∨ a = .nums))

/-- the seed text a hex digit string with an optional `0x` denotes -/
def hexBody (s : Str) : Str :=
  if 2 < s.length ∧ (['0', 'x'] <+: s ∨ ['0', 'X'] <+: s) then s.drop 2 else s

/-- hexadecimal digits -/
def IsHex (s : Str) : Prop := ∀ c ∈ s, ('0' ≤ c ∧ c ≤ '9') ∨ ('a' ≤ c ∧ c ≤ 'f') ∨ ('A' ≤ c ∧ c ≤ 'F')

/-- the documented form of a SEED: hex of at least 160 bits for ANSI X9.62, of exactly 160 bits for Brainpool; NUMS takes none -/
def SeedForm : SeedAlgo → Str → Prop
  | .ansi, s => IsHex (hexBody s) ∧ 40 ≤ (hexBody s).length
  | .brainpool, s => IsHex (hexBody s) ∧ (hexBody s).length = 40
  | .brainpoolRfc, s => IsHex (hexBody s) ∧ (hexBody s).length = 40
  | _, _ => False

/-- all of C46 except for the form of the seed -/
structure Consistent (os : List Opt) (c : Config) : Prop where
  /-- one field type was asked for, and not the other -/
  field : (.fp ∈ os ∧ .f2m ∉ os ∧ c.field = FIELD_PRIME) ∨ (.f2m ∈ os ∧ .fp ∉ os ∧ c.field = FIELD_BINARY)
  /-- all the methods asked for are the same -/
  method_unique : ∀ o ∈ os, ∀ o' ∈ os, ∀ k k', kind o = some k → kind o' = some k' → k = k'
  /-- the selected method is the one asked for -/
  method : ∀ o ∈ os, ∀ k, kind o = some k → c.method = code k
  /-- without a method option the default method is selected -/
  method_default : (∀ o ∈ os, kind o = none) → c.method = 0
  /-- at most one kind of order constraint was asked for -/
  constraint_unique : ∀ o ∈ os, ∀ o' ∈ os, ∀ k k', constraint o = some k → constraint o' = some k' → k = k'
  /-- and it is the one the configuration has -/
  prime : c.prime = true ↔ ∃ o ∈ os, constraint o = some .prime
  smooth : c.smooth = true ↔ ∃ o ∈ os, constraint o = some .smooth
  cofactor : c.cofactor = true ↔ ∃ o ∈ os, constraint o = some .cofactor
  /-- prime-field-only methods have a prime field -/
  primeField : ∀ o ∈ os, ∀ k, kind o = some k → primeOnly k c.seedAlgo → c.field = FIELD_PRIME
  /-- a seed algorithm is selected exactly with a seeded method, and it was asked for -/
  algo : (c.method = METHOD_SEED ↔ c.seedAlgo ≠ .none) ∧ (c.seedAlgo ≠ .none → ∃ o ∈ os, algo o = some c.seedAlgo)
  /-- NUMS is not random -/
  nums : c.seedAlgo = .nums → c.random = 0
  /-- anomalous curves are random -/
  anomalous : c.method = METHOD_ANOMALOUS → c.random ≠ 0
  /-- one bit size was given, and it is a number -/
  bits : ∃ s, Opt.arg s ∈ os ∧ c.bits = (strtoul s).1 ∧ (strtoul s).2 = [] ∧ ∀ s', Opt.arg s' ∈ os → s' = s
  /-- the number of hex digits covers the bit size, in whole bytes -/
  hexDigits : c.bits ≤ 4 * c.hexDigits ∧ 4 * c.hexDigits < c.bits + 8 ∧ c.hexDigits % 2 = 0
  /-- documented defaults -/
  count : (∀ s, Opt.count s ∉ os) → c.count = 1
  memory : (∀ s, Opt.memory s ∉ os) → c.memory = 1000000000
  threads : (∀ s, Opt.threads s ∉ os) → c.threads = 1
  threadMemory : (∀ s, Opt.threadStack s ∉ os) → c.bits * 2000000 < 2 ^ 64 → c.threadMemory = c.bits * 2000000
  timeout : (∀ s, Opt.timeout s ∉ os) → c.timeout = 0
  /-- never zero curves, threads or memory -/
  nonzero : c.count ≠ 0 ∧ c.memory ≠ 0 ∧ c.threads ≠ 0
  /-- a Koblitz coefficient is 0 or 1 -/
  koblitz : c.koblitzValue = 0 ∨ c.koblitzValue = 1
  /-- an order to construct is there when needed -/
  cmOrder : c.method = METHOD_CM → ∃ s, Opt.order s ∈ os ∧ c.cmOrder = some s

end Ecgen.Cli.Spec
