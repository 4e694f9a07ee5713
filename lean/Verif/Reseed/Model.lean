/-!
Seeding PARI's generator: `random_reseed` of /repo/src/util/random.c:11-36, called by `random_init` (random.c:38-42) at the start of the
program (ecgen.c:60) and of every thread of `--invalid` (invalid_thread.c:24).

The machine is the one the other models use: `pari_ulong` has eight bytes, the lowest first. What the system answers is a parameter: whether
`/dev/urandom` opens, which bytes it has, how many of the bytes asked for each `fread` delivers, and the clocks. Saving and restoring `avma`
(random.c:33, 35) is left out, and so is the buffer of the `FILE`.
-/

namespace Ecgen.Reseed

/-- what the system answers. `amount k n` is the value of the `k`-th `fread` when asked for `n` bytes. -/
structure Sys where
  opens : Bool
  stream : Nat → UInt8
  amount : Nat → Nat → Nat
  /-- `tv_nsec` after `clock_gettime(CLOCK_REALTIME, &t)`, nothing if that fails -/
  nsec : Option Nat
  /-- `time(NULL)` -/
  time : Nat

/-- the contract of the system: `fread` delivers no more than it is asked for, a `tv_nsec` is below a second, a time fits in 64 bits -/
structure Sys.Ok (y : Sys) : Prop where
  amount : ∀ k n, y.amount k n ≤ n
  nsec : ∀ t, y.nsec = some t → t < 1000000000
  time : y.time < 2 ^ 64

/-- the bytes of a `pari_ulong` in memory -/
abbrev Mem := List UInt8

/-- `fread` writes `n` bytes from the position `pos` of the device at the offset `off`; `none` is a write outside the variable -/
def write (y : Sys) (m : Mem) (off pos n : Nat) : Option Mem :=
  if off + n ≤ m.length then some (m.take off ++ (List.range n).map (fun i => y.stream (pos + i)) ++ m.drop (off + n)) else none

/-- the variables of the loop: `read`, `seed`, and how many bytes of the device have been used -/
structure St where
  read : Nat
  seed : Mem
  pos : Nat

/-- the state before the loop, random.c:12, 16 -/
def start : St := ⟨0, List.replicate 8 0, 0⟩

/-- the body of the loop in its `k`-th round, random.c:18 -/
def body (y : Sys) (k : Nat) (s : St) : Option St :=
  let n := y.amount k (8 - s.read)
  (write y s.seed s.read s.pos n).map fun m => ⟨s.read + n, m, s.pos + n⟩

/-- what a loop observed for some rounds has come to -/
inductive Seen where
  /-- a write outside the variable -/
  | undefined
  | running (s : St)
  | ended (s : St)

/-- the loop random.c:17-19, observed for `fuel` rounds from the `k`-th on -/
def loop (y : Sys) : Nat → Nat → St → Seen
  | fuel, k, s =>
    if s.read < 8 then
      match fuel with
      | 0 => .running s
      | fuel + 1 => match body y k s with
        | none => .undefined
        | some t => loop y fuel (k + 1) t
    else .ended s

/-- the value of a variable with these bytes, the lowest first -/
def value : Mem → Nat
  | [] => 0
  | b :: m => b.toNat + 256 * value m

/-- the second attempt, random.c:24-31 -/
def fallback (y : Sys) (seed : Nat) : Nat :=
  if seed = 0 then match y.nsec with
    | some t => t
    | none => y.time
  else seed

/-- what the call has come to after `fuel` rounds: the number given to `setrand` (random.c:34), or it is still running, or it has done
something undefined -/
inductive Outcome where
  | undefined
  | running
  | seeded (n : Nat)
  deriving DecidableEq

/-- `random_reseed`, random.c:11-36 -/
def reseed (y : Sys) (fuel : Nat) : Outcome :=
  if y.opens then match loop y fuel 0 start with
    | .undefined => .undefined
    | .running _ => .running
    | .ended s => .seeded (fallback y (value s.seed))
  else .seeded (fallback y (value start.seed))

end Ecgen.Reseed
