import Mathlib.Data.List.Nodup

/-!
# Copying and releasing curves (C97)

`/repo/src/obj/obj.h`, `/repo/src/obj/curve.c`, `/repo/src/obj/subgroup.c`, `/repo/src/obj/point.c`, `/repo/src/gen/seed.c`, and `bits_copy` and `bits_free` of
`/repo/src/util/bits.c`, 50-68: objects on the heap that point to each other.

Undefined behaviour is `none`: reading through a null pointer or one to memory that was released, reading past the end of an array, releasing twice.

Simplifications:
* The allocator is a parameter that answers with any address not in use. It does not fail.
* A number is a value on the stack of PARI, or a clone, which is a block of the heap of its own that nobody else refers to. `obj_free`, which releases what
  PARI has attached to a curve, is left out. Where numbers on the stack go is C71.
* A new object is filled when its parts are ready, and not member by member; until then it is all zeros, as `calloc` leaves it.
* An array of `n` pointers has `n` places. (`try_calloc(num * sizeof(obj_type))` reserves more.)
* The pointers that the functions for releasing set to null lie in objects that are themselves released next, except the pointer to the curve.
-/

namespace Ecgen.Copy

/-- `seed_e`, misc/config.h -/
inductive SeedType where
  | none | ansi | brainpool | brainpoolRfc | fips | nums | family
  deriving DecidableEq

/-- the kinds of blocks, with the members that are not pointers or numbers of PARI; `V` are the numbers, `M` the metadata and the members of a
seed for its type -/
inductive Data (V M : Type) where
  /-- a clone -/
  | num (v : V)
  /-- `point_t`: the point, its order and its cofactor -/
  | point
  /-- an array of pointers -/
  | array
  /-- `subgroup_t`: the generator and the points -/
  | subgroup (npoints : Nat)
  /-- a block of bytes -/
  | bytes (l : List UInt8)
  /-- `bits_t`: the bits -/
  | bits (sign : Bool) (bitlen allocated : Nat)
  /-- `seed_t`: the seed, its hash, and for Brainpool the seeds of the coefficients -/
  | seed (type : SeedType) (extra : Option M)
  /-- `curve_t`: the seed, the field, `a`, `b`, the curve, the order, the generators -/
  | curve (ngens : Nat) (info : Option M)

/-- a member: null, a number on the stack of PARI, or a pointer to the heap -/
inductive Slot (V : Type) where
  | null
  | val (v : V)
  | ptr (a : Nat)

structure Cell (V M : Type) where
  data : Data V M
  slots : List (Slot V)

abbrev Heap (V M : Type) := Nat → Option (Cell V M)

variable {V M : Type}

def Heap.set (h : Heap V M) (a : Nat) (c : Option (Cell V M)) : Heap V M := fun x => if x = a then c else h x

/-- memory is finite -/
def Bounded (h : Heap V M) : Prop := ∃ n, ∀ a, n ≤ a → h a = none

/-- an allocator answers with an address that is not in use -/
def Allocator (A : Heap V M → Nat) : Prop := ∀ h, Bounded h → h (A h) = none

def alloc (A : Heap V M → Nat) (h : Heap V M) (c : Cell V M) : Heap V M × Nat := (h.set (A h) (some c), A h)

/-- `try_free`, util/memory.c:66 -/
def free (h : Heap V M) (a : Nat) : Option (Heap V M) := if (h a).isSome then some (h.set a none) else none

/-- a step that may fail, for a member that is set -/
def ifSet (f : Heap V M → Nat → Option (Heap V M × Nat)) (h : Heap V M) : Slot V → Option (Heap V M × Slot V)
  | .null => some (h, .null)
  | .val _ => none
  | .ptr a => (f h a).map fun r => (r.1, .ptr r.2)

/-- `if (src->x) dest->x = gcopy(src->x)`, or the same with `gclone` -/
def number (A : Heap V M → Nat) (clone : Bool) (h : Heap V M) (s : Slot V) : Option (Heap V M × Slot V) :=
  match s with
  | .null => some (h, .null)
  | .val v => if clone then some ((alloc A h ⟨.num v, []⟩).1, .ptr (A h)) else some (h, .val v)
  | .ptr a =>
    match h a with
    | some ⟨.num v, _⟩ => if clone then some ((alloc A h ⟨.num v, []⟩).1, .ptr (A h)) else some (h, .val v)
    | _ => none

/-- `point_new_copy` and `point_new_clone`: obj.h:8-16, point.c:7-19 -/
def pointNew (A : Heap V M → Nat) (clone : Bool) (h : Heap V M) (a : Nat) : Option (Heap V M × Nat) :=
  match h a with
  | some ⟨.point, [p, o, c]⟩ => do
    let d := A h
    let (h, p) ← number A clone (alloc A h ⟨.point, [.null, .null, .null]⟩).1 p
    let (h, o) ← number A clone h o
    let (h, c) ← number A clone h c
    some (h.set d (some ⟨.point, [p, o, c]⟩), d)
  | _ => none

/-- the loop of the copies of an array, obj.h:24-26 and 31-33; a null pointer is followed -/
def copyEach (f : Heap V M → Nat → Option (Heap V M × Nat)) : Heap V M → List (Slot V) → Option (Heap V M × List (Slot V))
  | h, [] => some (h, [])
  | h, .ptr a :: l => do
    let (h, b) ← f h a
    let (h, l) ← copyEach f h l
    some (h, .ptr b :: l)
  | _, _ => none

/-- copies of an array of pointers, obj.h:36-43 -/
def arrayNew (A : Heap V M → Nat) (f : Heap V M → Nat → Option (Heap V M × Nat)) (num : Nat) (h : Heap V M) (a : Nat) : Option (Heap V M × Nat) :=
  match h a with
  | some ⟨.array, l⟩ =>
    if num ≤ l.length then do
      let d := A h
      let (h, l) ← copyEach f (alloc A h ⟨.array, List.replicate num .null⟩).1 (l.take num)
      some (h.set d (some ⟨.array, l⟩), d)
    else none
  | _ => none

/-- the number of elements that goes with an array, which stays zero without one -/
def countOf (n : Nat) : Slot V → Nat
  | .null => 0
  | _ => n

/-- `subgroup_new_copy` and `subgroup_new_clone`: obj.h:8-16, subgroup.c:8-24 -/
def subgroupNew (A : Heap V M → Nat) (clone : Bool) (h : Heap V M) (a : Nat) : Option (Heap V M × Nat) :=
  match h a with
  | some ⟨.subgroup n, [g, ps]⟩ => do
    let d := A h
    let (h, g) ← ifSet (pointNew A clone) (alloc A h ⟨.subgroup 0, [.null, .null]⟩).1 g
    let (h, qs) ← ifSet (arrayNew A (pointNew A clone) n) h ps
    some (h.set d (some ⟨.subgroup (countOf n ps), [g, qs]⟩), d)
  | _ => none

/-- `try_memdup`, util/memory.c:60-64 -/
def memdup (A : Heap V M → Nat) (len : Nat) (h : Heap V M) (a : Nat) : Option (Heap V M × Nat) :=
  match h a with
  | some ⟨.bytes l, _⟩ => if len ≤ l.length then some (alloc A h ⟨.bytes (l.take len), []⟩) else none
  | _ => none

/-- `bits_copy`, util/bits.c:50-58; of no bytes there is no copy -/
def bitsCopy (A : Heap V M → Nat) (h : Heap V M) (a : Nat) : Option (Heap V M × Nat) :=
  match h a with
  | some ⟨.bits s n k, [b]⟩ =>
    let d := A h
    let h := (alloc A h ⟨.bits s n k, [.null]⟩).1
    if k = 0 then some (h, d)
    else
      match b with
      | .ptr x => do
        let (h, y) ← memdup A k h x
        some (h.set d (some ⟨.bits s n k, [.ptr y]⟩), d)
      | _ => none
  | _ => none

/-- `seed_new_copy` and `seed_new_clone`, seed.c:12-34: the type and what belongs to it stay zero -/
def seedNew (A : Heap V M → Nat) (h : Heap V M) (a : Nat) : Option (Heap V M × Nat) :=
  match h a with
  | some ⟨.seed _ _, [s, x, _, _]⟩ => do
    let d := A h
    let (h, s) ← ifSet (bitsCopy A) (alloc A h ⟨.seed .none none, [.null, .null, .null, .null]⟩).1 s
    let (h, x) ← ifSet (memdup A 20) h x
    some (h.set d (some ⟨.seed .none none, [s, x, .null, .null]⟩), d)
  | _ => none

/-- `curve_new_copy` and `curve_new_clone`: obj.h:8-16, curve.c:8-34; the metadata stay zero -/
def curveNew (A : Heap V M → Nat) (clone : Bool) (h : Heap V M) (a : Nat) : Option (Heap V M × Nat) :=
  match h a with
  | some ⟨.curve n _, [sd, f, ca, cb, e, o, gs]⟩ => do
    let d := A h
    let (h, sd) ← ifSet (seedNew A) (alloc A h ⟨.curve 0 none, [.null, .null, .null, .null, .null, .null, .null]⟩).1 sd
    let (h, f) ← number A clone h f
    let (h, ca) ← number A clone h ca
    let (h, cb) ← number A clone h cb
    let (h, e) ← number A clone h e
    let (h, o) ← number A clone h o
    let (h, ks) ← ifSet (arrayNew A (subgroupNew A clone) n) h gs
    some (h.set d (some ⟨.curve (countOf n gs) none, [sd, f, ca, cb, e, o, ks]⟩), d)
  | _ => none

/-! ## Releasing -/

/-- releases what a member points to, if it is set -/
def freeSet (f : Heap V M → Nat → Option (Heap V M)) (h : Heap V M) : Slot V → Option (Heap V M)
  | .ptr a => f h a
  | _ => some h

/-- `if (x && isclone(x)) gunclone(x)`: the clone has one owner -/
def unclone (h : Heap V M) (s : Slot V) : Option (Heap V M) := freeSet free h s

/-- `point_free`, point.c:21-35 -/
def pointFree (h : Heap V M) (a : Nat) : Option (Heap V M) :=
  match h a with
  | some ⟨.point, [p, o, c]⟩ => do
    let h ← unclone h p
    let h ← unclone h o
    let h ← unclone h c
    free h a
  | _ => none

/-- the loop over the elements of an array, point.c:46-48, subgroup.c:52-54 -/
def freeEach (f : Heap V M → Nat → Option (Heap V M)) : Heap V M → List (Slot V) → Option (Heap V M)
  | h, [] => some h
  | h, s :: l => (freeSet f h s).bind fun h => freeEach f h l

/-- `points_free_deep` and `subgroups_free_deep` of an array, point.c:44-51, subgroup.c:50-57 -/
def arrayFree (f : Heap V M → Nat → Option (Heap V M)) (num : Nat) (h : Heap V M) (a : Nat) : Option (Heap V M) :=
  match h a with
  | some ⟨.array, l⟩ => if num ≤ l.length then (freeEach f h (l.take num)).bind fun h => free h a else none
  | _ => none

/-- `subgroup_free_deep`, subgroup.c:26-41 -/
def subgroupFree (h : Heap V M) (a : Nat) : Option (Heap V M) :=
  match h a with
  | some ⟨.subgroup n, [g, ps]⟩ => do
    let h ← freeSet (arrayFree pointFree n) h ps
    let h ← freeSet pointFree h g
    free h a
  | _ => none

/-- `bits_free`, util/bits.c:60-68 -/
def bitsFree (h : Heap V M) (a : Nat) : Option (Heap V M) :=
  match h a with
  | some ⟨.bits _ _ _, [b]⟩ => do
    let h ← freeSet free h b
    free h a
  | _ => none

/-- `seed_free`, seed.c:36-62 -/
def seedFree (h : Heap V M) (a : Nat) : Option (Heap V M) :=
  match h a with
  | some ⟨.seed t _, [s, x, sa, sb]⟩ => do
    let h ← freeSet bitsFree h s
    let h ← freeSet free h x
    if t = .brainpool ∨ t = .brainpoolRfc then do
      let h ← freeSet bitsFree h sa
      let h ← freeSet bitsFree h sb
      free h a
    else free h a
  | _ => none

/-- `curve_free`, curve.c:36-65 -/
def curveFree (h : Heap V M) (a : Nat) : Option (Heap V M) :=
  match h a with
  | some ⟨.curve n _, [sd, f, ca, cb, e, o, gs]⟩ => do
    let h ← freeSet seedFree h sd
    let h ← freeSet (arrayFree subgroupFree n) h gs
    let h ← unclone h e
    let h ← unclone h f
    let h ← unclone h ca
    let h ← unclone h cb
    let h ← unclone h o
    free h a
  | _ => none

end Ecgen.Copy
