import Verif.Copy.Model

/-!
# Objects that a place on the heap stands for (C97)

The tree of blocks that hangs on a pointer, with the list of their addresses, and the values that such a tree stands for.
-/

namespace Ecgen.Copy

variable {V M : Type}

mutual
/-- a block with everything that hangs on it -/
inductive Tree (V M : Type) where
  | node (data : Data V M) (members : List (Member V M))
inductive Member (V M : Type) where
  | null
  | val (v : V)
  | ptr (t : Tree V M)
end

mutual
/-- the tree `t` hangs on the address `a`, and occupies the addresses `fp` -/
inductive At (h : Heap V M) : Nat → Tree V M → List Nat → Prop
  | node {a d ss ms fp} : h a = some ⟨d, ss⟩ → SlotsAt h ss ms fp → At h a (.node d ms) (a :: fp)
inductive SlotAt (h : Heap V M) : Slot V → Member V M → List Nat → Prop
  | null : SlotAt h .null .null []
  | val (v) : SlotAt h (.val v) (.val v) []
  | ptr {a t fp} : At h a t fp → SlotAt h (.ptr a) (.ptr t) fp
inductive SlotsAt (h : Heap V M) : List (Slot V) → List (Member V M) → List Nat → Prop
  | nil : SlotsAt h [] [] []
  | cons {s m fp ss ms fps} : SlotAt h s m fp → SlotsAt h ss ms fps → SlotsAt h (s :: ss) (m :: ms) (fp ++ fps)
end

/-! ## Values -/

structure PointV (V : Type) where
  point : Option V
  order : Option V
  cofactor : Option V

structure SubgroupV (V : Type) where
  generator : Option (PointV V)
  points : Option (List (PointV V))

structure BitsV where
  sign : Bool
  bitlen : Nat
  bytes : List UInt8

/-- a seed; `coefficients` are the seeds of the coefficients for Brainpool, `extra` all else that belongs to the type -/
structure SeedV (M : Type) where
  seed : Option BitsV
  hash : Option (List UInt8)
  type : SeedType
  coefficients : Option BitsV × Option BitsV
  extra : Option M

structure CurveV (V M : Type) where
  seed : Option (SeedV M)
  field : Option V
  a : Option V
  b : Option V
  curve : Option V
  order : Option V
  generators : Option (List (SubgroupV V))
  info : Option M

/-- a number, on the stack or a clone -/
inductive NumIs : Option V → Member V M → Prop
  | null : NumIs none .null
  | stack (v) : NumIs (some v) (.val v)
  | clone (v) : NumIs (some v) (.ptr (.node (.num v) []))

/-- a number at a given place: a clone, or on the stack of PARI -/
inductive Placed : Bool → Option V → Member V M → Prop
  | null (c) : Placed c none .null
  | stack (v) : Placed false (some v) (.val v)
  | clone (v) : Placed true (some v) (.ptr (.node (.num v) []))

/-- a member that is null or points to something -/
inductive OptIs {α : Type} (R : α → Tree V M → Prop) : Option α → Member V M → Prop
  | null : OptIs R none .null
  | ptr {v t} : R v t → OptIs R (some v) (.ptr t)

/-- an array of pointers -/
inductive EachIs {α : Type} (R : α → Tree V M → Prop) : List α → List (Member V M) → Prop
  | nil : EachIs R [] []
  | cons {v t vs ms} : R v t → EachIs R vs ms → EachIs R (v :: vs) (.ptr t :: ms)

inductive ArrayIs {α : Type} (R : α → Tree V M → Prop) : List α → Tree V M → Prop
  | mk {vs ms} : EachIs R vs ms → ArrayIs R vs (.node .array ms)

/-- a point whose numbers are as `N` says -/
inductive PointIs (N : Option V → Member V M → Prop) : PointV V → Tree V M → Prop
  | mk {p o c m1 m2 m3} : N p m1 → N o m2 → N c m3 → PointIs N ⟨p, o, c⟩ (.node .point [m1, m2, m3])

/-- the number of points is right if there are any -/
inductive SubgroupIs (N : Option V → Member V M → Prop) : SubgroupV V → Tree V M → Prop
  | mk {g ps n m1 m2} : OptIs (PointIs N) g m1 → OptIs (ArrayIs (PointIs N)) ps m2 → (∀ l, ps = some l → l.length = n) →
      SubgroupIs N ⟨g, ps⟩ (.node (.subgroup n) [m1, m2])

inductive BytesIs : List UInt8 → Tree V M → Prop
  | mk (l) : BytesIs l (.node (.bytes l) [])

/-- bits, in a block of the length `allocated`; without any, there may be no block -/
inductive BitsIs : BitsV → Tree V M → Prop
  | block (s n l) : BitsIs ⟨s, n, l⟩ (.node (.bits s n l.length) [.ptr (.node (.bytes l) [])])
  | empty (s n) : BitsIs ⟨s, n, []⟩ (.node (.bits s n 0) [.null])

def isBrainpool (t : SeedType) : Prop := t = .brainpool ∨ t = .brainpoolRfc

/-- a hash has twenty bytes; only Brainpool has seeds for the coefficients -/
inductive SeedIs : SeedV M → Tree V M → Prop
  | mk {s x t ca cb e m1 m2 m3 m4} : OptIs BitsIs s m1 → OptIs BytesIs x m2 → (∀ l, x = some l → l.length = 20) → OptIs BitsIs ca m3 → OptIs BitsIs cb m4 →
      (¬ isBrainpool t → ca = none ∧ cb = none) → SeedIs ⟨s, x, t, (ca, cb), e⟩ (.node (.seed t e) [m1, m2, m3, m4])

inductive CurveIs (N : Option V → Member V M → Prop) : CurveV V M → Tree V M → Prop
  | mk {s f a b e o gs i n m1 m2 m3 m4 m5 m6 m7} : OptIs SeedIs s m1 → N f m2 → N a m3 → N b m4 → N e m5 → N o m6 →
      OptIs (ArrayIs (SubgroupIs N)) gs m7 → (∀ l, gs = some l → l.length = n) → CurveIs N ⟨s, f, a, b, e, o, gs, i⟩ (.node (.curve n i) [m1, m2, m3, m4, m5, m6, m7])

/-- the object `v` is at the address `a`, in blocks of its own: the addresses `fp`, no two of which are the same; its numbers are on the stack or
clones -/
def Holds (h : Heap V M) (a : Nat) (v : CurveV V M) (fp : List Nat) : Prop := ∃ t, At h a t fp ∧ CurveIs NumIs v t ∧ fp.Nodup

/-- the same, where all numbers are clones, or all are on the stack -/
def HoldsPlaced (clone : Bool) (h : Heap V M) (a : Nat) (v : CurveV V M) (fp : List Nat) : Prop := ∃ t, At h a t fp ∧ CurveIs (Placed clone) v t ∧ fp.Nodup

/-- the stack of PARI is reset (`avma = ltop`): what was on it is no longer there; written as null -/
def wipe (h : Heap V M) : Heap V M := fun x => (h x).map fun c => ⟨c.data, c.slots.map fun s => match s with | .val _ => .null | s => s⟩

/-- what a copy is meant to share with the original: everything -/
def Faithful (v v' : CurveV V M) : Prop := v' = v

/-- what is printed of a curve without metadata: seed, field, coefficients, order, generators with points -/
def shownPart (v : CurveV V M) : Option (Option BitsV) × List (Option V) × Option (List (SubgroupV V)) :=
  (v.seed.map SeedV.seed, [v.field, v.a, v.b, v.order], v.generators)

/-- the blocks at the addresses `fp` are gone, all others are as before -/
def gone (h : Heap V M) (fp : List Nat) : Heap V M := fun x => if x ∈ fp then none else h x

end Ecgen.Copy
