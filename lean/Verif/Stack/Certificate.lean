import Verif.Stack.Abstract
import Verif.Stack.Programs

/-!
# Checking the stages of a search

What is known at the beginning of each stage, and a check of a stage: wherever its functions end, the cleanup functions run without anything
undefined, and what is known at the beginning of the next stage holds.
-/

namespace Ecgen.Stack
open Ecgen.Engine (INT_MIN)

/-- where the members of the curve come from: `plain` field, `a`, `b` one after the other; `joint` the equation at the stage of `b`; `seeded` the same
with numbers in the seed; `whole` everything with the curve; `twist` as `plain`, replaced with the curve -/
inductive Kind where
  | plain | joint | seeded | whole | twist
  deriving DecidableEq, Repr

/-- a class of searches. `data`: metadata are generated; `calm`: the timer does not go off; `again`: the loop at brainpool.c:115-120 may have more than
one round; `rel`: `obj_insert_shallow` releases the clone it replaces -/
structure Class where
  kind : Kind
  data : Bool
  calm : Bool
  again : Bool
  rel : Bool
  deriving DecidableEq, Repr

/-- a value made at stage `t`, seen at the beginning of stage `s` -/
def since (t s : Nat) (c : Bool) : AVal := if t < s then .live (2 ^ s - 2 ^ (t + 1)) c else .any

/-- what is known at the beginning of stage `s` -/
def known (C : Class) (s : Nat) : AState where
  v :=
    let at' (p j w : Nat) : AVal :=
      match C.kind with
      | .plain => since p s false
      | .joint => since j s false
      | .seeded => since j s false
      | .whole => since w s false
      | .twist => since (if s ≤ 4 then p else 4) s false
    [at' 1 1 4, at' 2 3 4, at' 3 3 4,
      if s ≤ 4 then .null else since 4 s false,
      if s ≤ 4 then .null else .opt 0 true,
      if s ≤ 5 then (if C.kind = .twist then .null else .any) else since 5 s false,
      if C.kind = .seeded then since 0 s false else .any,
      .any, .any,
      if s ≤ 6 then .null else since 6 s true,
      if s ≤ 7 then .null else .opt 0 true,
      if s ≤ 8 then .any else if C.data then .opt 0 false else .any,
      .live (2 ^ s - 1) false] ++ List.replicate 12 .any
  stat := .ok

/-- what is to be checked of a search. `known`: what is known at the beginning of each stage; `start`: its first stage; `retry`: the number of attempts is
limited; `fail`: what has to hold when the search fails; `calm`, `again`, `rel`: as above -/
structure Plan where
  known : Nat → AState
  start : Nat
  retry : Bool
  fail : AState → Bool
  calm : Bool
  again : Bool
  rel : Bool

/-- the searches of a class: from the first stage on; nothing is asked of a failure but that nothing undefined was done -/
def Class.plan (C : Class) : Plan := ⟨known C, 0, true, fun _ => true, C.calm, C.again, C.rel⟩

/-- the cleanup functions of stages `s`, …, `n + 1` -/
def unrollA (rel : Bool) (n : Nat) : Nat → List AState → Option (List AState)
  | 0, l => some l
  | i + 1, l =>
    if n < i + 1 then
      match each (chk rel ⟨true, fun _ _ => false, fun _ => true⟩ (Prog.unroll (i + 1))) l with
      | some l' => unrollA rel n i l'
      | none => none
    else some l

/-- going back from stage `s` to stage `n`, or failing -/
def backOk (P : Plan) (n s : Nat) (a : AState) : Bool :=
  (!P.retry || P.fail a) &&
  match unrollA P.rel n s [a] with
  | some l => l.all fun b => (b.map (AVal.cut n)).le (P.known n)
  | none => false

/-- a result that is not positive -/
def refuseOk (P : Plan) (s : Nat) (d : Int) (a : AState) : Bool :=
  if d = INT_MIN ∨ (s : Int) + d < 0 then P.fail a else backOk P (max ((s : Int) + d).toNat P.start) s a

/-- the checks of a stage -/
def checksOk (P : Plan) (s : Nat) (p : Stmt) (a : AState) : Bool :=
  match chk P.rel ⟨P.again, fun d b => decide (d ≤ 0) && refuseOk P s d (b.map (AVal.cut ctop)), fun _ => true⟩ (.seq (.op (.save ctop)) p) a with
  | some l => l.all fun b => (b.map (AVal.cut ctop)).le (P.known (s + 1))
  | none => false

/-- a stage with its generator and its checks -/
def stageOk (P : Plan) (s : Nat) (g p : Stmt) : Bool :=
  match chk P.rel
      ⟨P.again, fun d a => if 0 < d then decide (d = 1) && checksOk P s p a else refuseOk P s d a, fun a => P.calm || backOk P P.start s a⟩
      g ((P.known s).map (AVal.note s)) with
  | some l => l.all (checksOk P s p)
  | none => false

/-- the generators a stage may have in a class -/
def allowed (C : Class) : Nat → List Cli.Gen
  | 0 =>
    if C.kind = .seeded then [.ansiSeedArgument, .ansiSeedRandom, .ansiSeedInput, .familySeedRandom, .familySeedInput]
    else if C.kind = .joint then [.skip, .brainpoolSeedArgument, .brainpoolSeedRandom, .brainpoolSeedInput, .brainpoolRfcSeedArgument,
      .brainpoolRfcSeedRandom, .brainpoolRfcSeedInput]
    else [.skip]
  | 1 =>
    if C.kind = .seeded then [.fieldRandom, .fieldInput, .familyField]
    else if C.kind = .joint then [.fieldRandom, .fieldInput, .anomalousField] ++ if C.again then [] else [.brainpoolField]
    else if C.kind = .whole then [.skip]
    else [.fieldRandom, .fieldInput] ++ if C.kind = .plain then [.numsField] else []
  | 2 => if C.kind = .plain then [.aRandom, .aInput, .aZero, .aOne, .numsA] else if C.kind = .twist then [.aRandom, .aInput, .aZero, .aOne] else [.skip]
  | 3 =>
    if C.kind = .seeded then [.ansiEquation, .familyEquationCm] ++ if C.calm then [.familyEquationIter] else []
    else if C.kind = .joint then [.brainpoolEquation, .brainpoolRfcEquation, .anomalousEquation, .supersingularEquation]
    else if C.kind = .whole then [.skip]
    else [.bRandom, .bInput, .bOne] ++ if C.kind = .plain && C.calm then [.numsB] else []
  | 4 => if C.kind = .whole then [.cmCurvePrime, .cmCurveAny] else if C.kind = .twist then [.curveAnyTwist] else [.curveAny]
  | 5 =>
    if C.kind = .whole then [.cmOrder]
    else [.orderAny, .orderPrime, .orderCofactor, .orderKoblitz] ++ (if C.rel then [] else [.orderSmooth]) ++
      (if C.kind = .plain then [.numsOrder] else []) ++ (if C.kind = .seeded then [.familyOrder] else []) ++
      if C.kind = .joint then [.anomalousOrder, .supersingularOrder] else []
  | 6 =>
    if C.kind = .twist then [.gensAny]
    else [.gensAny, .gensOne, .gensCofactor] ++ (if C.kind = .plain then [.numsGens] else []) ++ if C.kind = .joint then [.brainpoolGens] else []
  | 7 => [.skip, .pointRandom, .pointsRandom, .pointsPrime, .pointsNonprime, .pointsAll]
  | 8 => if C.data then [.metadata] else [.skip]
  | _ => []

/-- the checks a stage may have -/
def allowedChecks (C : Class) : Nat → List (List Cli.Check)
  | 4 => [[.curveNonzero]]
  | 5 => [[]] ++ if C.kind = .joint then [[.brainpoolOrder]] else []
  | 6 => [[]] ++ if C.kind = .joint ∨ C.kind = .plain then [[.gensAnomalous, .brainpoolGens]] else []
  | 7 => [[]] ++ if C.kind = .twist then [] else [[.hexParam]]
  | _ => [[]]

def certify (C : Class) (s : Nat) : Bool :=
  (allowed C s).all fun g => (allowedChecks C s).all fun l => stageOk C.plan s (Prog.gen g) (seqs (l.map Prog.check))

end Ecgen.Stack
