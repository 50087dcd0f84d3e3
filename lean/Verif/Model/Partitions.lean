import Verif.Model.Base

/-!
# Model of `src/partitions.rs`

`HashMap<T, usize>` is an association list that is only ever extended with new keys
(partitions.rs:29 inserts only after a failed lookup), so lookup of the first match is exact.
`UnsafeCell` (partitions.rs:80) becomes an explicit state: every operation returns the new state.
-/

namespace Systre.Partitions

open Systre

variable {T : Type} [DecidableEq T]

/-- `struct PartitionImpl<T>` (partitions.rs:6-11). -/
structure PState (T : Type) where
  index : List (T × Nat)
  elements : List T
  rank : List Nat
  parent : List Nat
deriving DecidableEq, Repr

/-- `PartitionImpl::new` / `Partition::new` (partitions.rs:14-21, 85-87). -/
def PState.new : PState T := { index := [], elements := [], rank := [], parent := [] }

/-- `PartitionImpl::get_index` (partitions.rs:23-34). -/
def getIndex (s : PState T) (a : T) : Nat × PState T :=
  match s.index.lookup a with
  | some x => (x, s)
  | none =>
    let i := s.elements.length
    (i, { index := (a, i) :: s.index
          elements := s.elements ++ [a]
          rank := s.rank ++ [0]
          parent := s.parent ++ [i] })

/-- First while loop of `root_index` (partitions.rs:40-42), with fuel. -/
def findRoot : Nat → List Nat → Nat → Outcome Nat
  | 0, _, _ => .diverge
  | fuel + 1, parent, root => do
    let p ← vecGet parent root
    if p ≠ root then findRoot fuel parent p else .ok root

/-- Second while loop of `root_index` (partitions.rs:44-48), path compression, with fuel. -/
def compress : Nat → List Nat → Nat → Nat → Outcome (List Nat)
  | 0, _, _, _ => .diverge
  | fuel + 1, parent, x, root =>
    if x ≠ root then do
      let t := x
      let x' ← vecGet parent x
      let parent' ← vecSet parent t root
      compress fuel parent' x' root
    else .ok parent

/-- `PartitionImpl::root_index` (partitions.rs:36-51). The fuel `parent.len() + 1` is an artefact of
the model; that it always suffices is theorem `C03`. -/
def rootIndex (s : PState T) (a : T) : Outcome (Nat × PState T) := do
  let (x, s) := getIndex s a
  let root ← findRoot (s.parent.length + 1) s.parent x
  let parent ← compress (s.parent.length + 1) s.parent x root
  .ok (root, { s with parent := parent })

/-- `PartitionImpl::find`, called by `Partition::find` (partitions.rs:53-56, 89-91). -/
def find (s : PState T) (a : T) : Outcome (T × PState T) := do
  let (root, s) ← rootIndex s a
  let e ← vecGet s.elements root
  .ok (e, s)

/-- `PartitionImpl::unite`, called by `Partition::unite` (partitions.rs:58-75, 93-95). -/
def unite (s : PState T) (a b : T) : Outcome (PState T) := do
  let (x, s) ← rootIndex s a
  let (y, s) ← rootIndex s b
  if x ≠ y then do
    let rx ← vecGet s.rank x
    let ry ← vecGet s.rank y
    if rx < ry then do
      let parent ← vecSet s.parent x y
      .ok { s with parent := parent }
    else do
      let rank ← if rx = ry then vecSet s.rank x (rx + 1) else .ok s.rank
      let parent ← vecSet s.parent y x
      .ok { s with rank := rank, parent := parent }
  else .ok s

/-- Loop body of `Partition::classes` (partitions.rs:101-110): state is the partition,
`class_for_rep` and `classes`. -/
def classesStep (s : PState T) (cfr : List (T × Nat)) (classes : List (List T)) (e : T) :
    Outcome (PState T × List (T × Nat) × List (List T)) := do
  let (rep, s) ← find s e
  match cfr.lookup rep with
  | some cl => do
    let c ← vecGet classes cl
    .ok (s, cfr, classes.set cl (c ++ [e]))
  | none => .ok (s, (rep, classes.length) :: cfr, classes ++ [[e]])

/-- The loop of `Partition::classes`. -/
def classesLoop : List T → PState T → List (T × Nat) → List (List T) →
    Outcome (PState T × List (List T))
  | [], s, _, classes => .ok (s, classes)
  | e :: es, s, cfr, classes => do
    let (s, cfr, classes) ← classesStep s cfr classes e
    classesLoop es s cfr classes

/-- `Partition::classes` (partitions.rs:97-113). -/
def classes (s : PState T) (elms : List T) : Outcome (PState T × List (List T)) :=
  classesLoop elms s [] []

/-- A call of the public API that may change the state of a `Partition`. -/
inductive Op (T : Type) where
  | find (a : T)
  | unite (a b : T)
  | classes (elms : List T)
deriving DecidableEq, Repr

/-- Perform one call, dropping its answer. -/
def step (s : PState T) : Op T → Outcome (PState T)
  | .find a => do let (_, s) ← find s a; .ok s
  | .unite a b => unite s a b
  | .classes elms => do let (s, _) ← classes s elms; .ok s

/-- Perform a history of calls. -/
def run (s : PState T) : List (Op T) → Outcome (PState T)
  | [] => .ok s
  | op :: ops => do let s ← step s op; run s ops

end Systre.Partitions
