import Verif.Model.HashOrder
import Verif.Model.Report

/-!
# The demonstration program, for arbitrary iteration orders of its hash tables

`o n` is the order in the `n`-th part of the run. Of the functions that the program calls, `Graph::new` and
`CoordinationSequence::next` iterate over hash tables (see Verif/Model/HashOrder.lean).
-/

namespace Systre

variable {T : Type} [LabelVector T]

/-- `Graph::shift_normalized` (pgraphs.rs:473-488). -/
def Graph.shiftNormalizedIn (o : HashOrder) (g : Graph T) : Outcome (Graph T) := do
  let es ← shiftNormLoop g g.vertices [] []
  .ok (Graph.newIn o es)

namespace Report

section
variable [Shown T]

/-- `test_graph` (main.rs:127-178); `o 0` in `shift_normalized`, `o (v + 1)` in the coordination sequence of `v`. -/
def testGraphIn (o : Nat → HashOrder) (tb : Outcome PosTable) (g : Graph T) : Print Unit := do
  sayln "Graph:".toList
  sayln g.text
  sayln "With normalized shifts:".toList
  let n ← call (g.shiftNormalizedIn (o 0))
  sayln n.text
  sayln "Coordination sequences:".toList
  forEach g.vertices (fun v => do
    say (Nat.toDigits 10 v ++ [':', ' '])
    forEach (List.range 20) (fun k => do
      let c ← call (g.coordinationItemIn (o (v + 1)) v k)
      say (' ' :: Nat.toDigits 10 c))
    sayln [])
  sayln []
  let c ← call g.isConnected
  sayln ("Connected: ".toList ++ boolText c)
  sayln []
  let c ← call g.isConnected
  if c then
    forEach g.vertices (fun v => do
      let p ← call (positionIn tb v)
      sayln ("pos(".toList ++ Nat.toDigits 10 v ++ ") = (".toList ++ pointToString p ++ [')']))
    sayln []
    let b ← call (isStableIn tb g)
    sayln ("Stable: ".toList ++ boolText b)
    let b ← call (isLocallyStableIn tb g)
    sayln ("Locally stable: ".toList ++ boolText b)
    let b ← call (hasSecondOrderCollisionsIn tb g)
    sayln ("Second order collisions: ".toList ++ boolText b)
    sayln []
    forEach g.vertices (fun v => do
      let es ← call (g.incidences v)
      forEach es (fun ngb => do
        let delta ← call (edgeVectorIn tb ngb)
        let r ← call (edgeByUniqueDeltaIn tb g v delta)
        match r with
        | some e => sayln (Nat.toDigits 10 v ++ " => (".toList ++ pointToString delta ++ ") => ".toList ++ e.text)
        | none => sayln (Nat.toDigits 10 v ++ " => (".toList ++ pointToString delta ++ ") => None".toList)))
  sayln []
  sayln "==========".toList
  sayln []

end

/-- `graph2d` (main.rs:97-109). -/
def graph2dIn (o : HashOrder) (spec : List (Int × Int × Int × Int)) : Graph V2 :=
  Graph.newIn o (spec.map (fun r => ⟨asU32 r.1, asU32 r.2.1, ⟨r.2.2.1, r.2.2.2⟩⟩))

/-- `graph3d` (main.rs:112-124). -/
def graph3dIn (o : HashOrder) (spec : List (Int × Int × Int × Int × Int)) : Graph V3 :=
  Graph.newIn o (spec.map (fun r => ⟨asU32 r.1, asU32 r.2.1, ⟨r.2.2.1, r.2.2.2.1, r.2.2.2.2⟩⟩))

/-- One graph of `test_graph_examples` in two dimensions: build it and report on it. -/
def part2 (o : Nat → HashOrder) (place : Graph V2 → Outcome PosTable) (spec : List (Int × Int × Int × Int)) :
    Print Unit :=
  testGraphIn (fun n => o (n + 1)) (place (graph2dIn (o 0) spec)) (graph2dIn (o 0) spec)

/-- One graph of `test_graph_examples` in three dimensions: build it and report on it. -/
def part3 (o : Nat → HashOrder) (place : Graph V3 → Outcome PosTable) (spec : List (Int × Int × Int × Int × Int)) :
    Print Unit :=
  testGraphIn (fun n => o (n + 1)) (place (graph3dIn (o 0) spec)) (graph3dIn (o 0) spec)

/-- `test_graph_examples`, `main` (main.rs:7-90); `o i` are the orders for the `i`-th graph. -/
def mainIn (o : Nat → Nat → HashOrder) (place2 : Graph V2 → Outcome PosTable) (place3 : Graph V3 → Outcome PosTable) :
    Print Unit := do
  part2 (o 1) place2 spec1
  part3 (o 2) place3 spec2
  part3 (o 3) place3 spec3
  part2 (o 4) place2 spec4
  part2 (o 5) place2 spec5
  part3 (o 6) place3 spec6
  part3 (o 7) place3 spec7
  part3 (o 8) place3 spec8
  part3 (o 9) place3 spec9

end Report
end Systre
