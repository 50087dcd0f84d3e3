import Verif.Model.Symmetries
import Verif.Tests.Geometry

/-!
# The repository's own unit tests, run on the model: symmetries of periodic graphs

Every `#[test]` of `src/symmetries.rs` (447-843). The placements are computed with `10` steps of the p-adic solver.
-/

namespace Systre.Tests

open Systre.Partitions (classes)

/-- The barycentric placement of a graph. -/
def place {T : Type} [LabelVector T] (g : Graph T) : Outcome PosTable := placement 10 g

-- The graphs of the tests (symmetries.rs:489-618).
def sql : Graph V2 := Graph.new [⟨1, 1, ⟨1, 0⟩⟩, ⟨1, 1, ⟨0, 1⟩⟩]
def pcu : Graph V3 := Graph.new [⟨1, 1, ⟨1, 0, 0⟩⟩, ⟨1, 1, ⟨0, 1, 0⟩⟩, ⟨1, 1, ⟨0, 0, 1⟩⟩]
def hcb : Graph V2 := Graph.new [⟨1, 2, ⟨0, 0⟩⟩, ⟨1, 2, ⟨1, 0⟩⟩, ⟨1, 2, ⟨0, 1⟩⟩]
def dia : Graph V3 := Graph.new [⟨1, 2, ⟨0, 0, 0⟩⟩, ⟨1, 2, ⟨1, 0, 0⟩⟩, ⟨1, 2, ⟨0, 1, 0⟩⟩, ⟨1, 2, ⟨0, 0, 1⟩⟩]
def sql2 : Graph V2 := Graph.new [⟨1, 2, ⟨0, 0⟩⟩, ⟨2, 1, ⟨1, 0⟩⟩, ⟨1, 1, ⟨0, 1⟩⟩, ⟨2, 2, ⟨0, 1⟩⟩]
def sql4 : Graph V2 := Graph.new [⟨1, 2, ⟨0, 0⟩⟩, ⟨2, 1, ⟨1, 0⟩⟩, ⟨3, 4, ⟨0, 0⟩⟩, ⟨4, 3, ⟨1, 0⟩⟩, ⟨1, 3, ⟨0, 0⟩⟩, ⟨3, 1, ⟨0, 1⟩⟩, ⟨2, 4, ⟨0, 0⟩⟩, ⟨4, 2, ⟨0, 1⟩⟩]
def sqlC2 : Graph V2 := Graph.new [⟨1, 1, ⟨1, 0⟩⟩, ⟨1, 1, ⟨0, 1⟩⟩, ⟨2, 2, ⟨1, 0⟩⟩, ⟨2, 2, ⟨0, 1⟩⟩, ⟨1, 2, ⟨0, 0⟩⟩]
def diaC2 : Graph V3 := Graph.new [⟨1, 2, ⟨0, 0, 0⟩⟩, ⟨1, 2, ⟨1, 0, 0⟩⟩, ⟨1, 2, ⟨0, 1, 0⟩⟩, ⟨1, 2, ⟨0, 0, 1⟩⟩, ⟨3, 4, ⟨0, 0, 0⟩⟩, ⟨3, 4, ⟨1, 0, 0⟩⟩, ⟨3, 4, ⟨0, 1, 0⟩⟩, ⟨3, 4, ⟨0, 0, 1⟩⟩, ⟨1, 3, ⟨0, 0, 0⟩⟩, ⟨2, 4, ⟨0, 0, 0⟩⟩]
def sql2C2 : Graph V2 := Graph.new [⟨1, 2, ⟨0, 0⟩⟩, ⟨2, 1, ⟨1, 0⟩⟩, ⟨1, 1, ⟨0, 1⟩⟩, ⟨2, 2, ⟨0, 1⟩⟩, ⟨3, 4, ⟨0, 0⟩⟩, ⟨4, 3, ⟨1, 0⟩⟩, ⟨3, 3, ⟨0, 1⟩⟩, ⟨4, 4, ⟨0, 1⟩⟩, ⟨1, 3, ⟨0, 0⟩⟩, ⟨2, 4, ⟨0, 0⟩⟩]
def sqlC4 : Graph V2 := Graph.new [⟨1, 1, ⟨1, 0⟩⟩, ⟨1, 1, ⟨0, 1⟩⟩, ⟨2, 2, ⟨1, 0⟩⟩, ⟨2, 2, ⟨0, 1⟩⟩, ⟨3, 3, ⟨1, 0⟩⟩, ⟨3, 3, ⟨0, 1⟩⟩, ⟨4, 4, ⟨1, 0⟩⟩, ⟨4, 4, ⟨0, 1⟩⟩, ⟨1, 2, ⟨0, 0⟩⟩, ⟨2, 3, ⟨0, 0⟩⟩, ⟨3, 4, ⟨0, 0⟩⟩, ⟨4, 1, ⟨0, 0⟩⟩]

/-- `g.symmetries().len()` -/
def symCount {T : Type} [LabelVector T] (g : Graph T) : Outcome Nat := do pure (← symmetries 200 (place g) g).length

/-- `g.vertex_orbits().len()` -/
def vertexOrbitCount {T : Type} [LabelVector T] (g : Graph T) : Outcome Nat := do
  pure (← vertexOrbits g (← symmetries 200 (place g) g)).length

/-- `g.edge_orbits().len()` -/
def edgeOrbitCount {T : Type} [LabelVector T] (g : Graph T) : Outcome Nat := do
  pure (← edgeOrbits g (← symmetries 200 (place g) g)).length

/-- The classes of `raw_translational_equivalences`. -/
def rawClasses {T : Type} [LabelVector T] (g : Graph T) : Outcome (List (List Nat)) := do
  pure (← classes (← rawTranslationalEquivalences (place g) g) g.vertices).2

/-- The classes of `translational_equivalences`. -/
def transClasses {T : Type} [LabelVector T] (g : Graph T) : Outcome (List (List Nat)) := do
  pure (← classes (← translationalEquivalences (place g) g) g.vertices).2

/-- `ladder_symmetries(&g).len()` -/
def ladderCount {T : Type} [LabelVector T] (g : Graph T) : Outcome Nat := do
  pure (← ladderSymmetries (place g) g).length

/-- What the tests look at in an automorphism: the transform, the map of the vertices as a set of pairs, and the number of edges
in the domain of the map of the edges. -/
def autView {T : Type} [LabelVector T] (g : Graph T) (src img : Nat) (t : Outcome (AffineMap Rat)) (vs : List (Nat × Nat)) :
    Outcome (Bool × Bool × Nat) := do
  let t ← t
  let a ← unwrap (← automorphism (place g) g src img t)
  pure (decide (a.transform = t), hmEq a.vertexMap vs, a.edgeMap.length)

-- `test_syms_translational_automorphism`
example : autView sql 1 1 (AffineMap.identity 2) [(1, 1)] = .ok (true, true, 4) := by decide +kernel
example : autView sql2 1 2 (AffineMap.identity 2) [(1, 2), (2, 1)] = .ok (true, true, 8) := by decide +kernel
example : autView sql4 1 2 (AffineMap.identity 2) [(1, 2), (2, 1), (3, 4), (4, 3)] = .ok (true, true, 16) := by
  decide +kernel
example : autView sql4 1 4 (AffineMap.identity 2) [(1, 4), (4, 1), (2, 3), (3, 2)] = .ok (true, true, 16) := by
  decide +kernel

-- `test_syms_nontranslational_automorphism`
example : autView sql 1 1 (do AffineMap.new (← mq 2 [0, -1, 1, 0]) (← vq [1, 0])) [(1, 1)] = .ok (true, true, 4) := by
  decide +kernel

/-- `left`, `right`, `up` and `down` of `test_syms_characteristic_edge_lists`. -/
def step (x y : Int) : Edge V2 := ⟨1, 1, ⟨x, y⟩⟩

/-- The list `expected` of that test. -/
def expectedLists : List (List (Edge V2)) :=
  [[step (-1) 0, step 0 (-1)], [step (-1) 0, step 0 1], [step 0 (-1), step (-1) 0], [step 0 (-1), step 1 0],
   [step 0 1, step (-1) 0], [step 0 1, step 1 0], [step 1 0, step 0 (-1)], [step 1 0, step 0 1]]

-- `test_syms_characteristic_edge_lists` (the test sorts both lists)
example : (do pure (decide ((← characteristicEdgeLists (place sql) sql).Perm expectedLists))) = .ok true := by
  decide +kernel
example : (do pure (decide ((← goodEdgeChains (place sql) sql).Perm expectedLists))) = .ok true := by decide +kernel
example : (do pure (decide ((← goodCombinations (place sql) (← sql.directedEdges)).Perm expectedLists))) = .ok true := by
  decide +kernel

-- `test_syms_raw_equivalence_classes`
example : rawClasses sql = .ok [[1]] := by decide +kernel
example : rawClasses hcb = .ok [[1], [2]] := by decide +kernel
example : rawClasses sql2 = .ok [[1, 2]] := by decide +kernel
example : rawClasses sql4 = .ok [[1, 2, 3, 4]] := by decide +kernel
example : rawClasses sql2C2 = .ok [[1, 2, 3, 4]] := by decide +kernel

-- `test_syms_equivalence_classes`, `test_syms_equivalence_classes_ladder`
example : Same (rawClasses sql) (transClasses sql) := by decide +kernel
example : Same (rawClasses sql2) (transClasses sql2) := by decide +kernel
example : Same (rawClasses sql4) (transClasses sql4) := by decide +kernel
example : transClasses sql2C2 = .ok [[1, 2], [3, 4]] := by decide +kernel

-- `test_syms_ladder_symmetries`, `test_syms_ladder_symmetries_not_locally_stable`
example : ladderCount sql = .ok 0 := by decide +kernel
example : ladderCount sql2 = .ok 0 := by decide +kernel
example : ladderCount sql4 = .ok 0 := by decide +kernel
example : ladderCount sql2C2 = .ok 1 := by decide +kernel
example : ladderCount sqlC4 = .panic := by decide +kernel

-- `test_syms_is_ladder`
example : isLadder (place sql) sql = .ok false := by decide +kernel
example : isLadder (place hcb) hcb = .ok false := by decide +kernel
example : isLadder (place sql2) sql2 = .ok false := by decide +kernel
example : isLadder (place sql4) sql4 = .ok false := by decide +kernel
example : isLadder (place sqlC2) sqlC2 = .ok true := by decide +kernel
example : isLadder (place sql2C2) sql2C2 = .ok true := by decide +kernel

-- `test_syms_is_minimal`
example : isMinimal (place sql) sql = .ok true := by decide +kernel
example : isMinimal (place hcb) hcb = .ok true := by decide +kernel
example : isMinimal (place sql2) sql2 = .ok false := by decide +kernel
example : isMinimal (place sql4) sql4 = .ok false := by decide +kernel
example : isMinimal (place sqlC2) sqlC2 = .ok true := by decide +kernel
example : isMinimal (place sql2C2) sql2C2 = .ok false := by decide +kernel

-- `test_syms_minimal_image` (graphs with the same text are the same graphs here: both are lists of canonical edges)
example : minimalImage (place sql) sql = .ok none := by decide +kernel
example : minimalImage (place hcb) hcb = .ok none := by decide +kernel
example : minimalImage (place sqlC2) sqlC2 = .ok none := by decide +kernel
example : minimalImage (place sql2) sql2 = .ok (some sql) := by decide +kernel
example : minimalImage (place sql2C2) sql2C2 = .ok (some sqlC2) := by decide +kernel
example : (do
    let g ← unwrap (← minimalImage (place sql4) sql4)
    pure (g.vertices.length, (← g.directedEdges).length)) = .ok (1, 4) := by decide +kernel

-- `test_syms_symmetries`
example : symCount sql = .ok 8 := by decide +kernel
example : symCount hcb = .ok 12 := by decide +kernel
example : symCount sqlC2 = .ok 16 := by decide +kernel

-- `test_syms_vertex_orbits`
example : vertexOrbitCount sql = .ok 1 := by decide +kernel
example : vertexOrbitCount hcb = .ok 1 := by decide +kernel
example : vertexOrbitCount sqlC2 = .ok 1 := by decide +kernel

-- `test_syms_edge_orbits`
example : edgeOrbitCount sql = .ok 1 := by decide +kernel
example : edgeOrbitCount hcb = .ok 1 := by decide +kernel
example : edgeOrbitCount sqlC2 = .ok 2 := by decide +kernel

end Systre.Tests
