import Verif.Tests.Graphs

/-!
# The repository's own unit tests, run on the model: symmetries of periodic graphs in dimension three

The assertions of `test_syms_symmetries`, `test_syms_vertex_orbits` and `test_syms_edge_orbits` (symmetries.rs:813-843) for the
graph `pcu`. The other two three-dimensional graphs take the kernel too much memory (`dia`: 5 GB, `dia_c2`: 15 GB); evaluated
outside the kernel the model gives `(48, 1, 1)` and `(96, 1, 2)` for them, as the repository expects.
-/

namespace Systre.Tests

/-- The numbers of symmetries, of orbits of vertices and of orbits of edges. -/
def symCounts {T : Type} [LabelVector T] (g : Graph T) : Outcome (Nat × Nat × Nat) := do
  let l ← symmetries 200 (place g) g
  pure (l.length, (← vertexOrbits g l).length, (← edgeOrbits g l).length)

example : symCounts pcu = .ok (48, 1, 1) := by decide +kernel

end Systre.Tests
