import Verif.Spec.Symmetries

/-!
# Specification: symmetries of the infinite graph

The isomorphisms of infinite graphs (`IsInfiniteIso`) are in `Verif/Spec/PeriodicGraph.lean`: bijections of the
vertices that preserve adjacency and non-adjacency. Nothing is assumed about lattice translations or places.
-/

namespace Systre

variable {T : Type} [LabelVector T]

/-- Different vertices of the infinite graph are at different places. -/
def PlacesDistinct (raw : List (Edge T)) (pos : Nat → Fin (LabelVector.dim T) → ℚ) : Prop :=
  ∀ v w, IsVertex raw v → IsVertex raw w → SameModLattice (pos v) (pos w) → v = w

/-- There is no edge from a vertex of the infinite graph to itself. -/
def NoLoops (raw : List (Edge T)) : Prop := ∀ e ∈ raw, ¬ (e.head = e.tail ∧ e.shift = 0)

/-- The map moves no vertex further than a fixed number of steps in the graph. -/
def IsBoundedMap (raw : List (Edge T)) (Φ : Nat × T → Nat × T) : Prop :=
  ∃ n, ∀ x, IsVertex raw x.1 → ∃ m ≤ n, Walk raw m x (Φ x)

end Systre
