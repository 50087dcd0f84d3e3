import Verif.Spec.PeriodicGraph
import Mathlib.Data.Matrix.Basic
import Mathlib.Algebra.BigOperators.Group.List.Basic

/-!
# Specification: barycentric placements

`E` is a list of undirected edges without repetition (as in a `Graph`, see C26), `vs` its vertices.
-/

namespace Systre

variable {T : Type} [AddCommGroup T]

/-- The neighbours (with lattice shifts) of the copy of `v` in the origin cell, one for each direction of
each edge: a loop contributes two. -/
def neighbours (E : List (Edge T)) (v : Nat) : List (Nat × T) :=
  E.flatMap (fun e => (if e.head = v then [(e.tail, e.shift)] else []) ++
    (if e.tail = v then [(e.head, -e.shift)] else []))

/-- The Laplacian of the quotient graph, its first row replaced by `1, 0, ..., 0`. Its determinant is the
number of spanning trees. -/
def pinnedLaplacian (E : List (Edge T)) (vs : List Nat) : Matrix (Fin vs.length) (Fin vs.length) ℤ :=
  fun i j =>
    if i.1 = 0 then (if j.1 = 0 then 1 else 0)
    else (if i = j then ((neighbours E vs[i]).length : ℤ) else 0) -
      (((neighbours E vs[i]).filter (fun p => p.1 = vs[j])).length : ℤ)

section
variable {T : Type} [LabelVector T]

/-- The sums of the shifts of the neighbours, zero for the first vertex. -/
def shiftSums (E : List (Edge T)) (vs : List Nat) : Matrix (Fin vs.length) (Fin (LabelVector.dim T)) ℤ :=
  fun i k => if i.1 = 0 then 0
    else ((neighbours E vs[i]).map (fun p => rent (LabelVector.toVec p.2) k.1)).sum

/-- Every vertex is at the average of the positions of its neighbours. -/
def IsBarycentric (E : List (Edge T)) (vs : List Nat) (pos : Nat → Fin (LabelVector.dim T) → ℚ) : Prop :=
  ∀ v ∈ vs, ∀ k, ((neighbours E v).length : ℚ) * pos v k =
    ((neighbours E v).map (fun p => pos p.1 k + ((rent (LabelVector.toVec p.2) k.1 : ℤ) : ℚ))).sum

end

end Systre
