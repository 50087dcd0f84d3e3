import Verif.Model.Symmetries

/-!
# Model of `Hash for Automorphism` (src/pgraphs.rs)
-/

namespace Systre

/-- `Ord` of pairs of vertices: lexicographic. -/
def pairLe (p q : Nat × Nat) : Prop := p.1 < q.1 ∨ p.1 = q.1 ∧ p.2 ≤ q.2

instance : DecidableRel pairLe := fun p q => by unfold pairLe; infer_instance

/-- `Hash for Automorphism` (pgraphs.rs:660-669): what is fed to the hasher, namely the transformation and the
entries of the vertex map in sorted order. The edge map does not take part. -/
def Automorphism.hashInput {T : Type} (a : Automorphism T) : AffineMap Rat × List (Nat × Nat) :=
  (a.transform, a.vertexMap.insertionSort pairLe)

end Systre
