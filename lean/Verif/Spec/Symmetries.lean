import Verif.Spec.PeriodicGraph
import Verif.Spec.Placement
import Verif.Spec.Geometry
import Verif.Model.Symmetries
import Mathlib.Data.Set.Function

/-!
# Specification: automorphisms of a placed periodic graph

`raw` is the list of labelled edges that describes the graph, `pos` the positions of its vertices.
-/

namespace Systre

variable {T : Type} [LabelVector T]

/-- The vertex map `vm` and the map `em` of directed edges form an automorphism with the linear part `A`:
both are bijections, ends and reversal of edges are respected, edge vectors are transformed by `A`. -/
structure IsGraphAut (raw : List (Edge T)) (pos : Nat → Fin (LabelVector.dim T) → ℚ) (vm : Nat → Nat)
    (em : Edge T → Edge T) (A : Matrix (Fin (LabelVector.dim T)) (Fin (LabelVector.dim T)) ℚ) : Prop where
  vbij : Set.BijOn vm {v | IsVertex raw v} {v | IsVertex raw v}
  ebij : Set.BijOn em {e | IsDirected raw e} {e | IsDirected raw e}
  head : ∀ e, IsDirected raw e → (em e).head = vm e.head
  tail : ∀ e, IsDirected raw e → (em e).tail = vm e.tail
  rev : ∀ e, IsDirected raw e →
    em ⟨e.tail, e.head, -e.shift⟩ = ⟨(em e).tail, (em e).head, -(em e).shift⟩
  vec : ∀ e, IsDirected raw e → edgeVec pos (em e) = A.mulVec (edgeVec pos e)

/-- The value `a` of the data type stands for the maps `vm`, `em` and the affine map `x ↦ A x + s`: its hash
maps have exactly the vertices and the directed edges as keys. -/
structure Stands (raw : List (Edge T)) (a : Automorphism T) (vm : Nat → Nat) (em : Edge T → Edge T)
    (A : Matrix (Fin (LabelVector.dim T)) (Fin (LabelVector.dim T)) ℚ) (s : Fin (LabelVector.dim T) → ℚ) :
    Prop where
  vkeys : ∀ v w, a.vertexMap.lookup v = some w ↔ IsVertex raw v ∧ w = vm v
  ekeys : ∀ e f, a.edgeMap.lookup e = some f ↔ IsDirected raw e ∧ f = em e
  vnodup : (a.vertexMap.map Prod.fst).Nodup
  enodup : (a.edgeMap.map Prod.fst).Nodup
  aff : IsAff a.transform A s

/-- `a` is an automorphism of the placed graph, with linear part `A` and shift `s` of its affine map. -/
def IsAutomorphism (raw : List (Edge T)) (pos : Nat → Fin (LabelVector.dim T) → ℚ) (a : Automorphism T)
    (A : Matrix (Fin (LabelVector.dim T)) (Fin (LabelVector.dim T)) ℚ) (s : Fin (LabelVector.dim T) → ℚ) : Prop :=
  ∃ vm em, Stands raw a vm em A s ∧ IsGraphAut raw pos vm em A

/-- A lattice vector with rational coordinates. -/
def shv (t : T) : Fin (LabelVector.dim T) → ℚ := fun k => ((rent (LabelVector.toVec t) k.1 : ℤ) : ℚ)

/-- The point where a vertex of the infinite graph lies. -/
def place (pos : Nat → Fin (LabelVector.dim T) → ℚ) (x : Nat × T) : Fin (LabelVector.dim T) → ℚ := pos x.1 + shv x.2

/-- No two edges at a vertex have the same edge vector, and no edge is its own reverse (a loop with zero
shift, which `incidences` lists twice). -/
def LocallyStable (raw : List (Edge T)) (pos : Nat → Fin (LabelVector.dim T) → ℚ) : Prop :=
  (∀ e f, IsDirected raw e → IsDirected raw f → e.head = f.head → edgeVec pos e = edgeVec pos f → e = f) ∧
  ∀ e, IsDirected raw e → (⟨e.tail, e.head, -e.shift⟩ : Edge T) ≠ e

/-- `vm` is the vertex map of an automorphism with the linear part 1, that is, a translation (modulo the
translations of the given lattice). -/
def IsTranslation (raw : List (Edge T)) (pos : Nat → Fin (LabelVector.dim T) → ℚ) (vm : Nat → Nat) : Prop :=
  ∃ em, IsGraphAut raw pos vm em 1

/-- every translation of the graph is a lattice translation, as far as its vector is concerned -/
def LatticeIsFull (raw : List (Edge T)) (pos : Nat → Fin (LabelVector.dim T) → ℚ) : Prop :=
  ∀ γ, IsTranslation raw pos γ → ∀ v, IsVertex raw v → SameModLattice (pos (γ v)) (pos v)

/-- a translation that moves vertices to other vertices at the same place (modulo the lattice) -/
def IsLadderTranslation (raw : List (Edge T)) (pos : Nat → Fin (LabelVector.dim T) → ℚ) (vm : Nat → Nat) : Prop :=
  IsTranslation raw pos vm ∧ ∃ v, IsVertex raw v ∧ vm v ≠ v ∧ SameModLattice (pos (vm v)) (pos v)

/-- `raw'` describes the same infinite graph as `raw`, written with respect to the lattice of all translations:
there is an isomorphism of the infinite graphs; vertices of `raw` fall together in the new quotient graph exactly
if a translation maps one to the other; the lattice coordinates of equivalent vertices differ by a linear function
of the vector between their places. -/
def IsFinerForm (raw : List (Edge T)) (pos : Nat → Fin (LabelVector.dim T) → ℚ) (raw' : List (Edge T)) : Prop :=
  ∃ Φ : Nat × T → Nat × T,
    Set.BijOn Φ {x | IsVertex raw x.1} {y | IsVertex raw' y.1} ∧
    (∀ x y, IsVertex raw x.1 → IsVertex raw y.1 → (Adj raw' (Φ x) (Φ y) ↔ Adj raw x y)) ∧
    (∀ x y, IsVertex raw x.1 → IsVertex raw y.1 →
      ((Φ x).1 = (Φ y).1 ↔ ∃ γ, IsTranslation raw pos γ ∧ γ x.1 = y.1)) ∧
    ∃ C : Matrix (Fin (LabelVector.dim T)) (Fin (LabelVector.dim T)) ℚ, IsUnit C ∧
      ∀ x y, IsVertex raw x.1 → IsVertex raw y.1 → (Φ x).1 = (Φ y).1 →
        shv (Φ y).2 - shv (Φ x).2 = C.mulVec (place pos y - place pos x)

end Systre
