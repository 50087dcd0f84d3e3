import Verif.Model.PGraphs
import Mathlib.Logic.Relation
import Mathlib.Data.Set.Function
import Mathlib.Algebra.Group.Subgroup.Lattice

/-!
# Specification: the infinite periodic graph described by a list of labelled edges

Its vertices are pairs (vertex of the quotient, lattice vector); an entry `⟨v, w, s⟩` of the list joins
`(v, a)` and `(w, a + s)` for every lattice vector `a`. Only the data type `Edge` is taken from the model.
-/

namespace Systre

variable {T : Type} [AddCommGroup T]

/-- `e` or its reverse is in the list. -/
def IsDirected (raw : List (Edge T)) (e : Edge T) : Prop :=
  e ∈ raw ∨ (⟨e.tail, e.head, -e.shift⟩ : Edge T) ∈ raw

/-- `v` is an end point of an edge. -/
def IsVertex (raw : List (Edge T)) (v : Nat) : Prop := ∃ e ∈ raw, v = e.head ∨ v = e.tail

/-- Adjacency in the infinite graph. -/
def Adj (raw : List (Edge T)) (a b : Nat × T) : Prop :=
  ∃ e, IsDirected raw e ∧ e.head = a.1 ∧ e.tail = b.1 ∧ a.2 + e.shift = b.2

/-- There is a walk with `n` edges from `a` to `b`. -/
inductive Walk (raw : List (Edge T)) : Nat → Nat × T → Nat × T → Prop
  | here (a : Nat × T) : Walk raw 0 a a
  | step {n : Nat} {a b c : Nat × T} : Walk raw n a b → Adj raw b c → Walk raw (n + 1) a c

/-- The graph distance of `a` and `b` is `n`. -/
def AtDistance (raw : List (Edge T)) (n : Nat) (a b : Nat × T) : Prop :=
  Walk raw n a b ∧ ∀ m, m < n → ¬ Walk raw m a b

/-- `a` and `b` are joined by a path. -/
def Joined (raw : List (Edge T)) : Nat × T → Nat × T → Prop := Relation.ReflTransGen (Adj raw)

/-- Any two vertices of the infinite graph are joined by a path. -/
def PeriodicConnected (raw : List (Edge T)) : Prop :=
  ∀ v w, IsVertex raw v → IsVertex raw w → ∀ s t : T, Joined raw (v, s) (w, t)

/-- Adjacency in the finite quotient graph. -/
def QAdj (raw : List (Edge T)) (v w : Nat) : Prop := ∃ e, IsDirected raw e ∧ e.head = v ∧ e.tail = w

/-- `v` and `w` are in the same component of the quotient graph. -/
def QJoined (raw : List (Edge T)) : Nat → Nat → Prop := Relation.ReflTransGen (QAdj raw)

/-- The quotient graph is connected. -/
def QuotientConnected (raw : List (Edge T)) : Prop :=
  ∀ v w, IsVertex raw v → IsVertex raw w → QJoined raw v w

/-- The lattice of translations that map the component of `(v, 0)` in the infinite graph to itself: the
shifts of all closed walks at `v`. -/
def cycleLattice (raw : List (Edge T)) (v : Nat) : AddSubgroup T :=
  AddSubgroup.closure {t | Joined raw (v, 0) (v, t)}

/-- `raw'` describes the same periodic graph as `raw`, but the copy of each vertex `v` that is called `(v, 0)` is
another one, given by `c v`. -/
def ChangesRepresentatives (c : Nat → T) (raw raw' : List (Edge T)) : Prop :=
  ∀ e, IsDirected raw' e ↔ ∃ f, IsDirected raw f ∧ e = ⟨f.head, f.tail, c f.head + f.shift - c f.tail⟩

/-- `raw` and `raw'` differ only in the choice of the representatives. -/
def SameUpToRepresentatives (raw raw' : List (Edge T)) : Prop := ∃ c, ChangesRepresentatives c raw raw'

/-- `Φ` is an isomorphism of the infinite graphs. -/
def IsInfiniteIso (raw raw' : List (Edge T)) (Φ : Nat × T → Nat × T) : Prop :=
  Set.BijOn Φ {x | IsVertex raw x.1} {y | IsVertex raw' y.1} ∧
  ∀ x y, IsVertex raw x.1 → IsVertex raw y.1 → (Adj raw' (Φ x) (Φ y) ↔ Adj raw x y)

end Systre
