import Verif.Spec.PeriodicGraph

/-!
# Specification: isomorphic periodic graphs
-/

namespace Systre

variable {T : Type} [AddCommGroup T]

/-- `raw'` describes the same periodic graph as `raw` in other words: the vertex `v` is now called `vm v`, the copy
of `v` that is called `(v, 0)` is another one, given by `c v`, and lattice vectors are written in another basis of
the lattice, by the automorphism `L` of the group of the lattice vectors. -/
structure IsPeriodicIso (raw raw' : List (Edge T)) (vm : Nat → Nat) (L : T ≃+ T) (c : Nat → T) : Prop where
  inj : Set.InjOn vm {v | IsVertex raw v}
  edges : ∀ f, IsDirected raw' f ↔ ∃ e, IsDirected raw e ∧
    f = ⟨vm e.head, vm e.tail, L (c e.head + e.shift - c e.tail)⟩

/-- The periodic graphs are isomorphic. -/
def AreIsomorphic (raw raw' : List (Edge T)) : Prop := ∃ vm L c, IsPeriodicIso raw raw' vm L c

end Systre
