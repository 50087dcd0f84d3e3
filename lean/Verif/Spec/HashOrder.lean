import Verif.Model.Symmetries

/-!
# Specification of C84: the same automorphism, whatever the order of its hash maps
-/

namespace Systre

/-- The same automorphism: the entries of the two maps are the same, perhaps in another order. -/
structure SameAut {T : Type} (a b : Automorphism T) : Prop where
  vertices : a.vertexMap.Perm b.vertexMap
  edges : a.edgeMap.Perm b.edgeMap
  transform : a.transform = b.transform

/-- The same automorphisms the same number of times, perhaps in another order. -/
def SameAuts {T : Type} (l l' : List (Automorphism T)) : Prop := ∃ l'', List.Forall₂ SameAut l l'' ∧ l''.Perm l'

/-- Two runs end in the same way: both panic, both do not end, or both return related values. -/
inductive SameOutcome {α β : Type} (R : α → β → Prop) : Outcome α → Outcome β → Prop
  | ok {a b} : R a b → SameOutcome R (.ok a) (.ok b)
  | panic : SameOutcome R .panic .panic
  | diverge : SameOutcome R .diverge .diverge

end Systre
