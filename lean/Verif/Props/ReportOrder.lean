import Verif.Model.ReportOrder
import Verif.Props.HashOrder

/-!
# Property C84: the printed report does not depend on the iteration order of hash tables
-/

namespace Systre
namespace Report

variable {T : Type} [LabelVector T]

theorem shiftNormalizedIn_eq (o : HashOrder) (g : Graph T) : g.shiftNormalizedIn o = g.shiftNormalized := by
  unfold Graph.shiftNormalizedIn Graph.shiftNormalized
  simp only [C84_graph]

/-- **C84** The report on a graph is the same text, letter by letter, whatever orders the tables are iterated in; and
it ends in the same way, where it panics. -/
theorem C84_report [Shown T] (o : Nat → HashOrder) (tb : Outcome PosTable) (g : Graph T) :
    testGraphIn o tb g = testGraph tb g := by
  unfold testGraphIn testGraph
  simp only [shiftNormalizedIn_eq, C84_coordination_sequence]
  rfl

/-- **C84** The demonstration program prints the same text for all orders: two runs cannot be told apart. -/
theorem C84_main (o : Nat → Nat → HashOrder) (place2 : Graph V2 → Outcome PosTable)
    (place3 : Graph V3 → Outcome PosTable) : mainIn o place2 place3 = main place2 place3 := by
  have e2 : ∀ (o : HashOrder) s, graph2dIn o s = graph2d s := fun o s => C84_graph o _
  have e3 : ∀ (o : HashOrder) s, graph3dIn o s = graph3d s := fun o s => C84_graph o _
  unfold mainIn main part2 part3
  simp only [e2, e3, C84_report]

/-! ### Witnesses: the orders do occur in the run -/

example : (testGraphIn (fun _ => backwards) hcbTb (Graph.new hcbEx)).out =
    (testGraph hcbTb (Graph.new hcbEx)).out := by rw [C84_report]

/-- Backwards, the second shell of the honeycomb net is found in another order. -/
example : (CoordSeq.iterateIn backwards (Graph.new hcbEx) 0 2 (CoordSeq.new 1) >>= fun s => Outcome.ok s.this) ≠
    (CoordSeq.iterate (Graph.new hcbEx) 2 (CoordSeq.new 1) >>= fun s => Outcome.ok s.this) := by
  decide +kernel

end Report
end Systre
