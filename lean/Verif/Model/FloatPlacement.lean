import Verif.Model.FloatSteps
import Verif.Model.PGraphs

/-!
# `barycentric_placement` with the solver as it is
-/

namespace Systre

open Systre.Modular

variable {T : Type} [LabelVector T]

/-- `barycentric_placement` (pgraphs.rs:739-777), like `placement`, but with the solver that computes its number
of steps in floating point numbers and checks `i64` for overflows. The counts in the matrix `a` and the sums of
`i32` shifts in `t` are formed without checks here. -/
noncomputable def placementFloat (F : FloatOps) (g : Graph T) : Outcome PosTable := do
  let (a, t) ← laplaceSystem g
  let r ← F.solve i64Check a t
  let p ← unwrap r
  let rows ← omap (vecGet p) (List.range g.vertices.length)
  .ok (g.vertices.zip rows)

end Systre
