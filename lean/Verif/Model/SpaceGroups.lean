import Verif.Model.Geometry
import Verif.Model.Lattices

/-!
# Model of `src/spacegroups/basics.rs`

Hash sets are lists; the loop of `generate` has fuel.
-/

namespace Systre.SpaceGroups

/-- The inner loop of `generate` (basics.rs:34-40); the state is `seen` and `result`. -/
def genInner (a : AffineMap Rat) : List (AffineMap Rat) → List (AffineMap Rat) → List (AffineMap Rat) →
    Outcome (List (AffineMap Rat) × List (AffineMap Rat))
  | [], seen, result => .ok (seen, result)
  | b :: gens, seen, result => do
    let p ← a.mul b
    let ab ← p.modZ
    if ab ∈ seen then genInner a gens seen result
    else genInner a gens (ab :: seen) (result ++ [ab])

/-- The loop of `generate` (basics.rs:30-41). -/
def genLoop (gens : List (AffineMap Rat)) : Nat → Nat → List (AffineMap Rat) → List (AffineMap Rat) →
    Outcome (List (AffineMap Rat))
  | 0, _, _, _ => .diverge
  | fuel + 1, i, seen, result =>
    match result[i]? with
    | none => .ok result
    | some a => do
      let (seen, result) ← genInner a gens seen result
      genLoop gens fuel (i + 1) seen result

/-- `generate` (basics.rs:14-44) over ℚ. -/
def generate (fuel : Nat) (gens : List (AffineMap Rat)) : Outcome (List (AffineMap Rat)) := do
  rassert (decide (gens ≠ []))
  let g0 ← vecGet gens 0
  let id ← AffineMap.identity g0.dim
  genLoop gens fuel 0 [id] [id]

/-- `struct PrimitiveSetting` (basics.rs:47-51). -/
structure PrimitiveSetting where
  cell : List (Vec Rat)
  toPrimitive : CoordMap Rat
  ops : List (AffineMap Rat)
deriving DecidableEq

/-- The loop that collects the operators, without repetition (basics.rs:79-85). -/
def primitiveOps (c : CoordMap Rat) : List (AffineMap Rat) → List (AffineMap Rat) → List (AffineMap Rat) →
    Outcome (List (AffineMap Rat))
  | [], _, ops => .ok ops
  | op :: rest, seen, ops => do
    let x ← c.applyAff op
    let t ← x.modZ
    if t ∈ seen then primitiveOps c rest seen ops
    else primitiveOps c rest (t :: seen) (ops ++ [t])

/-- `PrimitiveSetting::new` (basics.rs:59-88). -/
def PrimitiveSetting.new (opsAll : List (AffineMap Rat)) : Outcome PrimitiveSetting := do
  rassert (decide (opsAll ≠ []))
  let o0 ← vecGet opsAll 0
  let id ← Mat.identity o0.dim
  let s0 ← Vec.zero o0.dim
  let translations := (opsAll.filter (fun op => decide (op.linear = id ∧ op.shift ≠ s0))).map
    (fun op => op.shift.coords.data)
  let basis ← Lattices.rationalLatticeBasis translations
  let cell ← omap Vec.new basis
  let c ← CoordMap.toBasis cell
  let ops ← primitiveOps c opsAll [] []
  .ok ⟨cell, c, ops⟩

/-! ### Configuration spaces -/

/-- The pairs `(i, j)` with `i ≤ j`, in the order in which `m` counts them (basics.rs:102-108). -/
def upperPairs (dim : Nat) : List (Nat × Nat) :=
  (List.range dim).flatMap (fun i => (List.range' i (dim - i)).map (fun j => (i, j)))

/-- The matrix `k` (basics.rs:99-110): the number of the pair `(i, j)`, in any order. -/
def kIndex (dim i j : Nat) : Nat := (upperPairs dim).idxOf (min i j, max i j)

/-- The two inner loops (basics.rs:121-125), over the list of all pairs `(ja, jb)`. -/
def gramEqnLoop (dim : Nat) (s : Mat Rat) (ia ib : Nat) : List (Nat × Nat) → List Rat → Outcome (List Rat)
  | [], e => .ok e
  | (ja, jb) :: rest, e => do
    let c ← vecGet e (kIndex dim ja jb)
    let x ← s.get ia ja
    let y ← s.get ib jb
    let e ← vecSet e (kIndex dim ja jb) (c + x * y)
    gramEqnLoop dim s ia ib rest e

/-- all pairs of indices, row by row -/
def allPairs (dim : Nat) : List (Nat × Nat) :=
  (List.range dim).flatMap (fun ja => (List.range dim).map (fun jb => (ja, jb)))

/-- One equation (basics.rs:120-126). -/
def gramEqn (dim : Nat) (s : Mat Rat) (p : Nat × Nat) : Outcome (List Rat) := do
  let e ← gramEqnLoop dim s p.1 p.2 (allPairs dim) (List.replicate (upperPairs dim).length 0)
  let c ← vecGet e (kIndex dim p.1 p.2)
  vecSet e (kIndex dim p.1 p.2) (c - 1)

/-- `gram_matrix_configuration_space` (basics.rs:92-138). The equations are made first and then passed to
`extend_basis` one after the other; the code interleaves the two. -/
def gramSpace (ops : List (AffineMap Rat)) : Outcome (Option (Mat Rat)) := do
  let o0 ← vecGet ops 0
  let dim := o0.dim
  let eqns ← omap (fun op => omap (gramEqn dim op.linear) (upperPairs dim)) ops
  let basis ← extendAll eqns.flatten []
  if basis = [] then do
    let i ← Mat.identity (upperPairs dim).length
    .ok (some i)
  else do
    let m ← stackRows basis
    nullSpace m

/-- `shift_space` (basics.rs:141-157). The rows of all the matrices are made first. -/
def shiftSpace (ops : List (AffineMap Rat)) : Outcome (Option (Mat Rat)) := do
  let o0 ← vecGet ops 0
  let id ← Mat.identity o0.dim
  let rows ← omap (fun (op : AffineMap Rat) => do
    let d ← op.linear.sub id
    d.getRows) ops
  let basis ← extendAll rows.flatten []
  let m ← stackRows basis
  nullSpace m

end Systre.SpaceGroups
