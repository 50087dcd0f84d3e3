import Verif.Model.LinearAlgebra
import Mathlib.Data.Rat.Defs
import Mathlib.Data.List.Sort
import Mathlib.Data.Fin.VecNotation
import Mathlib.Algebra.Order.Ring.Rat

/-!
# Model of `src/spacegroups/lattices.rs`

Coordinates are `BigRational` (`impl Coord for BigRational`, types.rs:32-51); the `f64` use is not
modelled. The scalar product passed by the caller is an arbitrary total function `dot`. Simplification:
`add`, `sub` read missing coordinates of a too short second argument as zero (the Rust code would panic);
the theorems are about vectors of one length.

The three loops that have no bound in the code take fuel; the theorems say that there is an amount of fuel
from which on the result does not change.
-/

namespace Systre.Lattices
open Systre

/-- `neg` (lattices.rs:189-193). -/
def vNeg (v : List Rat) : List Rat := v.map (fun x => -x)

/-- `add` (lattices.rs:196-200). -/
def vAdd (v w : List Rat) : List Rat := rowFn v.length (fun i => rent v i + rent w i)

/-- `sub` (lattices.rs:203-207). -/
def vSub (v w : List Rat) : List Rat := rowFn v.length (fun i => rent v i - rent w i)

/-- `mul` (lattices.rs:210-214). -/
def vMul (v : List Rat) (t : Rat) : List Rat := rowFn v.length (fun i => rent v i * t)

/-- Division of `BigRational`s, panics for a zero divisor. -/
def rdiv (a b : Rat) : Outcome Rat := if b = 0 then .panic else .ok (a / b)

/-- `BigRational::round` (types.rs:33-35, num-rational): half-integers are rounded away from zero. -/
def rround (q : Rat) : Rat :=
  let t : Int := q.num.tdiv q.den
  let f := |q - t|
  if 1 / 2 ≤ f then (if 0 ≤ q then (t : Rat) + 1 else (t : Rat) - 1) else t

/-! ### Dirichlet domain -/

/-- One pass over the vectors (lattices.rs:25-32): shift and `proceed`. -/
def shiftPass (p : List Rat) (dot : List Rat → List Rat → Rat) (eps : Rat) :
    List (List Rat) → List Rat → Bool → Outcome (List Rat × Bool)
  | [], shift, proceed => .ok (shift, proceed)
  | v :: vs, shift, proceed => do
    let t ← rdiv (dot (vAdd p shift) v) (dot v v)
    let t2 := t + t
    if t2 < -1 ∨ t2 > 1 + eps then
      shiftPass p dot eps vs (vSub shift (vMul v (rround t))) true
    else shiftPass p dot eps vs shift proceed

/-- The `while` loop (lattices.rs:22-33). -/
def shiftLoop (p : List Rat) (vs : List (List Rat)) (dot : List Rat → List Rat → Rat) (eps : Rat) :
    Nat → List Rat → Outcome (List Rat)
  | 0, _ => .diverge
  | fuel + 1, shift => do
    let (shift, proceed) ← shiftPass p dot eps vs shift false
    if proceed then shiftLoop p vs dot eps fuel shift else .ok shift

/-- `shift_for_dirichlet_domain` (lattices.rs:12-36). -/
def shiftForDirichletDomain (fuel : Nat) (p : List Rat) (vs : List (List Rat))
    (dot : List Rat → List Rat → Rat) (eps : Rat) : Outcome (List Rat) :=
  shiftLoop p vs dot eps fuel (List.replicate p.length 0)

/-! ### Reduction -/

/-- The `while` loop of `lagrange_reduced` (lattices.rs:119-123). -/
def lagrangeLoop (dot : List Rat → List Rat → Rat) (fudge : Rat) :
    Nat → List Rat → List Rat → Outcome (List Rat × List Rat)
  | 0, _, _ => .diverge
  | fuel + 1, u, v =>
    if dot u u < dot v v * fudge then do
      let q ← rdiv (dot u v) (dot u u)
      let w := vSub v (vMul u (rround q))
      lagrangeLoop dot fudge fuel w u
    else .ok (u, v)

/-- `lagrange_reduced` (lattices.rs:106-130). -/
def lagrangeReduced (fuel : Nat) (u v : List Rat) (dot : List Rat → List Rat → Rat) (eps : Rat) :
    Outcome (List Rat × List Rat) := do
  let (u, v) := if dot v v < dot u u then (v, u) else (u, v)
  let (u, v) ← lagrangeLoop dot (1 - eps) fuel u v
  .ok (if 0 < dot u v then (u, vNeg v) else (u, v))

/-- The four vectors `vs` of `selling_reduced` (lattices.rs:138). -/
abbrev Quad := Fin 4 → List Rat

/-- The update of the four vectors (lattices.rs:146-151): `vs[i]` is added to the two vectors other than
`vs[i]`, `vs[j]`, and then negated. -/
def sellingUpdate (vs : Quad) (i j : Fin 4) : Quad :=
  fun k => if k = i then vNeg (vs i) else if k = j then vs j else vAdd (vs k) (vs i)

/-- The pairs of indices in the order of the two nested loops (lattices.rs:143-144). -/
def sellingPairs : List (Fin 4 × Fin 4) := [(0, 1), (0, 2), (0, 3), (1, 2), (1, 3), (2, 3)]

/-- One pass over the pairs (lattices.rs:141-155). -/
def sellingPass (dot : List Rat → List Rat → Rat) (eps : Rat) :
    List (Fin 4 × Fin 4) → Quad → Bool → Quad × Bool
  | [], vs, changed => (vs, changed)
  | (i, j) :: ps, vs, changed =>
    if dot (vs i) (vs j) > eps then sellingPass dot eps ps (sellingUpdate vs i j) true
    else sellingPass dot eps ps vs changed

/-- The loop (lattices.rs:140-160). -/
def sellingLoop (dot : List Rat → List Rat → Rat) (eps : Rat) : Nat → Quad → Outcome Quad
  | 0, _ => .diverge
  | fuel + 1, vs =>
    match sellingPass dot eps sellingPairs vs false with
    | (vs, true) => sellingLoop dot eps fuel vs
    | (vs, false) => .ok vs

/-- `selling_reduced` (lattices.rs:133-163). -/
def sellingReduced (fuel : Nat) (u v w : List Rat) (dot : List Rat → List Rat → Rat) (eps : Rat) :
    Outcome (List Rat × List Rat × List Rat) := do
  let s := vNeg (vAdd (vAdd u v) w)
  let vs ← sellingLoop dot eps fuel ![u, v, w, s]
  .ok (vs 0, vs 1, vs 2)

/-- `dirichlet_vectors` (lattices.rs:77-103). -/
def dirichletVectors (fuel : Nat) (basis : List (List Rat)) (dot : List Rat → List Rat → Rat) (eps : Rat) :
    Outcome (List (List Rat)) := do
  rassert (basis.all (fun v => v.length = basis.length))
  match basis with
  | [] => .ok []
  | [u] => .ok [u]
  | [u, v] => do
    let (u, v) ← lagrangeReduced fuel u v dot eps
    .ok [u, v, vAdd u v]
  | [u, v, w] => do
    let (u, v, w) ← sellingReduced fuel u v w dot eps
    .ok [u, v, w, vAdd u v, vAdd u w, vAdd v w, vAdd (vAdd u v) w]
  | _ => .panic

/-- `positive_direction` (lattices.rs:177-186). -/
def positiveDirection (v : List Rat) : List Rat :=
  match v.find? (fun x => decide (x ≠ 0)) with
  | some x => if x < 0 then vNeg v else v
  | none => v

/-- `partial_cmp` of two vectors of rationals, `true` if the first is at most the second
(lexicographic). -/
def lexLeQ : List Rat → List Rat → Bool
  | [], _ => true
  | _ :: _, [] => false
  | a :: as, b :: bs => if a < b then true else if b < a then false else lexLeQ as bs

/-- The comparison function of the sort (lattices.rs:47-54): `v` is not greater than `w`. -/
def sortLe (dot : List Rat → List Rat → Rat) (v w : List Rat) : Prop :=
  dot v v < dot w w ∨
    (dot v v = dot w w ∧ lexLeQ (positiveDirection w) (positiveDirection v) = true)

instance (dot : List Rat → List Rat → Rat) : DecidableRel (sortLe dot) := fun v w => by
  unfold sortLe; infer_instance

/-- `rank` (lattices.rs:166-174). -/
def rankOf (vs : List (List Rat)) : Outcome Nat := do
  let b ← extendAll vs []
  .ok b.length

/-- The loop of `reduced_lattice_basis` (lattices.rs:56-73). -/
def reducedLoop (dot : List Rat → List Rat → Rat) (eps : Rat) (dim : Nat) :
    List (List Rat) → List (List Rat) → Outcome (Option (List (List Rat)))
  | [], _ => .ok none
  | w :: ws, a => do
    let w := w.map (fun x => if |x| < eps then 0 else x)
    let w' := match a with
      | [] => w
      | a0 :: _ => if 0 < dot a0 w then vNeg w else w
    let a' := a ++ [w']
    let r ← rankOf a'
    if r < a'.length then reducedLoop dot eps dim ws a
    else if a'.length ≥ dim then .ok (some a')
    else reducedLoop dot eps dim ws a'

/-- `reduced_lattice_basis` (lattices.rs:39-74); `vs[0]` panics for an empty slice. -/
def reducedLatticeBasis (fuel : Nat) (vs : List (List Rat)) (dot : List Rat → List Rat → Rat) (eps : Rat) :
    Outcome (Option (List (List Rat))) := do
  let v0 ← vecGet vs 0
  let ws ← dirichletVectors fuel vs dot eps
  reducedLoop dot eps v0.length (ws.insertionSort (sortLe dot)) []

/-! ### Rational lattices -/

/-- `BigInt::to_i32` (`None` out of range). -/
def toI32 (z : Int) : Option Int := if -2147483648 ≤ z ∧ z ≤ 2147483647 then some z else none

/-- `r_to_i32` (lattices.rs:254-260). -/
def rToI32 (x : Rat) : Option Int := if x.den = 1 then toI32 x.num else none

/-- The loop computing `common_denom` (lattices.rs:221-227). -/
def commonDenom (vectors : List (List Rat)) : Int :=
  vectors.flatten.foldl (fun c x => c * ((x.den : Int) / (Int.gcd c x.den : Int))) 1

/-- `rational_lattice_basis` (lattices.rs:217-251). The `i32` arithmetic inside `extend_basis` is `Int`
arithmetic here: overflow is not modelled. -/
def rationalLatticeBasis (vectors : List (List Rat)) : Outcome (List (List Rat)) := do
  let v0 ← vecGet vectors 0
  let dim := v0.length
  let cd ← unwrap (toI32 (commonDenom vectors))
  let units := (List.range dim).map (fun k => (List.replicate dim (0 : Int)).set k cd)
  let basis ← extendAll units []
  let ints ← omap (fun d => omap (fun x => unwrap (rToI32 (x * (cd : Rat)))) d) vectors
  let basis ← extendAll ints basis
  .ok (basis.map (fun b => b.map (fun (x : Int) => (x : Rat) / (cd : Rat))))

end Systre.Lattices
