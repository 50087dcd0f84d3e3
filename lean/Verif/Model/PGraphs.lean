import Verif.Model.ModularSolver
import Verif.Model.Partitions
import Mathlib.Algebra.Group.Int.Defs
import Mathlib.Algebra.Group.Defs
import Mathlib.Data.Prod.Lex
import Mathlib.Order.Basic
import Mathlib.Data.List.Sort
import Mathlib.Data.Rat.Floor
import Mathlib.Algebra.Order.Group.Int

/-!
# Model of `src/pgraphs.rs`

`i32`, `i64` are `Int` and `u32` is `Nat` (overflow is not modelled in this file). The phantom coordinate
system tags are dropped. `BTreeMap`/`HashMap` are association lists, `HashSet`/`BTreeSet` lists; where the
code iterates over a hash set the list order is one possible iteration order, and the theorems are about
sets and counts. Points and vectors of rationals are their coordinate lists.

The caches (`UnsafeCell` fields) are modelled separately in `Verif/Model/GraphCache.lean`; here every
accessor recomputes its value. The table of positions is passed to the functions that use it (as an
`Outcome`, so that a failing placement fails where `position` is called).
-/

namespace Systre

/-- `trait LabelVector` (pgraphs.rs:18-31). The group and order laws come from the Mathlib classes and
are proved for the two implementations. -/
class LabelVector (T : Type) extends AddCommGroup T, LinearOrder T where
  dim : Nat
  isNegative : T → Bool
  isPositive : T → Bool
  toVec : T → List Int
  fromVec : List Int → Outcome T

/-- `struct LabelVector2d` (pgraphs.rs:34-39). -/
@[ext] structure V2 where
  x : Int
  y : Int
deriving DecidableEq, Repr

/-- `struct LabelVector3d` (pgraphs.rs:113-119). -/
@[ext] structure V3 where
  x : Int
  y : Int
  z : Int
deriving DecidableEq, Repr

namespace V2
/-- `zero` (pgraphs.rs:54-56) -/
instance : Zero V2 := ⟨⟨0, 0⟩⟩
/-- `Neg` (pgraphs.rs:82-88) -/
instance : Neg V2 := ⟨fun a => ⟨-a.x, -a.y⟩⟩
/-- `Add` (pgraphs.rs:90-96) -/
instance : Add V2 := ⟨fun a b => ⟨a.x + b.x, a.y + b.y⟩⟩
/-- `Sub` (pgraphs.rs:98-104) -/
instance : Sub V2 := ⟨fun a b => ⟨a.x - b.x, a.y - b.y⟩⟩

@[simp] theorem zero_x : (0 : V2).x = 0 := rfl
@[simp] theorem zero_y : (0 : V2).y = 0 := rfl
@[simp] theorem neg_x (a : V2) : (-a).x = -a.x := rfl
@[simp] theorem neg_y (a : V2) : (-a).y = -a.y := rfl
@[simp] theorem add_x (a b : V2) : (a + b).x = a.x + b.x := rfl
@[simp] theorem add_y (a b : V2) : (a + b).y = a.y + b.y := rfl
@[simp] theorem sub_x (a b : V2) : (a - b).x = a.x - b.x := rfl
@[simp] theorem sub_y (a b : V2) : (a - b).y = a.y - b.y := rfl

instance : AddCommGroup V2 where
  add_assoc a b c := by ext <;> simp [Int.add_assoc]
  zero_add a := by ext <;> simp
  add_zero a := by ext <;> simp
  neg_add_cancel a := by ext <;> simp
  add_comm a b := by ext <;> simp [Int.add_comm]
  sub_eq_add_neg a b := by ext <;> simp [Int.sub_eq_add_neg]
  nsmul := nsmulRec
  zsmul := zsmulRec

/-- derived `Ord` (pgraphs.rs:34): lexicographic -/
instance : LinearOrder V2 :=
  LinearOrder.lift' (fun v => toLex (v.x, v.y)) (by
    intro a b h
    have h := congrArg ofLex h
    simp only [ofLex_toLex, Prod.mk.injEq] at h
    exact V2.ext h.1 h.2)

/-- `impl LabelVector for LabelVector2d` (pgraphs.rs:47-80). -/
instance : LabelVector V2 where
  dim := 2
  isNegative a := decide (a.x < 0) || (decide (a.x = 0) && decide (a.y < 0))
  isPositive a := decide (a.x > 0) || (decide (a.x = 0) && decide (a.y > 0))
  toVec a := [a.x, a.y]
  fromVec v := match v with
    | [x, y] => .ok ⟨x, y⟩
    | _ => .panic
end V2

namespace V3
/-- `zero` (pgraphs.rs:134-136) -/
instance : Zero V3 := ⟨⟨0, 0, 0⟩⟩
/-- `Neg` (pgraphs.rs:164-175) -/
instance : Neg V3 := ⟨fun a => ⟨-a.x, -a.y, -a.z⟩⟩
/-- `Add` (pgraphs.rs:177-188) -/
instance : Add V3 := ⟨fun a b => ⟨a.x + b.x, a.y + b.y, a.z + b.z⟩⟩
/-- `Sub` (pgraphs.rs:190-201) -/
instance : Sub V3 := ⟨fun a b => ⟨a.x - b.x, a.y - b.y, a.z - b.z⟩⟩

@[simp] theorem zero_x : (0 : V3).x = 0 := rfl
@[simp] theorem zero_y : (0 : V3).y = 0 := rfl
@[simp] theorem zero_z : (0 : V3).z = 0 := rfl
@[simp] theorem neg_x (a : V3) : (-a).x = -a.x := rfl
@[simp] theorem neg_y (a : V3) : (-a).y = -a.y := rfl
@[simp] theorem neg_z (a : V3) : (-a).z = -a.z := rfl
@[simp] theorem add_x (a b : V3) : (a + b).x = a.x + b.x := rfl
@[simp] theorem add_y (a b : V3) : (a + b).y = a.y + b.y := rfl
@[simp] theorem add_z (a b : V3) : (a + b).z = a.z + b.z := rfl
@[simp] theorem sub_x (a b : V3) : (a - b).x = a.x - b.x := rfl
@[simp] theorem sub_y (a b : V3) : (a - b).y = a.y - b.y := rfl
@[simp] theorem sub_z (a b : V3) : (a - b).z = a.z - b.z := rfl

instance : AddCommGroup V3 where
  add_assoc a b c := by ext <;> simp [Int.add_assoc]
  zero_add a := by ext <;> simp
  add_zero a := by ext <;> simp
  neg_add_cancel a := by ext <;> simp
  add_comm a b := by ext <;> simp [Int.add_comm]
  sub_eq_add_neg a b := by ext <;> simp [Int.sub_eq_add_neg]
  nsmul := nsmulRec
  zsmul := zsmulRec

/-- derived `Ord` (pgraphs.rs:113): lexicographic -/
instance : LinearOrder V3 :=
  LinearOrder.lift' (fun v => toLex (v.x, toLex (v.y, v.z))) (by
    intro a b h
    have h := congrArg ofLex h
    simp only [ofLex_toLex, Prod.mk.injEq] at h
    have h2 := congrArg ofLex h.2
    simp only [ofLex_toLex, Prod.mk.injEq] at h2
    exact V3.ext h.1 h2.1 h2.2)

/-- `impl LabelVector for LabelVector3d` (pgraphs.rs:127-162). -/
instance : LabelVector V3 where
  dim := 3
  isNegative a := decide (a.x < 0) || (decide (a.x = 0) && decide (a.y < 0)) ||
    (decide (a.x = 0) && decide (a.y = 0) && decide (a.z < 0))
  isPositive a := decide (a.x > 0) || (decide (a.x = 0) && decide (a.y > 0)) ||
    (decide (a.x = 0) && decide (a.y = 0) && decide (a.z > 0))
  toVec a := [a.x, a.y, a.z]
  fromVec v := match v with
    | [x, y, z] => .ok ⟨x, y, z⟩
    | _ => .panic
end V3

/-- `struct Edge` (pgraphs.rs:220-227); vertices are `u32`. -/
@[ext] structure Edge (T : Type) where
  head : Nat
  tail : Nat
  shift : T
deriving DecidableEq, Repr

section
variable {T : Type} [LabelVector T]

/-- `Neg for &Edge` (pgraphs.rs:236-249). -/
def Edge.neg (e : Edge T) : Edge T := ⟨e.tail, e.head, -e.shift⟩

/-- `Edge::canonical` (pgraphs.rs:256-264). -/
def Edge.canonical (e : Edge T) : Edge T :=
  if e.tail < e.head ∨ (e.tail = e.head ∧ LabelVector.isNegative e.shift = true) then e.neg else e

/-- derived `Ord` for `Edge` (pgraphs.rs:220): lexicographic in head, tail, shift -/
instance : LinearOrder (Edge T) :=
  LinearOrder.lift' (fun e => toLex (e.head, toLex (e.tail, e.shift))) (by
    intro a b h
    have h := congrArg ofLex h
    simp only [ofLex_toLex, Prod.mk.injEq] at h
    have h2 := congrArg ofLex h.2
    simp only [ofLex_toLex, Prod.mk.injEq] at h2
    exact Edge.ext h.1 h2.1 h2.2)

/-- `struct Graph` (pgraphs.rs:278-292) without the caches. -/
structure Graph (T : Type) where
  edges : List (Edge T)

instance : DecidableEq (Graph T) := fun a b =>
  decidable_of_iff (a.edges = b.edges) (by cases a; cases b; simp)

/-- `Graph::new` (pgraphs.rs:301-317): canonical forms, collected in a hash set, sorted. -/
def Graph.new (raw : List (Edge T)) : Graph T :=
  ⟨((raw.map Edge.canonical).dedup).insertionSort (· ≤ ·)⟩

namespace Graph
variable (g : Graph T)

/-- `Graph::vertices` (pgraphs.rs:319-333). -/
def vertices : List Nat :=
  ((g.edges.flatMap (fun e => [e.head, e.tail])).dedup).insertionSort (· ≤ ·)

/-- `incidences.get_mut(&e.head).unwrap().push(e)` after making sure that the key exists
(pgraphs.rs:348-353). -/
def pushAt (m : List (Nat × List (Edge T))) (e : Edge T) : List (Nat × List (Edge T)) :=
  match m.lookup e.head with
  | some _ => m.map (fun kl => if kl.1 = e.head then (kl.1, kl.2 ++ [e]) else kl)
  | none => m ++ [(e.head, [e])]

/-- The loop over the edges in `incidences` (pgraphs.rs:346-355). -/
def incidenceMap : List (Nat × List (Edge T)) :=
  (g.edges.flatMap (fun e => [e, e.neg])).foldl pushAt []

/-- `Graph::incidences` (pgraphs.rs:340-363); `incidences[v]` panics for a missing key. -/
def incidences (v : Nat) : Outcome (List (Edge T)) := unwrap (g.incidenceMap.lookup v)

/-- `Graph::directed_edges` (pgraphs.rs:335-338). -/
def directedEdges : Outcome (List (Edge T)) := do
  let ls ← omap g.incidences g.vertices
  .ok ls.flatten

end Graph

/-! ### Coordination sequence -/

/-- `struct CoordinationSequence` (pgraphs.rs:540-548). -/
structure CoordSeq (T : Type) where
  last : List (Nat × T)
  this : List (Nat × T)

/-- `CoordinationSequence::new` (pgraphs.rs:555-560). -/
def CoordSeq.new (v0 : Nat) : CoordSeq T := ⟨[], [(v0, 0)]⟩

/-- The inner loop of `next` (pgraphs.rs:574-582): insert the new neighbours in `next_shell`. -/
def shellInner (last this : List (Nat × T)) (shift : T) :
    List (Edge T) → List (Nat × T) → List (Nat × T)
  | [], nxt => nxt
  | e :: es, nxt =>
    let w := (e.tail, e.shift + shift)
    if w ∉ last ∧ w ∉ this then
      shellInner last this shift es (if w ∈ nxt then nxt else nxt ++ [w])
    else shellInner last this shift es nxt

/-- The outer loop of `next` (pgraphs.rs:573-583). -/
def shellOuter (g : Graph T) (last this : List (Nat × T)) :
    List (Nat × T) → List (Nat × T) → Outcome (List (Nat × T))
  | [], nxt => .ok nxt
  | (v, s) :: rest, nxt => do
    let es ← g.incidences v
    shellOuter g last this rest (shellInner last this s es nxt)

/-- `CoordinationSequence::next` (pgraphs.rs:570-587). -/
def CoordSeq.next (g : Graph T) (s : CoordSeq T) : Outcome (Nat × CoordSeq T) := do
  let nxt ← shellOuter g s.last s.this s.this []
  .ok (nxt.length, ⟨s.this, nxt⟩)

/-- The state after `k` calls of `next`. -/
def CoordSeq.iterate (g : Graph T) : Nat → CoordSeq T → Outcome (CoordSeq T)
  | 0, s => .ok s
  | k + 1, s => do
    let (_, s) ← s.next g
    CoordSeq.iterate g k s

/-- The `k`-th item (counting from zero) of `g.coordination_sequence(v)` (pgraphs.rs:467-471). -/
def Graph.coordinationItem (g : Graph T) (v k : Nat) : Outcome Nat := do
  let s ← CoordSeq.iterate g k (CoordSeq.new v)
  let (n, _) ← s.next g
  .ok n

/-! ### Traversal -/

/-- The variables of `traverse_with_shift_adjustments` (pgraphs.rs:678-681). -/
structure Trav (T : Type) where
  shifts : List (Nat × T)
  seen : List (Edge T)
  queue : List Nat
  result : List (Edge T)

/-- A tail seen for the first time gets a shift and is queued (pgraphs.rs:685-688); `v` is the current
vertex. -/
def travVisit (v : Nat) (e : Edge T) (s : Trav T) : Outcome (Trav T) :=
  match s.shifts.lookup e.tail with
  | some _ => .ok s
  | none => do
    let sv ← unwrap (s.shifts.lookup v)
    .ok { s with shifts := (e.tail, sv + e.shift) :: s.shifts, queue := s.queue ++ [e.tail] }

/-- An undirected edge seen for the first time is recorded (pgraphs.rs:690-695). -/
def travRecord (c : Edge T) (s : Trav T) : Outcome (Trav T) :=
  if c ∈ s.seen then .ok s
  else do
    let a ← unwrap (s.shifts.lookup c.head)
    let b ← unwrap (s.shifts.lookup c.tail)
    .ok { s with result := s.result ++ [⟨c.head, c.tail, a + c.shift - b⟩], seen := c :: s.seen }

/-- The inner loop (pgraphs.rs:684-696). -/
def travInner (v : Nat) : List (Edge T) → Trav T → Outcome (Trav T)
  | [], s => .ok s
  | e :: es, s => do
    let s ← travVisit v e s
    let s ← travRecord e.canonical s
    travInner v es s

/-- The outer loop (pgraphs.rs:683-697), with fuel. -/
def travLoop (g : Graph T) : Nat → Trav T → Outcome (List (Edge T))
  | 0, _ => .diverge
  | fuel + 1, s =>
    match s.queue with
    | [] => .ok s.result
    | v :: q => do
      let es ← g.incidences v
      let s ← travInner v es { s with queue := q }
      travLoop g fuel s

/-- `traverse_with_shift_adjustments` (pgraphs.rs:672-700). The fuel is one more than the number of
vertices; theorem C30 shows that it suffices. -/
def traverse (g : Graph T) (v0 : Nat) : Outcome (List (Edge T)) :=
  travLoop g (g.vertices.length + 1) ⟨[(v0, 0)], [], [v0], []⟩

/-- The loop of `shift_normalized` (pgraphs.rs:477-485). -/
def shiftNormLoop (g : Graph T) : List Nat → List Nat → List (Edge T) → Outcome (List (Edge T))
  | [], _, edges => .ok edges
  | v :: vs, seen, edges =>
    if v ∈ seen then shiftNormLoop g vs seen edges
    else do
      let es ← traverse g v
      shiftNormLoop g vs (seen ++ es.flatMap (fun e => [e.head, e.tail])) (edges ++ es)

/-- `Graph::shift_normalized` (pgraphs.rs:473-488). -/
def Graph.shiftNormalized (g : Graph T) : Outcome (Graph T) := do
  let es ← shiftNormLoop g g.vertices [] []
  .ok (Graph.new es)

/-- `graph_component_measures` (pgraphs.rs:703-736). -/
def componentMeasures (g : Graph T) (v0 : Nat) : Outcome (Nat × Nat × Option Int) := do
  let edges ← traverse g v0
  let vertices := (edges.flatMap (fun e => [e.head, e.tail])).dedup
  let basis ← extendAll (edges.map (fun e => LabelVector.toVec e.shift)) []
  let rank := basis.length
  if rank = LabelVector.dim T then do
    let ds ← omap (diagEntry basis) (List.range basis.length)
    .ok (vertices.length, rank, some |ds.foldl (· * ·) 1|)
  else .ok (vertices.length, rank, none)

/-- `Graph::is_connected` (pgraphs.rs:490-497). -/
def Graph.isConnected (g : Graph T) : Outcome Bool :=
  match g.vertices with
  | [] => .ok true
  | v0 :: _ => do
    let (size, _, mult) ← componentMeasures g v0
    .ok (decide (size = g.vertices.length) && decide (mult = some 1))

/-! ### Positions -/

/-- `a[i][j] += x` for one row. -/
def addAt (row : List Int) (j : Nat) (x : Int) : List Int := row.set j (rent row j + x)

/-- The loop over the incidences of `verts[i]` (pgraphs.rs:757-766) for rows `i` of `a` and `t`. -/
def laplaceRow (verts : List Nat) (i : Nat) : List (Edge T) → List Int → List Int →
    Outcome (List Int × List Int)
  | [], ra, rt => .ok (ra, rt)
  | e :: es, ra, rt => do
    let j ← unwrap (verts.idxOf? e.tail)
    laplaceRow verts i es (addAt (addAt ra j (-1)) i 1)
      (rowFn rt.length (fun k => rent rt k + rent (LabelVector.toVec e.shift) k))

/-- The matrices `a` and `t` (pgraphs.rs:752-767); `a[0][0] = 1` panics for a graph without vertices. -/
def laplaceSystem (g : Graph T) : Outcome (List (List Int) × List (List Int)) := do
  let verts := g.vertices
  let n := verts.length
  let d := LabelVector.dim T
  if n = 0 then .panic
  else do
    let rows ← omap (fun i =>
      if i = 0 then .ok ((List.replicate n (0 : Int)).set 0 1, List.replicate d 0)
      else do
        let v ← vecGet verts i
        let es ← g.incidences v
        laplaceRow verts i es (List.replicate n 0) (List.replicate d 0)) (List.range n)
    .ok (rows.map Prod.fst, rows.map Prod.snd)

/-- Positions of the vertices: the `BTreeMap<Vertex, Point>` of the code. -/
abbrev PosTable := List (Nat × List Rat)

/-- `barycentric_placement` (pgraphs.rs:739-777). `steps` is the number of p-adic steps that the solver
takes, see `Verif/Model/ModularSolver.lean`. -/
def placement (steps : Nat) (g : Graph T) : Outcome PosTable := do
  let (a, t) ← laplaceSystem g
  let r ← Modular.solveWith Modular.ideal Modular.thePrime steps a t
  let p ← unwrap r
  let rows ← omap (vecGet p) (List.range g.vertices.length)
  .ok (g.vertices.zip rows)

/-- `Graph::position` (pgraphs.rs:365-374) for the table returned by `barycentric_placement`. -/
def positionIn (tb : Outcome PosTable) (v : Nat) : Outcome (List Rat) := do
  let t ← tb
  unwrap (t.lookup v)

/-- `Graph::position_normalized` (pgraphs.rs:399-401). -/
def positionNormalizedIn (tb : Outcome PosTable) (v : Nat) : Outcome (List Rat) := do
  let p ← positionIn tb v
  .ok (p.map (fun q => q - (Rat.floor q : Rat)))

/-- `Graph::edge_vector` (pgraphs.rs:403-412). -/
def edgeVectorIn (tb : Outcome PosTable) (e : Edge T) : Outcome (List Rat) := do
  let p ← positionIn tb e.head
  let q ← positionIn tb e.tail
  let s := LabelVector.toVec e.shift
  omap (fun i => do
    let qi ← vecGet q i
    let si ← vecGet s i
    let pi ← vecGet p i
    .ok (qi + (si : Rat) - pi)) (List.range (LabelVector.dim T))

/-- The loop of `is_stable` and the inner loop of `is_locally_stable` (pgraphs.rs:414-465), and of
`has_second_order_collisions`: is there no repetition among the values `f x`? -/
def allDistinct {α β : Type} [DecidableEq β] (f : α → Outcome β) : List α → List β → Outcome Bool
  | [], _ => .ok true
  | x :: xs, seen => do
    let y ← f x
    if y ∈ seen then .ok false else allDistinct f xs (y :: seen)

/-- `Graph::is_stable` (pgraphs.rs:414-426). -/
def isStableIn (tb : Outcome PosTable) (g : Graph T) : Outcome Bool :=
  allDistinct (positionNormalizedIn tb) g.vertices []

/-- The outer loop of `is_locally_stable` (pgraphs.rs:429-442). -/
def locallyStableLoop (tb : Outcome PosTable) (g : Graph T) : List Nat → Outcome Bool
  | [] => .ok true
  | v :: vs => do
    let es ← g.incidences v
    let b ← allDistinct (edgeVectorIn tb) es []
    if b then locallyStableLoop tb g vs else .ok false

/-- `Graph::is_locally_stable` (pgraphs.rs:428-443). -/
def isLocallyStableIn (tb : Outcome PosTable) (g : Graph T) : Outcome Bool :=
  locallyStableLoop tb g g.vertices

/-- Lexicographic comparison of coordinate lists (derived `Ord` of `Vec<BigRational>`). -/
def lexLe : List Rat → List Rat → Bool
  | [], _ => true
  | _ :: _, [] => false
  | a :: as, b :: bs => if a < b then true else if b < a then false else lexLe as bs

/-- The key of a vertex in `has_second_order_collisions` (pgraphs.rs:449-456): sorted edge vectors,
followed by the position modulo the lattice. -/
def collisionKey (tb : Outcome PosTable) (g : Graph T) (v : Nat) : Outcome (List (List Rat)) := do
  let es ← g.incidences v
  let deltas ← omap (edgeVectorIn tb) es
  let p ← positionNormalizedIn tb v
  .ok (deltas.insertionSort (fun a b => lexLe a b = true) ++ [p])

/-- `Graph::has_second_order_collisions` (pgraphs.rs:445-465). -/
def hasSecondOrderCollisionsIn (tb : Outcome PosTable) (g : Graph T) : Outcome Bool := do
  let b ← allDistinct (collisionKey tb g) g.vertices []
  .ok (!b)

/-- The inner loop of `edges_by_unique_deltas` (pgraphs.rs:789-800): `seen` and `to_edge`. -/
def uniqueDeltasLoop (tb : Outcome PosTable) :
    List (Edge T) → List (List Rat) → List (List Rat × Edge T) → Outcome (List (List Rat × Edge T))
  | [], _, toEdge => .ok toEdge
  | e :: es, seen, toEdge => do
    let delta ← edgeVectorIn tb e
    if delta ∈ seen then uniqueDeltasLoop tb es seen (toEdge.filter (fun p => p.1 ≠ delta))
    else uniqueDeltasLoop tb es (delta :: seen) ((delta, e) :: toEdge)

/-- The lookup table of one vertex, body of the outer loop of `edges_by_unique_deltas`
(pgraphs.rs:788-803). -/
def uniqueDeltas (tb : Outcome PosTable) (g : Graph T) (v : Nat) : Outcome (List (List Rat × Edge T)) := do
  let es ← g.incidences v
  uniqueDeltasLoop tb es [] []

/-- `edges_by_unique_deltas` (pgraphs.rs:780-806). -/
def edgesByUniqueDeltas (tb : Outcome PosTable) (g : Graph T) :
    Outcome (List (Nat × List (List Rat × Edge T))) :=
  omap (fun v => do
    let l ← uniqueDeltas tb g v
    .ok (v, l)) g.vertices

/-- `Graph::edge_by_unique_delta` (pgraphs.rs:376-386). -/
def edgeByUniqueDeltaIn (tb : Outcome PosTable) (g : Graph T) (v : Nat) (delta : List Rat) :
    Outcome (Option (Edge T)) := do
  let table ← edgesByUniqueDeltas tb g
  .ok (do
    let m ← table.lookup v
    m.lookup delta)

end

end Systre
