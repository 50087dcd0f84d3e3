import Verif.Model.MachineInt
import Verif.Model.PGraphs

/-!
# Machine integers: the labels of `src/pgraphs.rs`

Labels are vectors of `i32`. These are the functions of `Verif/Model/PGraphs.lean` that add, subtract or negate labels,
with the arithmetic of `Verif/Model/MachineInt.lean`.
-/

namespace Systre.Machine

variable (k : IntKind) {T : Type} [LabelVector T]

/-- `Neg for LabelVector2d`, `Neg for LabelVector3d` (pgraphs.rs:82-88, 164-175). -/
def vneg (a : T) : Outcome T := do
  let xs ← omap (fun x => k.res (-x)) (LabelVector.toVec a)
  LabelVector.fromVec xs

/-- `Add` (pgraphs.rs:90-96, 177-188). -/
def vadd (a b : T) : Outcome T := do
  let xs ← omap (fun p => k.res (p.1 + p.2)) ((LabelVector.toVec a).zip (LabelVector.toVec b))
  LabelVector.fromVec xs

/-- `Sub` (pgraphs.rs:98-104, 190-201). -/
def vsub (a b : T) : Outcome T := do
  let xs ← omap (fun p => k.res (p.1 - p.2)) ((LabelVector.toVec a).zip (LabelVector.toVec b))
  LabelVector.fromVec xs

/-- `Neg for &Edge` (pgraphs.rs:236-249). -/
def edgeNeg (e : Edge T) : Outcome (Edge T) := do
  let s ← vneg k e.shift
  .ok ⟨e.tail, e.head, s⟩

/-- `Edge::canonical` (pgraphs.rs:256-264). -/
def canonical (e : Edge T) : Outcome (Edge T) :=
  if e.tail < e.head ∨ (e.tail = e.head ∧ LabelVector.isNegative e.shift = true) then edgeNeg k e else .ok e

/-- `Graph::new` (pgraphs.rs:301-317). -/
def graphNew (raw : List (Edge T)) : Outcome (Graph T) := do
  let cs ← omap (canonical k) raw
  .ok ⟨cs.dedup.insertionSort (· ≤ ·)⟩

/-- The loop over the edges in `incidences` (pgraphs.rs:346-355). -/
def incidenceMap (g : Graph T) : Outcome (List (Nat × List (Edge T))) := do
  let es ← omap (fun e => do
    let e' ← edgeNeg k e
    .ok [e, e']) g.edges
  .ok (es.flatten.foldl Graph.pushAt [])

/-- `Graph::incidences` (pgraphs.rs:340-363). -/
def incidences (g : Graph T) (v : Nat) : Outcome (List (Edge T)) := do
  let m ← incidenceMap k g
  unwrap (m.lookup v)

/-- The inner loop of `next` (pgraphs.rs:574-582). -/
def shellInner (last this : List (Nat × T)) (shift : T) :
    List (Edge T) → List (Nat × T) → Outcome (List (Nat × T))
  | [], nxt => .ok nxt
  | e :: es, nxt => do
    let s ← vadd k e.shift shift
    let w := (e.tail, s)
    if w ∉ last ∧ w ∉ this then
      shellInner last this shift es (if w ∈ nxt then nxt else nxt ++ [w])
    else shellInner last this shift es nxt

/-- The outer loop of `next` (pgraphs.rs:573-583). -/
def shellOuter (g : Graph T) (last this : List (Nat × T)) :
    List (Nat × T) → List (Nat × T) → Outcome (List (Nat × T))
  | [], nxt => .ok nxt
  | (v, s) :: rest, nxt => do
    let es ← incidences k g v
    let nxt ← shellInner k last this s es nxt
    shellOuter g last this rest nxt

/-- `CoordinationSequence::next` (pgraphs.rs:570-587). -/
def csNext (g : Graph T) (s : CoordSeq T) : Outcome (Nat × CoordSeq T) := do
  let nxt ← shellOuter k g s.last s.this s.this []
  .ok (nxt.length, ⟨s.this, nxt⟩)

/-- The state after several calls of `next`. -/
def csIterate (g : Graph T) : Nat → CoordSeq T → Outcome (CoordSeq T)
  | 0, s => .ok s
  | j + 1, s => do
    let (_, s) ← csNext k g s
    csIterate g j s

/-- The `j`-th item (counting from zero) of `g.coordination_sequence(v)` (pgraphs.rs:467-471). -/
def coordinationItem (g : Graph T) (v j : Nat) : Outcome Nat := do
  let s ← csIterate k g j (CoordSeq.new v)
  let (n, _) ← csNext k g s
  .ok n

/-- A tail seen for the first time (pgraphs.rs:685-688). -/
def travVisit (v : Nat) (e : Edge T) (s : Trav T) : Outcome (Trav T) :=
  match s.shifts.lookup e.tail with
  | some _ => .ok s
  | none => do
    let sv ← unwrap (s.shifts.lookup v)
    let x ← vadd k sv e.shift
    .ok { s with shifts := (e.tail, x) :: s.shifts, queue := s.queue ++ [e.tail] }

/-- An undirected edge seen for the first time (pgraphs.rs:690-695). -/
def travRecord (c : Edge T) (s : Trav T) : Outcome (Trav T) :=
  if c ∈ s.seen then .ok s
  else do
    let a ← unwrap (s.shifts.lookup c.head)
    let x ← vadd k a c.shift
    let b ← unwrap (s.shifts.lookup c.tail)
    let y ← vsub k x b
    .ok { s with result := s.result ++ [⟨c.head, c.tail, y⟩], seen := c :: s.seen }

/-- The inner loop (pgraphs.rs:684-696). -/
def travInner (v : Nat) : List (Edge T) → Trav T → Outcome (Trav T)
  | [], s => .ok s
  | e :: es, s => do
    let s ← travVisit k v e s
    let c ← canonical k e
    let s ← travRecord k c s
    travInner v es s

/-- The outer loop (pgraphs.rs:683-697), with fuel. -/
def travLoop (g : Graph T) : Nat → Trav T → Outcome (List (Edge T))
  | 0, _ => .diverge
  | fuel + 1, s =>
    match s.queue with
    | [] => .ok s.result
    | v :: q => do
      let es ← incidences k g v
      let s ← travInner k v es { s with queue := q }
      travLoop g fuel s

/-- `traverse_with_shift_adjustments` (pgraphs.rs:672-700). -/
def traverse (g : Graph T) (v0 : Nat) : Outcome (List (Edge T)) :=
  travLoop k g (g.vertices.length + 1) ⟨[(v0, 0)], [], [v0], []⟩

/-- The loop of `shift_normalized` (pgraphs.rs:477-485). -/
def shiftNormLoop (g : Graph T) : List Nat → List Nat → List (Edge T) → Outcome (List (Edge T))
  | [], _, edges => .ok edges
  | v :: vs, seen, edges =>
    if v ∈ seen then shiftNormLoop g vs seen edges
    else do
      let es ← traverse k g v
      shiftNormLoop g vs (seen ++ es.flatMap (fun e => [e.head, e.tail])) (edges ++ es)

/-- `Graph::shift_normalized` (pgraphs.rs:473-488). -/
def shiftNormalized (g : Graph T) : Outcome (Graph T) := do
  let es ← shiftNormLoop k g g.vertices [] []
  graphNew k es

/-- `graph_component_measures` (pgraphs.rs:703-736); `d.abs()` overflows for the smallest number. -/
def componentMeasures (g : Graph T) (v0 : Nat) : Outcome (Nat × Nat × Option Int) := do
  let edges ← traverse k g v0
  let vertices := (edges.flatMap (fun e => [e.head, e.tail])).dedup
  let basis ← extendAll k (edges.map (fun e => LabelVector.toVec e.shift)) []
  let rank := basis.length
  if rank = LabelVector.dim T then do
    let ds ← omap (diagEntry basis) (List.range basis.length)
    let d ← prodLoop k ds 1
    let a ← k.res |d|
    .ok (vertices.length, rank, some a)
  else .ok (vertices.length, rank, none)

/-- `Graph::is_connected` (pgraphs.rs:490-497). -/
def isConnected (g : Graph T) : Outcome Bool :=
  match g.vertices with
  | [] => .ok true
  | v0 :: _ => do
    let (size, _, mult) ← componentMeasures k g v0
    .ok (decide (size = g.vertices.length) && decide (mult = some 1))

end Systre.Machine
