import Verif.Model.Symmetries

/-!
# The functions that iterate over hash tables, for arbitrary iteration orders

The order in which Rust iterates over a `HashMap` or `HashSet` depends on random keys and on the history of the
table. The other model files use one possible order. Here the code is modelled again with the order as a parameter:
`o.order n` rearranges the entries at the `n`-th iteration of a run. The places where the code iterates over a hash
table are: `Graph::new` (pgraphs.rs:304-305), `CoordinationSequence::next` (pgraphs.rs:573), the product of
automorphisms (pgraphs.rs:645, 650), the result of `multiplicative_group` (symmetries.rs:193), and `PartialEq` and
`Hash` of automorphisms (for these see C73; `all` and a sorted sequence do not depend on the order). All other uses of
hash tables are `get`, `contains`, `insert`, `len`.
-/

namespace Systre

/-- An iteration order for every time a hash table is iterated: any rearrangement of the entries. -/
structure HashOrder where
  order : {α : Type} → Nat → List α → List α
  perm : ∀ {α : Type} (n : Nat) (l : List α), (order n l).Perm l

variable {T : Type} [LabelVector T] (o : HashOrder)

/-- `Graph::new` (pgraphs.rs:301-317). -/
def Graph.newIn (raw : List (Edge T)) : Graph T :=
  ⟨(o.order 0 (raw.map Edge.canonical).dedup).insertionSort (· ≤ ·)⟩

/-- `CoordinationSequence::next` (pgraphs.rs:570-587); it is the `n`-th call. -/
def CoordSeq.nextIn (g : Graph T) (n : Nat) (s : CoordSeq T) : Outcome (Nat × CoordSeq T) := do
  let nxt ← shellOuter g s.last s.this (o.order n s.this) []
  .ok (nxt.length, ⟨s.this, nxt⟩)

/-- The state after `k` further calls of `next`, beginning with the `n`-th. -/
def CoordSeq.iterateIn (g : Graph T) : Nat → Nat → CoordSeq T → Outcome (CoordSeq T)
  | _, 0, s => .ok s
  | n, k + 1, s => do
    let (_, s) ← CoordSeq.nextIn o g n s
    CoordSeq.iterateIn g (n + 1) k s

/-- The `k`-th item (counting from zero) of `g.coordination_sequence(v)` (pgraphs.rs:467-471). -/
def Graph.coordinationItemIn (g : Graph T) (v k : Nat) : Outcome Nat := do
  let s ← CoordSeq.iterateIn o g 0 k (CoordSeq.new v)
  let (n, _) ← CoordSeq.nextIn o g k s
  .ok n

/-- `self.vertex_map.keys().map(|v| (v, self[rhs[v]]))` with the keys in the order `ks` (pgraphs.rs:645-653). -/
def Automorphism.mulMapIn {α : Type} [DecidableEq α] (ks : List α) (m m' : List (α × α)) : Outcome (List (α × α)) :=
  omap (fun k => do
    let y ← unwrap (m'.lookup k)
    let z ← unwrap (m.lookup y)
    .ok (k, z)) ks

/-- `Mul` (pgraphs.rs:633-656), the `n`-th product. -/
def Automorphism.mulIn (n : Nat) (a b : Automorphism T) : Outcome (Automorphism T) := do
  let t ← a.transform.mul b.transform
  let vm ← mulMapIn (o.order (2 * n) (keysOf a.vertexMap)) a.vertexMap b.vertexMap
  let em ← mulMapIn (o.order (2 * n + 1) (keysOf a.edgeMap)) a.edgeMap b.edgeMap
  .ok ⟨vm, em, t⟩

/-- The inner loop of `multiplicative_group` (symmetries.rs:185-191) for automorphisms; `n` counts the products. -/
def mgInnerIn (phi : Automorphism T) : List (Automorphism T) → Nat → List (Automorphism T) → List (Automorphism T) →
    Outcome (Nat × List (Automorphism T) × List (Automorphism T))
  | [], n, result, queue => .ok (n, result, queue)
  | psi :: gens, n, result, queue => do
    let product ← Automorphism.mulIn o n phi psi
    if result.any (Automorphism.eqv product) then mgInnerIn phi gens (n + 1) result queue
    else mgInnerIn phi gens (n + 1) (result ++ [product]) (queue ++ [product])

/-- The outer loop of `multiplicative_group` (symmetries.rs:184-193) with `result.into_iter().collect()`. -/
def mgLoopIn (gens : List (Automorphism T)) : Nat → Nat → List (Automorphism T) → List (Automorphism T) →
    Outcome (List (Automorphism T))
  | 0, _, _, _ => .diverge
  | fuel + 1, n, result, queue =>
    match queue with
    | [] => .ok (o.order (2 * n) result)
    | phi :: q => do
      let (n, result, q) ← mgInnerIn o phi gens n result q
      mgLoopIn gens fuel n result q

/-- `symmetries` (symmetries.rs:129-171). -/
def symmetriesIn (fuel : Nat) (tb : Outcome PosTable) (g : Graph T) : Outcome (List (Automorphism T)) := do
  let gens ← symmetryGenerators tb g
  let id ← Automorphism.identity g
  mgLoopIn o gens fuel 0 [id] [id]

end Systre
