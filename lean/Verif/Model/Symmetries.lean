import Verif.Model.PGraphs
import Verif.Model.Geometry
import Verif.Model.Lattices

/-!
# Model of `src/symmetries.rs` and of `Automorphism` in `src/pgraphs.rs`

As in `Verif/Model/PGraphs.lean`, vectors and points are their coordinate lists, the table of positions is
passed as an `Outcome`, and hash maps and hash sets are lists (in one possible iteration order). Equality
of hash maps is modelled as the library defines it. Loops over a queue have fuel.
-/

namespace Systre

open Partitions (PState)

/-- `HashMap::insert`: an old value of the key is replaced. -/
def hmInsert {α β : Type} [DecidableEq α] (m : List (α × β)) (k : α) (v : β) : List (α × β) :=
  (k, v) :: m.filter (fun p => p.1 ≠ k)

/-- `collect` into a `HashMap`. -/
def hmCollect {α β : Type} [DecidableEq α] (l : List (α × β)) : List (α × β) :=
  l.foldl (fun m p => hmInsert m p.1 p.2) []

/-- `PartialEq` for `HashMap`: the same number of entries, and every entry of one is in the other. -/
def hmEq {α β : Type} [DecidableEq α] [DecidableEq β] (m m' : List (α × β)) : Bool :=
  decide (m.length = m'.length) && m.all (fun p => decide (m'.lookup p.1 = some p.2))

/-- `AffineMap * Vector` for coordinate lists (geometry.rs:676-684). -/
def applyLin (a : AffineMap Rat) (v : List Rat) : Outcome (List Rat) := do
  let x ← Vec.new v
  let y ← a.applyVec x
  .ok y.coords.data

/-- `struct Automorphism` (pgraphs.rs:591-600). -/
structure Automorphism (T : Type) where
  vertexMap : List (Nat × Nat)
  edgeMap : List (Edge T × Edge T)
  transform : AffineMap Rat

section
variable {T : Type} [LabelVector T]

namespace Automorphism

/-- derived `PartialEq` (pgraphs.rs:591). -/
def eqv (a b : Automorphism T) : Bool :=
  hmEq a.vertexMap b.vertexMap && hmEq a.edgeMap b.edgeMap && decide (a.transform = b.transform)

/-- `Automorphism::identity` (pgraphs.rs:617-630). -/
def identity (g : Graph T) : Outcome (Automorphism T) := do
  let t ← AffineMap.identity (LabelVector.dim T)
  let es ← g.directedEdges
  .ok ⟨hmCollect (g.vertices.map (fun v => (v, v))), hmCollect (es.map (fun e => (e, e))), t⟩

/-- `HashMap::keys`, each key once -/
def keysOf {α β : Type} (m : List (α × β)) : List α := m.map Prod.fst

/-- One of the two maps of a product: `k ↦ self[rhs[k]]` for the keys of `self` (pgraphs.rs:645-653). -/
def mulMap {α : Type} [DecidableEq α] (m m' : List (α × α)) : Outcome (List (α × α)) :=
  omap (fun k => do
    let y ← unwrap (m'.lookup k)
    let z ← unwrap (m.lookup y)
    .ok (k, z)) (keysOf m)

/-- `Mul` (pgraphs.rs:633-656). -/
def mul (a b : Automorphism T) : Outcome (Automorphism T) := do
  let t ← a.transform.mul b.transform
  let vm ← mulMap a.vertexMap b.vertexMap
  let em ← mulMap a.edgeMap b.edgeMap
  .ok ⟨vm, em, t⟩

end Automorphism

/-- The variables of `automorphism` (symmetries.rs:326-328). -/
structure AutState (T : Type) where
  vertexMap : List (Nat × Nat)
  edgeMap : List (Edge T × Edge T)
  queue : List (Nat × Nat)

/-- The inner loop (symmetries.rs:335-346); `none` stands for `return None`. -/
def autInner (tb : Outcome PosTable) (g : Graph T) (transform : AffineMap Rat) (vimg : Nat) :
    List (Edge T) → AutState T → Outcome (Option (AutState T))
  | [], s => .ok (some s)
  | esrc :: es, s => do
    let dsrc ← edgeVectorIn tb esrc
    let dimg ← applyLin transform dsrc
    let r ← edgeByUniqueDeltaIn tb g vimg dimg
    match r with
    | none => .ok none
    | some eimg =>
      autInner tb g transform vimg es
        (AutState.mk s.vertexMap (hmInsert s.edgeMap esrc eimg) (s.queue ++ [(esrc.tail, eimg.tail)]))

/-- The loop over the queue (symmetries.rs:330-350). -/
def autLoop (tb : Outcome PosTable) (g : Graph T) (transform : AffineMap Rat) :
    Nat → AutState T → Outcome (Option (Automorphism T))
  | 0, _ => .diverge
  | fuel + 1, s =>
    match s.queue with
    | [] => .ok (some ⟨s.vertexMap, s.edgeMap, transform⟩)
    | (vsrc, vimg) :: q =>
      match s.vertexMap.lookup vsrc with
      | some w => if w ≠ vimg then .ok none else autLoop tb g transform fuel { s with queue := q }
      | none => do
        let es ← g.incidences vsrc
        let r ← autInner tb g transform vimg es
          { vertexMap := hmInsert s.vertexMap vsrc vimg, edgeMap := s.edgeMap, queue := q }
        match r with
        | none => .ok none
        | some s' => autLoop tb g transform fuel s'

/-- `automorphism` (symmetries.rs:315-353). The fuel (the number of directed edges, as counted in the
incidence lists, plus two) is an artefact of the model; theorem C37 shows that it suffices. -/
def automorphism (tb : Outcome PosTable) (g : Graph T) (seedSrc seedImg : Nat) (transform : AffineMap Rat) :
    Outcome (Option (Automorphism T)) :=
  autLoop tb g transform (2 * g.edges.length + 2) ⟨[], [], [(seedSrc, seedImg)]⟩

/-! ### Characteristic edge lists -/

/-- `Itertools::combinations(k)`: in lexicographic order of the positions. -/
def combos {α : Type} : Nat → List α → List (List α)
  | 0, _ => [[]]
  | _ + 1, [] => []
  | k + 1, a :: l => (combos k l).map (a :: ·) ++ combos (k + 1) l

/-- every way to take one element out of a list -/
def picks {α : Type} : List α → List (α × List α)
  | [] => []
  | a :: l => (a, l) :: (picks l).map (fun p => (p.1, a :: p.2))

/-- `Itertools::permutations(k)`: in lexicographic order of the positions. -/
def perms {α : Type} : Nat → List α → List (List α)
  | 0, _ => [[]]
  | k + 1, l => (picks l).flatMap (fun p => (perms k p.2).map (p.1 :: ·))

/-- `are_linearly_independent` (symmetries.rs:438-453). -/
def areLinearlyIndependent (tb : Outcome PosTable) (edges : List (Edge T)) : Outcome Bool := do
  let vs ← omap (edgeVectorIn tb) edges
  let b ← extendAll vs []
  .ok (decide (b.length = edges.length))

/-- `good_combinations` (symmetries.rs:419-435): the loop. -/
def goodCombinationsLoop (tb : Outcome PosTable) (dim : Nat) : List (List (Edge T)) → Outcome (List (List (Edge T)))
  | [] => .ok []
  | es :: rest => do
    let b ← areLinearlyIndependent tb es
    let more ← goodCombinationsLoop tb dim rest
    .ok ((if b then perms dim es else []) ++ more)

/-- `good_combinations` (symmetries.rs:419-435). -/
def goodCombinations (tb : Outcome PosTable) (edges : List (Edge T)) : Outcome (List (List (Edge T))) :=
  goodCombinationsLoop tb (LabelVector.dim T) (combos (LabelVector.dim T) edges)

/-- `generate_edge_chain_extensions` (symmetries.rs:395-416): `n` is `T::dim() - edges.len()`, the
recursion ends when it is zero. -/
def edgeChainExtensions (tb : Outcome PosTable) (g : Graph T) : Nat → List (Edge T) → Outcome (List (List (Edge T)))
  | 0, edges => .ok [edges]
  | n + 1, edges => do
    let last ← unwrap edges.getLast?
    let es ← g.incidences last.tail
    let ls ← omap (fun e => do
      let b ← areLinearlyIndependent tb (edges ++ [e])
      if b then edgeChainExtensions tb g n (edges ++ [e]) else .ok []) es
    .ok ls.flatten

/-- `good_edge_chains` (symmetries.rs:381-392). -/
def goodEdgeChains (tb : Outcome PosTable) (g : Graph T) : Outcome (List (List (Edge T))) := do
  let es ← g.directedEdges
  let ls ← omap (fun e => edgeChainExtensions tb g (LabelVector.dim T - 1) [e]) es
  .ok ls.flatten

/-- `characteristic_edge_lists` (symmetries.rs:356-378). -/
def characteristicEdgeLists (tb : Outcome PosTable) (g : Graph T) : Outcome (List (List (Edge T))) := do
  let ls ← omap (fun v => do
    let es ← g.incidences v
    goodCombinations tb es) g.vertices
  if ls.flatten ≠ [] then .ok ls.flatten
  else do
    let cs ← goodEdgeChains tb g
    if cs ≠ [] then .ok cs
    else do
      let es ← g.directedEdges
      goodCombinations tb es

/-! ### Symmetries -/

/-- `matrix_from_edge_list` (symmetries.rs:197-210). -/
def matrixFromEdgeList (tb : Outcome PosTable) (es : List (Edge T)) : Outcome (Mat Rat) := do
  let rows ← omap (fun e => do
    let v ← edgeVectorIn tb e
    Mat.row v) es
  Mat.vstack rows

/-- `is_unimodular` (symmetries.rs:213-217). -/
def isUnimodular (m : Mat Rat) : Outcome Bool :=
  if m.data.all (fun x => decide (rem1 x = 0)) then do
    let d ← determinant m
    .ok (decide (|d| = 1))
  else .ok false

/-- The inner loop of `multiplicative_group` (symmetries.rs:185-191), for elements with a fallible product
`mul` and a Boolean equality `eqv`. -/
def mgInner {α : Type} (mul : α → α → Outcome α) (eqv : α → α → Bool) (phi : α) :
    List α → List α → List α → Outcome (List α × List α)
  | [], result, queue => .ok (result, queue)
  | psi :: gens, result, queue => do
    let product ← mul phi psi
    if result.any (eqv product) then mgInner mul eqv phi gens result queue
    else mgInner mul eqv phi gens (result ++ [product]) (queue ++ [product])

/-- The outer loop of `multiplicative_group` (symmetries.rs:184-192). -/
def mgLoop {α : Type} (mul : α → α → Outcome α) (eqv : α → α → Bool) (gens : List α) :
    Nat → List α → List α → Outcome (List α)
  | 0, _, _ => .diverge
  | fuel + 1, result, queue =>
    match queue with
    | [] => .ok result
    | phi :: q => do
      let (result, q) ← mgInner mul eqv phi gens result q
      mgLoop mul eqv gens fuel result q

/-- `multiplicative_group` (symmetries.rs:174-194). -/
def multiplicativeGroup {α : Type} (mul : α → α → Outcome α) (eqv : α → α → Bool) (fuel : Nat) (identity : α)
    (gens : List α) : Outcome (List α) :=
  mgLoop mul eqv gens fuel [identity] [identity]

/-- The loop over `k` in `symmetries` (symmetries.rs:157-163). -/
def uniteMapped (iso : Automorphism T) : List (List (Edge T)) → PState (List (Edge T)) →
    Outcome (PState (List (Edge T)))
  | [], p => .ok p
  | es :: rest, p => do
    let mapped ← omap (fun e => unwrap (iso.edgeMap.lookup e)) es
    let p ← Partitions.unite p es mapped
    uniteMapped iso rest p

/-- The loop over `i` in `symmetries` (symmetries.rs:148-168); `lists` are the edge lists still to be
looked at, `all` is the complete list, `list0` its first element. -/
def symLoop (tb : Outcome PosTable) (g : Graph T) (all : List (List (Edge T))) (list0 : List (Edge T))
    (seed0 : Nat) (invB : Mat Rat) : List (List (Edge T)) → PState (List (Edge T)) → List (Automorphism T) →
    Outcome (List (Automorphism T))
  | [], _, gens => .ok gens
  | es :: rest, p, gens => do
    let (a, p) ← Partitions.find p es
    let (b, p) ← Partitions.find p list0
    if a ≠ b then do
      let base ← matrixFromEdgeList tb es
      let m ← base.mul invB
      let u ← isUnimodular m
      if u then do
        let z ← Vec.zero (LabelVector.dim T)
        let aff ← AffineMap.new m z
        let e0 ← vecGet es 0
        let iso ← automorphism tb g seed0 e0.head aff
        match iso with
        | none => symLoop tb g all list0 seed0 invB rest p gens
        | some iso => do
          let p ← uniteMapped iso all p
          symLoop tb g all list0 seed0 invB rest p (gens ++ [iso])
      else symLoop tb g all list0 seed0 invB rest p gens
    else symLoop tb g all list0 seed0 invB rest p gens

/-- The generators that `symmetries` finds (symmetries.rs:135-168). The code computes the matrices of all
edge lists before the loop; here they are computed where they are used. -/
def symmetryGenerators (tb : Outcome PosTable) (g : Graph T) : Outcome (List (Automorphism T)) := do
  let b ← isLocallyStableIn tb g
  rassert b
  let lists ← characteristicEdgeLists tb g
  let _ ← omap (fun es => do
    let e ← vecGet es 0
    .ok e.head) lists
  let bases ← omap (matrixFromEdgeList tb) lists
  let b0 ← vecGet bases 0
  let inv ← inverse b0
  let invB ← unwrap inv
  let list0 ← vecGet lists 0
  let e0 ← vecGet list0 0
  symLoop tb g lists list0 e0.head invB lists Partitions.PState.new []

/-- `symmetries` (symmetries.rs:129-171). -/
def symmetries (fuel : Nat) (tb : Outcome PosTable) (g : Graph T) : Outcome (List (Automorphism T)) := do
  let gens ← symmetryGenerators tb g
  let id ← Automorphism.identity g
  multiplicativeGroup Automorphism.mul Automorphism.eqv fuel id gens

/-- The two nested loops of `vertex_orbits` (pgraphs.rs:502-506): all pairs that are united. -/
def uniteAll {α : Type} [DecidableEq α] : List (α × α) → PState α → Outcome (PState α)
  | [], p => .ok p
  | (a, b) :: rest, p => do
    let p ← Partitions.unite p a b
    uniteAll rest p

/-- `Graph::vertex_orbits` (pgraphs.rs:499-509). -/
def vertexOrbits (g : Graph T) (syms : List (Automorphism T)) : Outcome (List (List Nat)) := do
  let pairs ← omap (fun phi => omap (fun v => do
    let w ← unwrap (phi.vertexMap.lookup v)
    .ok (v, w)) g.vertices) syms
  let p ← uniteAll pairs.flatten PState.new
  let (_, cl) ← Partitions.classes p g.vertices
  .ok cl

/-- `Graph::edge_orbits` (pgraphs.rs:511-521). -/
def edgeOrbits (g : Graph T) (syms : List (Automorphism T)) : Outcome (List (List (Edge T))) := do
  let pairs ← omap (fun phi => omap (fun e => do
    let f ← unwrap (phi.edgeMap.lookup e)
    .ok (e, f.canonical)) g.edges) syms
  let p ← uniteAll pairs.flatten PState.new
  let (_, cl) ← Partitions.classes p g.edges
  .ok cl

/-! ### Translations -/

/-- `mod1` (symmetries.rs:282-284). -/
def mod1 (p : List Rat) : List Rat := p.map rem1

/-- `iso.vertex_map[w]` for all vertices: the pairs that are united (symmetries.rs:240-243, 271-273). -/
def vertexPairs (g : Graph T) (iso : Automorphism T) : Outcome (List (Nat × Nat)) :=
  omap (fun w => do
    let x ← unwrap (iso.vertexMap.lookup w)
    .ok (w, x)) g.vertices

/-- The loop of `raw_translational_equivalences` (symmetries.rs:268-276). -/
def rawEquivLoop (tb : Outcome PosTable) (g : Graph T) (id : AffineMap Rat) (v0 : Nat) :
    List Nat → PState Nat → Outcome (PState Nat)
  | [], p => .ok p
  | v :: vs, p => do
    let (a, p) ← Partitions.find p v0
    let (b, p) ← Partitions.find p v
    if a ≠ b then do
      let iso ← automorphism tb g v0 v id
      match iso with
      | none => rawEquivLoop tb g id v0 vs p
      | some iso => do
        let pairs ← vertexPairs g iso
        let p ← uniteAll pairs p
        rawEquivLoop tb g id v0 vs p
    else rawEquivLoop tb g id v0 vs p

/-- `raw_translational_equivalences` (symmetries.rs:259-279); `verts[0]` is only evaluated inside the
loop. -/
def rawTranslationalEquivalences (tb : Outcome PosTable) (g : Graph T) : Outcome (PState Nat) := do
  let id ← AffineMap.identity (LabelVector.dim T)
  match g.vertices with
  | [] => .ok PState.new
  | v0 :: _ => rawEquivLoop tb g id v0 g.vertices PState.new

/-- `raw_translational_orbits` (symmetries.rs:250-256). -/
def rawTranslationalOrbits (tb : Outcome PosTable) (g : Graph T) : Outcome (List (List Nat)) := do
  let p ← rawTranslationalEquivalences tb g
  let (_, cl) ← Partitions.classes p g.vertices
  .ok cl

/-- `extended_translation_basis` (symmetries.rs:287-303). -/
def extendedTranslationBasis (tb : Outcome PosTable) (orbit : List Nat) : Outcome (List (List Rat)) := do
  let o0 ← vecGet orbit 0
  let p0 ← positionIn tb o0
  let deltas ← omap (fun v => do
    let p ← positionIn tb v
    .ok ((List.zipWith (· - ·) p p0).map rem1)) (orbit.drop 1)
  Lattices.rationalLatticeBasis deltas

/-- Is `mod1(position(v)) == p0`? (symmetries.rs:29, 48, 230) -/
def sameMod1 (tb : Outcome PosTable) (p0 : List Rat) (v : Nat) : Outcome Bool := do
  let p ← positionIn tb v
  .ok (decide (mod1 p = p0))

/-- `orbit.iter().find(|v| mod1(&(graph.position(v) + &b)) == p0).unwrap()` (symmetries.rs:236-238). -/
def findShifted (tb : Outcome PosTable) (b p0 : List Rat) : List Nat → Outcome Nat
  | [] => .panic
  | v :: vs => do
    let p ← positionIn tb v
    if mod1 (List.zipWith (· + ·) p b) = p0 then .ok v else findShifted tb b p0 vs

/-- The loop over the basis in `translational_equivalences` (symmetries.rs:235-244). -/
def basisEquivLoop (tb : Outcome PosTable) (g : Graph T) (id : AffineMap Rat) (orbit : List Nat) (o0 : Nat)
    (p0 : List Rat) : List (List Rat) → PState Nat → Outcome (PState Nat)
  | [], p => .ok p
  | b :: bs, p => do
    let v ← findShifted tb b p0 orbit
    let r ← automorphism tb g o0 v id
    let iso ← unwrap r
    let pairs ← vertexPairs g iso
    let p ← uniteAll pairs p
    basisEquivLoop tb g id orbit o0 p0 bs p

/-- `translational_equivalences` (symmetries.rs:220-247). -/
def translationalEquivalences (tb : Outcome PosTable) (g : Graph T) : Outcome (PState Nat) := do
  let equivs ← rawTranslationalEquivalences tb g
  let (equivs, cl) ← Partitions.classes equivs g.vertices
  let orbit ← vecGet cl 0
  let o0 ← vecGet orbit 0
  let q0 ← positionIn tb o0
  let id ← AffineMap.identity (LabelVector.dim T)
  let same ← omap (sameMod1 tb (mod1 q0)) (orbit.drop 1)
  if same.all (fun b => !b) then .ok equivs
  else do
    let bs ← extendedTranslationBasis tb orbit
    basisEquivLoop tb g id orbit o0 (mod1 q0) bs PState.new

/-- `translational_orbits` (symmetries.rs:119-126). -/
def translationalOrbits (tb : Outcome PosTable) (g : Graph T) : Outcome (List (List Nat)) := do
  let b ← isLocallyStableIn tb g
  rassert b
  let p ← translationalEquivalences tb g
  let (_, cl) ← Partitions.classes p g.vertices
  .ok cl

/-- `is_minimal` (symmetries.rs:53-60). -/
def isMinimal (tb : Outcome PosTable) (g : Graph T) : Outcome Bool := do
  let orbits ← translationalOrbits tb g
  let o ← vecGet orbits 0
  .ok (decide (o.length = 1))

/-- `is_ladder` (symmetries.rs:35-50). All positions of the orbit are looked at; `any` stops early. -/
def isLadder (tb : Outcome PosTable) (g : Graph T) : Outcome Bool := do
  let b ← isLocallyStableIn tb g
  rassert b
  let s ← isStableIn tb g
  if s then .ok false
  else do
    let orbits ← rawTranslationalOrbits tb g
    let orbit ← vecGet orbits 0
    let o0 ← vecGet orbit 0
    let q0 ← positionIn tb o0
    let same ← omap (sameMod1 tb (mod1 q0)) (orbit.drop 1)
    .ok (same.any id)

/-- `ladder_symmetries` (symmetries.rs:17-32). -/
def ladderSymmetries (tb : Outcome PosTable) (g : Graph T) : Outcome (List (Automorphism T)) := do
  let b ← isLocallyStableIn tb g
  rassert b
  let orbits ← rawTranslationalOrbits tb g
  let orbit ← vecGet orbits 0
  let o0 ← vecGet orbit 0
  let q0 ← positionIn tb o0
  let id ← AffineMap.identity (LabelVector.dim T)
  let same ← omap (fun v => do
    let b ← sameMod1 tb (mod1 q0) v
    .ok (v, b)) (orbit.drop 1)
  omap (fun v => do
    let r ← automorphism tb g o0 v id
    unwrap r) ((same.filter (fun p => p.2)).map Prod.fst)

/-- The entries of `imgs` and `shifts` for one orbit (symmetries.rs:87-91). -/
def orbitEntries (tb : Outcome PosTable) (i : Nat) (orbit : List Nat) : Outcome (List (Nat × Nat × List Rat)) := do
  let o0 ← vecGet orbit 0
  let p0 ← positionIn tb o0
  omap (fun v => do
    let p ← positionIn tb v
    .ok (v, i + 1, List.zipWith (· - ·) p p0)) orbit

/-- The new edge for a canonical edge (symmetries.rs:98-112). -/
def imageEdge (aff : AffineMap Rat) (tab : List (Nat × Nat × List Rat)) (e : Edge T) : Outcome (Edge T) := do
  let (head, sh) ← unwrap (tab.lookup e.head)
  let (tail, st) ← unwrap (tab.lookup e.tail)
  let s := (LabelVector.toVec e.shift).map (fun (x : Int) => (x : Rat))
  let r ← applyLin aff (List.zipWith (· - ·) (List.zipWith (· + ·) s st) sh)
  let z ← omap (fun x => unwrap (Lattices.rToI32 x)) r
  let t ← LabelVector.fromVec z
  .ok ⟨head, tail, t⟩

/-- `minimal_image` (symmetries.rs:63-116), for input and output graphs with the same type of label
vectors. -/
def minimalImage (tb : Outcome PosTable) (g : Graph T) : Outcome (Option (Graph T)) := do
  let b ← isLocallyStableIn tb g
  rassert b
  let orbits ← translationalOrbits tb g
  let o ← vecGet orbits 0
  if o.length = 1 then .ok none
  else do
    let bs ← extendedTranslationBasis tb o
    let rows ← omap Mat.row bs
    let bm ← Mat.vstack rows
    let inv ← inverse bm
    let m ← unwrap inv
    let z ← Vec.zero (LabelVector.dim T)
    let aff ← AffineMap.new m z
    let tab ← omap (fun (i : Nat) => do
      let orbit ← vecGet orbits i
      orbitEntries tb i orbit) (List.range orbits.length)
    let des ← g.directedEdges
    let edges ← omap (imageEdge aff tab.flatten) (des.filter (fun e => decide (e = e.canonical)))
    .ok (some (Graph.new edges))

end

end Systre
