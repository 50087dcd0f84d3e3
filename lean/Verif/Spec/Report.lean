import Verif.Spec.Placement
import Mathlib.Data.Set.Card

/-!
# Specification: the report about a periodic graph

What the report says (`Facts`, `PlacementFacts`), when that is true of a periodic graph (`FactsOf`,
`PlacementFactsOf`), and how it is laid out (`firstLines`, `secondLines`, `lastLines`).
-/

namespace Systre
namespace Report

/-- a fraction in lowest terms, or a whole number -/
def fractionText (q : Rat) : String := if q.den = 1 then s!"{q.num}" else s!"{q.num}/{q.den}"

/-- coordinates in parentheses -/
def tuple {α : Type} (show_ : α → String) (x : List α) : String := "(" ++ ", ".intercalate (x.map show_) ++ ")"

/-- lines of text, each with its end of line -/
def printed (lines : List String) : List Char := lines.flatMap (fun l => l.toList ++ ['\n'])

/-- the first half -/
structure Facts (T : Type) where
  edges : List (Edge T)
  normalized : List (Edge T)
  sequences : List (Nat × List Nat)
  connected : Bool

/-- the second half -/
structure PlacementFacts (T : Type) where
  positions : List (Nat × List Rat)
  stable : Bool
  locallyStable : Bool
  collisions : Bool
  deltas : List (Nat × List Rat × Option (Edge T))

section
variable {T : Type} [LabelVector T]

/-- an edge, for example `1 --(0, -1)-> 2` -/
def edgeLine (e : Edge T) : String := s!"{e.head} --" ++ tuple toString (LabelVector.toVec e.shift) ++ s!"-> {e.tail}"

def firstLines (f : Facts T) : List String :=
  ["Graph:"] ++ f.edges.map edgeLine ++ ["", "With normalized shifts:"] ++ f.normalized.map edgeLine ++
  ["", "Coordination sequences:"] ++ f.sequences.map (fun s => s!"{s.1}: " ++ String.join (s.2.map (fun n => s!" {n}"))) ++
  ["", s!"Connected: {f.connected}", ""]

def secondLines (f : PlacementFacts T) : List String :=
  f.positions.map (fun p => s!"pos({p.1}) = " ++ tuple fractionText p.2) ++
  ["", s!"Stable: {f.stable}", s!"Locally stable: {f.locallyStable}", s!"Second order collisions: {f.collisions}", ""] ++
  f.deltas.map (fun d => s!"{d.1} => " ++ tuple fractionText d.2.1 ++ " => " ++
    match d.2.2 with
    | some e => edgeLine e
    | none => "None")

def lastLines : List String := ["", "==========", ""]

/-- The first half is about the periodic graph with the edges `raw`: it lists the edges (in canonical direction, in
order), the edges of the same graph with zero shifts on a spanning tree of each component, the numbers of vertices at
distances 1, ..., 20 from each vertex, and says whether the infinite graph is connected. -/
structure FactsOf (raw : List (Edge T)) (f : Facts T) : Prop where
  sorted : f.edges.Pairwise (· < ·)
  edges : ∀ e, e ∈ f.edges ↔ ∃ r ∈ raw, r.canonical = e
  normalizedSorted : f.normalized.Pairwise (· < ·)
  normalizedCanonical : ∀ e ∈ f.normalized, e.canonical = e
  normalized : SameUpToRepresentatives raw f.normalized
  tree : ∀ v w, IsVertex raw v → QJoined raw v w →
    Relation.ReflTransGen (fun a b => IsDirected f.normalized ⟨a, b, 0⟩) v w
  vertices : (f.sequences.map Prod.fst).Pairwise (· < ·) ∧ ∀ v, v ∈ f.sequences.map Prod.fst ↔ IsVertex raw v
  sequences : ∀ s ∈ f.sequences, s.2 = (List.range 20).map (fun k => {x : Nat × T | AtDistance raw (k + 1) (s.1, 0) x}.ncard)
  connected : f.connected = true ↔ PeriodicConnected raw

/-- The second half is about the placement `pos` of the vertices: it lists the positions, says whether vertices
collide, and lists the edges leaving each vertex (`es` are all directed edges, vertex by vertex), each with its vector
and with itself if the vector is unique among the edges leaving this vertex. -/
structure PlacementFactsOf (raw : List (Edge T)) (pos : Nat → Fin (LabelVector.dim T) → ℚ) (es : List (Edge T))
    (f : PlacementFacts T) : Prop where
  vertices : (f.positions.map Prod.fst).Pairwise (· < ·) ∧ ∀ v, v ∈ f.positions.map Prod.fst ↔ IsVertex raw v
  positions : ∀ p ∈ f.positions, p.2 = List.ofFn (pos p.1)
  stable : f.stable = true ↔ ∀ v w, IsVertex raw v → IsVertex raw w → v ≠ w → ¬ SameModLattice (pos v) (pos w)
  locallyStable : f.locallyStable = true ↔ ∀ v, ((es.filter (fun e => e.head = v)).map (edgeVec pos)).Nodup
  collisions : f.collisions = true ↔ ∃ v w, IsVertex raw v ∧ IsVertex raw w ∧ v ≠ w ∧ SameModLattice (pos v) (pos w) ∧
    ((es.filter (fun e => e.head = v)).map (edgeVec pos)).Perm ((es.filter (fun e => e.head = w)).map (edgeVec pos))
  deltas : List.Forall₂ (fun e d => d.1 = e.head ∧ d.2.1 = List.ofFn (edgeVec pos e) ∧
    d.2.2 = if (es.filter (fun e' => e'.head = e.head ∧ edgeVec pos e' = edgeVec pos e)).length = 1 then some e else none)
    es f.deltas

/-- All directed edges, vertex by vertex. -/
structure AllDirected (raw es : List (Edge T)) : Prop where
  mem : ∀ e, e ∈ es ↔ IsDirected raw e
  heads : (es.map Edge.head).Pairwise (· ≤ ·)
  loops : ∀ e, e ∈ es → es.count e = if e = ⟨e.tail, e.head, -e.shift⟩ then 2 else 1

end

/-! The nine graphs of the program: two-dimensional honeycomb, a three-dimensional net with shifts in two directions only,
diamond, square lattices with vertices in the centres of the squares (once, and then twice), the cubic lattice in
another basis, eight diamonds in one, two of the latter, and a net with six vertices. -/

def example1 : List (Edge V2) := [⟨1, 2, ⟨0, 0⟩⟩, ⟨1, 2, ⟨1, 0⟩⟩, ⟨1, 2, ⟨0, 1⟩⟩]
def example2 : List (Edge V3) := [⟨1, 2, ⟨0, 0, 0⟩⟩, ⟨1, 2, ⟨0, 1, 0⟩⟩, ⟨1, 2, ⟨0, 0, 1⟩⟩]
def example3 : List (Edge V3) := [⟨1, 2, ⟨0, 0, 0⟩⟩, ⟨1, 2, ⟨1, 0, 0⟩⟩, ⟨1, 2, ⟨0, 1, 0⟩⟩, ⟨1, 2, ⟨0, 0, 1⟩⟩]
def example4 : List (Edge V2) := [⟨1, 1, ⟨1, 0⟩⟩, ⟨1, 1, ⟨0, 1⟩⟩, ⟨1, 2, ⟨0, 0⟩⟩, ⟨1, 2, ⟨1, 1⟩⟩,
  ⟨1, 3, ⟨0, 0⟩⟩, ⟨1, 3, ⟨1, -1⟩⟩]
def example5 : List (Edge V2) := [⟨1, 1, ⟨1, 0⟩⟩, ⟨1, 1, ⟨0, 1⟩⟩, ⟨1, 2, ⟨0, 0⟩⟩, ⟨1, 2, ⟨1, 1⟩⟩,
  ⟨1, 3, ⟨0, 0⟩⟩, ⟨1, 3, ⟨1, -1⟩⟩, ⟨1, 4, ⟨0, 0⟩⟩, ⟨1, 4, ⟨1, -1⟩⟩]
def example6 : List (Edge V3) := [⟨1, 1, ⟨-1, 1, 1⟩⟩, ⟨1, 1, ⟨0, -1, 1⟩⟩, ⟨1, 1, ⟨0, 0, -1⟩⟩]
def example7 : List (Edge V3) := [⟨1, 2, ⟨0, 0, 0⟩⟩, ⟨1, 2, ⟨2, 0, 0⟩⟩, ⟨1, 2, ⟨0, 2, 0⟩⟩, ⟨1, 2, ⟨0, 0, 2⟩⟩]
def example8 : List (Edge V3) := [⟨1, 3, ⟨0, 0, 0⟩⟩, ⟨1, 3, ⟨2, 0, 0⟩⟩, ⟨1, 3, ⟨0, 2, 0⟩⟩, ⟨1, 3, ⟨0, 0, 2⟩⟩,
  ⟨2, 4, ⟨0, 0, 0⟩⟩, ⟨2, 4, ⟨2, 0, 0⟩⟩, ⟨2, 4, ⟨0, 2, 0⟩⟩, ⟨2, 4, ⟨0, 0, 2⟩⟩]
def example9 : List (Edge V3) := [⟨1, 2, ⟨0, 0, 0⟩⟩, ⟨2, 3, ⟨0, 0, 0⟩⟩, ⟨3, 4, ⟨0, 0, 0⟩⟩, ⟨4, 5, ⟨0, 0, 0⟩⟩,
  ⟨5, 6, ⟨0, 0, 0⟩⟩, ⟨6, 1, ⟨0, 0, 0⟩⟩, ⟨1, 2, ⟨1, 0, 0⟩⟩, ⟨2, 3, ⟨0, 1, 0⟩⟩,
  ⟨3, 4, ⟨0, 0, 1⟩⟩, ⟨4, 5, ⟨-1, 0, 0⟩⟩, ⟨5, 6, ⟨0, -1, 0⟩⟩, ⟨6, 1, ⟨0, 0, -1⟩⟩]

end Report
end Systre
