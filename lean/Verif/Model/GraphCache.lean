import Verif.Model.PGraphs

/-!
# Model of the caches of `Graph` (src/pgraphs.rs)

The `UnsafeCell` fields are an explicit state; accessors read and update it. Code that uses a graph only
through accessors is a program `Prog`: a tree of calls whose continuation depends on the results. So the
helper functions that fill the caches are programs over the more basic accessors. `symmetries`
(symmetries.rs:129) is an arbitrary program here: the theorems hold for every way of computing symmetries
from the other accessors.

A call that panics leaves the state as it was when the panic happened; later calls (after
`catch_unwind`) go on from there.
-/

namespace Systre

/-- A computation that calls accessors `op : Op` with results in `Res op`. -/
inductive Prog (Op : Type) (Res : Op → Type) (α : Type) where
  | ret (r : Outcome α)
  | call (op : Op) (k : Res op → Prog Op Res α)

namespace Prog
variable {Op : Type} {Res : Op → Type} {α β S : Type}

def bind : Prog Op Res α → (α → Prog Op Res β) → Prog Op Res β
  | ret (.ok a), f => f a
  | ret .panic, _ => ret .panic
  | ret .diverge, _ => ret .diverge
  | call op k, f => call op (fun r => (k r).bind f)

instance : Monad (Prog Op Res) where
  pure a := ret (.ok a)
  bind := bind

/-- Run a program when accessors are functions without state. -/
def runPure (p : (op : Op) → Outcome (Res op)) : Prog Op Res α → Outcome α
  | ret r => r
  | call op k =>
    match p op with
    | .ok r => (k r).runPure p
    | .panic => .panic
    | .diverge => .diverge

/-- Run a program with accessors that read and change a state. -/
def run (h : (op : Op) → S → Outcome (Res op) × S) : Prog Op Res α → S → Outcome α × S
  | ret r, s => (r, s)
  | call op k, s =>
    match h op s with
    | (.ok r, s') => (k r).run h s'
    | (.panic, s') => (.panic, s')
    | (.diverge, s') => (.diverge, s')

/-- A loop that collects results. -/
def pmap (f : α → Prog Op Res β) : List α → Prog Op Res (List β)
  | [] => ret (.ok [])
  | a :: as => do
    let b ← f a
    let bs ← pmap f as
    ret (.ok (b :: bs))

end Prog

section
variable {T : Type} [LabelVector T]

/-- The cache fields of `Graph` (pgraphs.rs:278-292); `A` is the type of automorphisms. -/
structure Caches (T A : Type) where
  vertices : Option (List Nat)
  incidences : List (Nat × List (Edge T))
  positions : PosTable
  edgeLookup : List (Nat × List (List Rat × Edge T))
  symmetries : List A

/-- The caches of a new graph (pgraphs.rs:309-316). -/
def Caches.new (T A : Type) : Caches T A := ⟨none, [], [], [], []⟩

/-- accessors that depend on the edges only -/
inductive Op0 | vertices | incidences (v : Nat)
@[reducible] def Res0 (T : Type) : Op0 → Type
  | .vertices => List Nat
  | .incidences _ => List (Edge T)

/-- and `position` -/
inductive Op1 | base (op : Op0) | position (v : Nat)
@[reducible] def Res1 (T : Type) : Op1 → Type
  | .base op => Res0 T op
  | .position _ => List Rat

/-- and `edge_by_unique_delta` -/
inductive Op2 | base (op : Op1) | edgeByUniqueDelta (v : Nat) (delta : List Rat)
@[reducible] def Res2 (T : Type) : Op2 → Type
  | .base op => Res1 T op
  | .edgeByUniqueDelta _ _ => Option (Edge T)

/-- and `symmetries` -/
inductive Op3 | base (op : Op2) | symmetries
@[reducible] def Res3 (T A : Type) : Op3 → Type
  | .base op => Res2 T op
  | .symmetries => List A

variable {A : Type} (g : Graph T)

/-- `Graph::vertices` (pgraphs.rs:319-333) and `Graph::incidences` (pgraphs.rs:340-363). -/
def handle0 : (op : Op0) → Caches T A → Outcome (Res0 T op) × Caches T A
  | .vertices, s =>
    match s.vertices with
    | some vs => (.ok vs, s)
    | none => (.ok g.vertices, { s with vertices := some g.vertices })
  | .incidences v, s =>
    match s.incidences.lookup v with
    | some es => (.ok es, s)
    | none =>
      let m : List (Nat × List (Edge T)) := g.incidenceMap
      match m.lookup v with
      | some es => (.ok es, { s with incidences := m })
      | none => (.panic, s)

abbrev Prog0 (T : Type) := Prog Op0 (Res0 T)
abbrev Prog1 (T : Type) := Prog Op1 (Res1 T)
abbrev Prog2 (T : Type) := Prog Op2 (Res2 T)
abbrev Prog3 (T A : Type) := Prog Op3 (Res3 T A)

/-- `barycentric_placement` (pgraphs.rs:739-777) as a program over the accessors. -/
def placementProg (T : Type) [LabelVector T] (steps : Nat) : Prog0 T PosTable :=
  .call .vertices fun (verts : List Nat) => do
    let n := verts.length
    let d := LabelVector.dim T
    if n = 0 then .ret .panic
    else do
      let rows ← Prog.pmap (fun i =>
        if i = 0 then .ret (.ok ((List.replicate n (0 : Int)).set 0 1, List.replicate d 0))
        else (do
          let v ← .ret (vecGet verts i)
          .call (.incidences v) fun (es : List (Edge T)) =>
            .ret (laplaceRow verts i es (List.replicate n 0) (List.replicate d 0)) : Prog0 T _)) (List.range n)
      let r ← .ret (Modular.solveWith Modular.ideal Modular.thePrime steps (rows.map Prod.fst) (rows.map Prod.snd))
      let p ← .ret (unwrap r)
      let out ← .ret (omap (vecGet p) (List.range n))
      .ret (.ok (verts.zip out))

/-- `Graph::position` (pgraphs.rs:365-374). -/
def handle1 (steps : Nat) : (op : Op1) → Caches T A → Outcome (Res1 T op) × Caches T A
  | .base op, s => handle0 g op s
  | .position v, s =>
    match s.positions.lookup v with
    | some p => (.ok p, s)
    | none =>
      match (placementProg T steps).run (handle0 g) s with
      | (.ok tb, s') =>
        match tb.lookup v with
        | some p => (.ok p, { s' with positions := tb })
        | none => (.panic, s')
      | (.panic, s') => (.panic, s')
      | (.diverge, s') => (.diverge, s')

/-- `Graph::edge_vector` (pgraphs.rs:403-412) as a program. -/
def edgeVectorProg (e : Edge T) : Prog1 T (List Rat) :=
  .call (.position e.head) fun (p : List Rat) =>
  .call (.position e.tail) fun (q : List Rat) =>
  .ret (omap (fun i => do
    let qi ← vecGet q i
    let si ← vecGet (LabelVector.toVec e.shift) i
    let pi ← vecGet p i
    .ok (qi + (si : Rat) - pi)) (List.range (LabelVector.dim T)))

/-- The inner loop of `edges_by_unique_deltas` (pgraphs.rs:792-800) as a program. -/
def uniqueDeltasProg : List (Edge T) → List (List Rat) → List (List Rat × Edge T) →
    Prog1 T (List (List Rat × Edge T))
  | [], _, toEdge => .ret (.ok toEdge)
  | e :: es, seen, toEdge => do
    let delta ← edgeVectorProg e
    if delta ∈ seen then uniqueDeltasProg es seen (toEdge.filter (fun p => p.1 ≠ delta))
    else uniqueDeltasProg es (delta :: seen) ((delta, e) :: toEdge)

/-- `edges_by_unique_deltas` (pgraphs.rs:780-806) as a program. -/
def edgesByUniqueDeltasProg (T : Type) [LabelVector T] : Prog1 T (List (Nat × List (List Rat × Edge T))) :=
  .call (.base .vertices) fun (verts : List Nat) =>
    Prog.pmap (fun v => .call (.base (.incidences v)) fun (es : List (Edge T)) => do
      let l ← uniqueDeltasProg es [] []
      .ret (.ok (v, l))) verts

/-- `Graph::edge_by_unique_delta` (pgraphs.rs:376-386). -/
def handle2 (steps : Nat) : (op : Op2) → Caches T A → Outcome (Res2 T op) × Caches T A
  | .base op, s => handle1 g steps op s
  | .edgeByUniqueDelta v delta, s =>
    let read (s : Caches T A) : Option (Edge T) := do
      let m ← s.edgeLookup.lookup v
      m.lookup delta
    if (s.edgeLookup.lookup v).isNone then
      match (edgesByUniqueDeltasProg T).run (handle1 g steps) s with
      | (.ok data, s') => (.ok (read { s' with edgeLookup := data }), { s' with edgeLookup := data })
      | (.panic, s') => (.panic, s')
      | (.diverge, s') => (.diverge, s')
    else (.ok (read s), s)

/-- `Graph::symmetries` (pgraphs.rs:388-397), for a program `sym` that computes them. -/
def handle3 (steps : Nat) (sym : Prog2 T (List A)) : (op : Op3) → Caches T A → Outcome (Res3 T A op) × Caches T A
  | .base op, s => handle2 g steps op s
  | .symmetries, s =>
    match s.symmetries with
    | [] =>
      match sym.run (handle2 g steps) s with
      | (.ok syms, s') => (.ok syms, { s' with symmetries := syms })
      | (.panic, s') => (.panic, s')
      | (.diverge, s') => (.diverge, s')
    | a :: as => (.ok (a :: as), s)

/-! ### accessors without caches -/

/-- the accessors of `Verif/Model/PGraphs.lean`, which recompute everything -/
def pure0 : (op : Op0) → Outcome (Res0 T op)
  | .vertices => .ok g.vertices
  | .incidences v => g.incidences v
def pure1 (steps : Nat) : (op : Op1) → Outcome (Res1 T op)
  | .base op => pure0 g op
  | .position v => positionIn (placement steps g) v
def pure2 (steps : Nat) : (op : Op2) → Outcome (Res2 T op)
  | .base op => pure1 g steps op
  | .edgeByUniqueDelta v delta => edgeByUniqueDeltaIn (placement steps g) g v delta
def pure3 (steps : Nat) (sym : Prog2 T (List A)) : (op : Op3) → Outcome (Res3 T A op)
  | .base op => pure2 g steps op
  | .symmetries => sym.runPure (pure2 g steps)

/-- The state after a history of accessor calls, some of which may have panicked. -/
def afterCalls (steps : Nat) (sym : Prog2 T (List A)) (history : List Op3) : Caches T A :=
  history.foldl (fun s op => (handle3 g steps sym op s).2) (Caches.new T A)

end

end Systre
