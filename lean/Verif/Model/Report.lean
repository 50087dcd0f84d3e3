import Verif.Model.Display
import Verif.Model.PGraphs

/-!
# Model of the demonstration program (src/main.rs and examples/graph_properties.rs, the same text)

A run of a program is the text that it prints, and whether it comes to its end.
-/

namespace Systre
namespace Report

/-- the text printed so far and the outcome; a panic does not take back what has been printed -/
structure Print (α : Type) where
  out : List Char
  result : Outcome α

/-- sequencing of statements -/
def Print.andThen {α β : Type} (x : Print α) (f : α → Print β) : Print β :=
  match x.result with
  | .ok a => ⟨x.out ++ (f a).out, (f a).result⟩
  | .panic => ⟨x.out, .panic⟩
  | .diverge => ⟨x.out, .diverge⟩

instance : Monad Print where
  pure a := ⟨[], .ok a⟩
  bind := Print.andThen

/-- `print!` -/
def say (t : List Char) : Print Unit := ⟨t, .ok ()⟩

/-- `println!` -/
def sayln (t : List Char) : Print Unit := ⟨t ++ ['\n'], .ok ()⟩

/-- a call that prints nothing -/
def call {α : Type} (x : Outcome α) : Print α := ⟨[], x⟩

/-- `for x in xs { ... }` -/
def forEach {α : Type} : List α → (α → Print Unit) → Print Unit
  | [], _ => ⟨[], .ok ()⟩
  | x :: xs, f => (f x).andThen (fun _ => forEach xs f)

/-- `Display` of `bool` -/
def boolText (b : Bool) : List Char := if b then "true".toList else "false".toList

/-- `point_to_string` and `vector_to_string` (main.rs:180-186): `join(", ")` -/
def joinComma : List (List Char) → List Char
  | [] => []
  | [t] => t
  | t :: ts => t ++ [',', ' '] ++ joinComma ts

/-- `point_to_string` (main.rs:180-182), `vector_to_string` (main.rs:184-186). -/
def pointToString (p : List Rat) : List Char := joinComma (p.map rationalText)

section
variable {T : Type} [LabelVector T] [Shown T]

/-- `test_graph` (main.rs:127-178). `tb` is the result of `barycentric_placement`, which is first asked for in the
second half; the cached accessors are modelled without their caches (C28). -/
def testGraph (tb : Outcome PosTable) (g : Graph T) : Print Unit := do
  sayln "Graph:".toList
  sayln g.text
  sayln "With normalized shifts:".toList
  let n ← call g.shiftNormalized
  sayln n.text
  sayln "Coordination sequences:".toList
  forEach g.vertices (fun v => do
    say (Nat.toDigits 10 v ++ [':', ' '])
    forEach (List.range 20) (fun k => do
      let c ← call (g.coordinationItem v k)
      say (' ' :: Nat.toDigits 10 c))
    sayln [])
  sayln []
  let c ← call g.isConnected
  sayln ("Connected: ".toList ++ boolText c)
  sayln []
  let c ← call g.isConnected
  if c then
    forEach g.vertices (fun v => do
      let p ← call (positionIn tb v)
      sayln ("pos(".toList ++ Nat.toDigits 10 v ++ ") = (".toList ++ pointToString p ++ [')']))
    sayln []
    let b ← call (isStableIn tb g)
    sayln ("Stable: ".toList ++ boolText b)
    let b ← call (isLocallyStableIn tb g)
    sayln ("Locally stable: ".toList ++ boolText b)
    let b ← call (hasSecondOrderCollisionsIn tb g)
    sayln ("Second order collisions: ".toList ++ boolText b)
    sayln []
    forEach g.vertices (fun v => do
      let es ← call (g.incidences v)
      forEach es (fun ngb => do
        let delta ← call (edgeVectorIn tb ngb)
        let r ← call (edgeByUniqueDeltaIn tb g v delta)
        match r with
        | some e => sayln (Nat.toDigits 10 v ++ " => (".toList ++ pointToString delta ++ ") => ".toList ++ e.text)
        | none => sayln (Nat.toDigits 10 v ++ " => (".toList ++ pointToString delta ++ ") => None".toList)))
  sayln []
  sayln "==========".toList
  sayln []

end

/-- `*u as u32` for a literal of type `i32` -/
def asU32 (z : Int) : Nat := (z % 4294967296).toNat

/-- `graph2d` (main.rs:97-109). -/
def graph2d (spec : List (Int × Int × Int × Int)) : Graph V2 :=
  Graph.new (spec.map (fun r => ⟨asU32 r.1, asU32 r.2.1, ⟨r.2.2.1, r.2.2.2⟩⟩))

/-- `graph3d` (main.rs:112-124). -/
def graph3d (spec : List (Int × Int × Int × Int × Int)) : Graph V3 :=
  Graph.new (spec.map (fun r => ⟨asU32 r.1, asU32 r.2.1, ⟨r.2.2.1, r.2.2.2.1, r.2.2.2.2⟩⟩))

/-- the graphs in `test_graph_examples` (main.rs:13-17) -/
def spec1 : List (Int × Int × Int × Int) := [(1, 2, 0, 0), (1, 2, 1, 0), (1, 2, 0, 1)]
/-- main.rs:19-23 -/
def spec2 : List (Int × Int × Int × Int × Int) := [(1, 2, 0, 0, 0), (1, 2, 0, 1, 0), (1, 2, 0, 0, 1)]
/-- main.rs:25-30 -/
def spec3 : List (Int × Int × Int × Int × Int) := [(1, 2, 0, 0, 0), (1, 2, 1, 0, 0), (1, 2, 0, 1, 0), (1, 2, 0, 0, 1)]
/-- main.rs:32-39 -/
def spec4 : List (Int × Int × Int × Int) :=
  [(1, 1, 1, 0), (1, 1, 0, 1), (1, 2, 0, 0), (1, 2, 1, 1), (1, 3, 0, 0), (1, 3, 1, -1)]
/-- main.rs:41-50 -/
def spec5 : List (Int × Int × Int × Int) :=
  [(1, 1, 1, 0), (1, 1, 0, 1), (1, 2, 0, 0), (1, 2, 1, 1), (1, 3, 0, 0), (1, 3, 1, -1), (1, 4, 0, 0), (1, 4, 1, -1)]
/-- main.rs:52-56 -/
def spec6 : List (Int × Int × Int × Int × Int) := [(1, 1, -1, 1, 1), (1, 1, 0, -1, 1), (1, 1, 0, 0, -1)]
/-- main.rs:58-63 -/
def spec7 : List (Int × Int × Int × Int × Int) := [(1, 2, 0, 0, 0), (1, 2, 2, 0, 0), (1, 2, 0, 2, 0), (1, 2, 0, 0, 2)]
/-- main.rs:65-74 -/
def spec8 : List (Int × Int × Int × Int × Int) :=
  [(1, 3, 0, 0, 0), (1, 3, 2, 0, 0), (1, 3, 0, 2, 0), (1, 3, 0, 0, 2),
   (2, 4, 0, 0, 0), (2, 4, 2, 0, 0), (2, 4, 0, 2, 0), (2, 4, 0, 0, 2)]
/-- main.rs:76-89 -/
def spec9 : List (Int × Int × Int × Int × Int) :=
  [(1, 2, 0, 0, 0), (2, 3, 0, 0, 0), (3, 4, 0, 0, 0), (4, 5, 0, 0, 0), (5, 6, 0, 0, 0), (6, 1, 0, 0, 0),
   (1, 2, 1, 0, 0), (2, 3, 0, 1, 0), (3, 4, 0, 0, 1), (4, 5, -1, 0, 0), (5, 6, 0, -1, 0), (6, 1, 0, 0, -1)]

/-- `test_graph_examples`, `main` (main.rs:7-90). `place2` and `place3` stand for `barycentric_placement`. -/
def main (place2 : Graph V2 → Outcome PosTable) (place3 : Graph V3 → Outcome PosTable) : Print Unit := do
  testGraph (place2 (graph2d spec1)) (graph2d spec1)
  testGraph (place3 (graph3d spec2)) (graph3d spec2)
  testGraph (place3 (graph3d spec3)) (graph3d spec3)
  testGraph (place2 (graph2d spec4)) (graph2d spec4)
  testGraph (place2 (graph2d spec5)) (graph2d spec5)
  testGraph (place3 (graph3d spec6)) (graph3d spec6)
  testGraph (place3 (graph3d spec7)) (graph3d spec7)
  testGraph (place3 (graph3d spec8)) (graph3d spec8)
  testGraph (place3 (graph3d spec9)) (graph3d spec9)

end Report
end Systre
