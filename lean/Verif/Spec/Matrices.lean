import Verif.Model.Matrices
import Mathlib.Data.Matrix.Basic

/-! # Specification of matrices: what it means for a stored matrix to represent a mathematical one -/

namespace Systre

/-- `m` represents the mathematical `r × c` matrix `M`: same shape, every read returns the entry, and
exactly `r * c` entries are stored. A matrix without columns has no rows either (that is how
`Matrix::new` represents every empty matrix). -/
structure Rep {T : Type} (m : Mat T) {r c : Nat} (M : Matrix (Fin r) (Fin c) T) : Prop where
  rows : m.nrows = r
  cols : m.ncols = c
  size : m.data.length = r * c
  empty : 0 < r → 0 < c
  entry : ∀ i j, m.get i.1 j.1 = .ok (M i j)

/-- Everything that can be built from constructors and operations of the public API. -/
inductive Built {T : Type} [Zero T] [One T] [Neg T] [Add T] [Sub T] [Mul T] : Mat T → Prop
  | new {n : Nat} {d : List T} {m : Mat T} : Mat.new n d = .ok m → Built m
  | row {d : List T} {m : Mat T} : Mat.row d = .ok m → Built m
  | col {d : List T} {m : Mat T} : Mat.col d = .ok m → Built m
  | fromIter {d : List T} {m : Mat T} : Mat.fromIter d = .ok m → Built m
  | zero {r c : Nat} {m : Mat T} : Mat.zero r c = .ok m → Built m
  | identity {n : Nat} {m : Mat T} : Mat.identity n = .ok m → Built m
  | unitVector {n k : Nat} {m : Mat T} : Mat.unitVector n k = .ok m → Built m
  | reshape {n : Nat} {a m : Mat T} : Built a → a.reshape n = .ok m → Built m
  | set {i j : Nat} {x : T} {a m : Mat T} : Built a → a.set i j x = .ok m → Built m
  | hstack {ps : List (Mat T)} {m : Mat T} : (∀ p ∈ ps, Built p) → Mat.hstack ps = .ok m → Built m
  | vstack {ps : List (Mat T)} {m : Mat T} : (∀ p ∈ ps, Built p) → Mat.vstack ps = .ok m → Built m
  | submatrix {r0 r1 c0 c1 : Nat} {a m : Mat T} : Built a → a.submatrix r0 r1 c0 c1 = .ok m → Built m
  | transpose {a m : Mat T} : Built a → a.transpose = .ok m → Built m
  | neg {a m : Mat T} : Built a → a.neg = .ok m → Built m
  | add {a b m : Mat T} : Built a → Built b → Mat.add a b = .ok m → Built m
  | sub {a b m : Mat T} : Built a → Built b → Mat.sub a b = .ok m → Built m
  | addScalar {a : Mat T} (c : T) : Built a → Built (a.addScalar c)
  | subScalar {a : Mat T} (c : T) : Built a → Built (a.subScalar c)
  | smul {a : Mat T} (c : T) : Built a → Built (a.smul c)
  | mul {a b m : Mat T} : Built a → Built b → Mat.mul a b = .ok m → Built m

end Systre
