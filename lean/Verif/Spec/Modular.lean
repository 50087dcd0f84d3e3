import Mathlib.Data.Matrix.Basic
import Mathlib.Data.ZMod.Basic

/-! # Specification for the modular solver: matrices as lists of rows, residues -/

namespace Systre.Modular

/-- The list of rows of a mathematical matrix. -/
def toLists {T : Type} {r c : Nat} (A : Matrix (Fin r) (Fin c) T) : List (List T) :=
  List.ofFn (fun i => List.ofFn (A i))

/-- The matrix of residues modulo `p`. -/
def modP (p : Nat) {r c : Nat} (A : Matrix (Fin r) (Fin c) Int) : Matrix (Fin r) (Fin c) (ZMod p) :=
  A.map (fun x => (x : ZMod p))

/-- All entries are in `0, ..., p-1`. -/
def Residues (p : Nat) {r c : Nat} (A : Matrix (Fin r) (Fin c) Int) : Prop :=
  ∀ i j, 0 ≤ A i j ∧ A i j < p

end Systre.Modular
