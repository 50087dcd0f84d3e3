import Verif.Spec.SpaceGroups
import Verif.Spec.Geometry
import Verif.Model.ParseTable
import Mathlib.LinearAlgebra.Matrix.Determinant.Basic
import Mathlib.GroupTheory.OrderOfElement

/-! # Specification of the entries of a space group table -/

namespace Systre

/-- The maps that agree with one of the maps `os` up to an integer translation: the space group that is given by
representatives of its cosets modulo the integer translations. -/
def groupOf {n : Nat} (os : List (Op n)) : Set (Op n) := {g | ∃ o ∈ os, SameModZ g o}

/-- a group of affine maps -/
structure IsGroupOfMaps {n : Nat} (G : Set (Op n)) : Prop where
  one : Op.one ∈ G
  comp : ∀ g ∈ G, ∀ h ∈ G, g.comp h ∈ G
  inv : ∀ g ∈ G, ∃ h ∈ G, g.comp h = Op.one ∧ h.comp g = Op.one

/-- no two of the maps agree up to an integer translation -/
def DistinctModZ {n : Nat} (os : List (Op n)) : Prop := os.Pairwise (fun p q => ¬ SameModZ p q)

/-- The maps `g` for which `f ∘ g ∘ f⁻¹` is in `G`; `fi` is the inverse of `f`. -/
def pullBack {n : Nat} (f fi : Op n) (G : Set (Op n)) : Set (Op n) := {g | (f.comp g).comp fi ∈ G}

/-- the program's coordinate map `c` is the map `f` with the inverse `fi` -/
def IsChange {n : Nat} (c : CoordMap ℚ) (f fi : Op n) : Prop := IsCoordMap c f.1 fi.1 f.2 fi.2

/-- `lower` is `str::to_lowercase` for ASCII texts -/
def LowersAscii (lower : List Char → List Char) : Prop :=
  ∀ s, (∀ c ∈ s, c.toNat < 128) → lower s = s.map Nom.lowerAscii

/-- the translations in a set of maps -/
def translationsOf {n : Nat} (G : Set (Op n)) : Set (Fin n → ℚ) := {v | ((1 : Matrix (Fin n) (Fin n) ℚ), v) ∈ G}

/-- the centering vectors that go with the letter of a lattice (International Tables), besides zero -/
def centeringVectors : Table.Centering → List (List ℚ)
  | .primitive2d => []
  | .centered2d => [[1 / 2, 1 / 2]]
  | .primitive => []
  | .faceCentered => [[0, 1 / 2, 1 / 2], [1 / 2, 0, 1 / 2], [1 / 2, 1 / 2, 0]]
  | .bodyCentered => [[1 / 2, 1 / 2, 1 / 2]]
  | .rhombohedral => [[1 / 3, 2 / 3, 2 / 3], [2 / 3, 1 / 3, 1 / 3]]
  | .aFaceCentered => [[0, 1 / 2, 1 / 2]]
  | .bFaceCentered => [[1 / 2, 0, 1 / 2]]
  | .cFaceCentered => [[1 / 2, 1 / 2, 0]]

/-- the dimension that a letter belongs to -/
def centeringDim : Table.Centering → Nat
  | .primitive2d => 2
  | .centered2d => 2
  | _ => 3

/-- the lattice of a centering: the integer vectors and their sums with the centering vectors -/
def centeringLattice (n : Nat) (c : Table.Centering) : Set (Fin n → ℚ) :=
  {v | ∃ w ∈ List.replicate n 0 :: centeringVectors c, ∀ i : Fin n, ∃ z : ℤ, v i - w.getD i 0 = z}

/-- The rotations that go with the maps of a group in space: the linear part, or its opposite if that is the one with a
positive determinant. A rotoinversion counts as the rotation it is made of. -/
def turnsOf (G : Set (Op 3)) : Set (Matrix (Fin 3) (Fin 3) ℚ) := {P | ∃ g ∈ G, P = g.1.det • g.1}

/-- The crystal system of a space group (International Tables): hexagonal if there is a rotation or rotoinversion of order
six; otherwise cubic if there are rotations of order three about different axes and trigonal if there are some, all about
the same axis; without those of order three tetragonal if there is one of order four; and if there are only those of order
two, orthorhombic if there are several, monoclinic if there is one and triclinic if there is none. -/
def HasSystem3 (s : Finder.CrystalSystem) (G : Set (Op 3)) : Prop :=
  match s with
  | .hexagonal => ∃ P ∈ turnsOf G, orderOf P = 6
  | .cubic => (∀ P ∈ turnsOf G, orderOf P ≠ 6) ∧
      ∃ P ∈ turnsOf G, ∃ Q ∈ turnsOf G, orderOf P = 3 ∧ orderOf Q = 3 ∧ P * Q ≠ Q * P
  | .trigonal => (∀ P ∈ turnsOf G, orderOf P ≠ 6) ∧ (∃ P ∈ turnsOf G, orderOf P = 3) ∧
      ∀ P ∈ turnsOf G, ∀ Q ∈ turnsOf G, orderOf P = 3 → orderOf Q = 3 → P * Q = Q * P
  | .tetragonal => (∀ P ∈ turnsOf G, orderOf P ≠ 6 ∧ orderOf P ≠ 3) ∧ ∃ P ∈ turnsOf G, orderOf P = 4
  | .orthorhombic => (∀ P ∈ turnsOf G, P * P = 1) ∧ ∃ P ∈ turnsOf G, ∃ Q ∈ turnsOf G, P ≠ 1 ∧ Q ≠ 1 ∧ P ≠ Q
  | .monoclinic => (∀ P ∈ turnsOf G, P * P = 1) ∧ ∃! P, P ∈ turnsOf G ∧ P ≠ 1
  | .triclinic => ∀ P ∈ turnsOf G, P = 1
  | _ => False

/-- the linear parts of a group of maps -/
def linearPartsOf {n : Nat} (G : Set (Op n)) : Set (Matrix (Fin n) (Fin n) ℚ) := {A | ∃ g ∈ G, A = g.1}

/-- The crystal system of a plane group: hexagonal if there is a rotation of order three, otherwise square if there is one of
order four, otherwise rectangular if there is a mirror, or a glide, and oblique if there is none. -/
def HasSystem2 (s : Finder.CrystalSystem) (G : Set (Op 2)) : Prop :=
  match s with
  | .hexagonal => ∃ A ∈ linearPartsOf G, orderOf A = 3
  | .square => (∀ A ∈ linearPartsOf G, orderOf A ≠ 3) ∧ ∃ A ∈ linearPartsOf G, orderOf A = 4
  | .rectangular => (∀ A ∈ linearPartsOf G, orderOf A ≤ 2) ∧ ∃ A ∈ linearPartsOf G, A.det = -1
  | .oblique => ∀ A ∈ linearPartsOf G, orderOf A ≤ 2 ∧ A.det = 1
  | _ => False

end Systre
