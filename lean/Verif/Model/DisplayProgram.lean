import Verif.Model.Report
import Verif.Model.Geometry

/-!
# Model of the demonstration program for printed matrices (examples/display_matrix.rs)
-/

namespace Systre
namespace Report

/-- `main` (examples/display_matrix.rs:11-45). The floating point numbers are of a type `F` with any `Display`; `a` to `f`
are the values of the literals `1.2`, `1.4`, `1.6`, `0.8`, `2.4`, `7.2`. The entries of type `i32` and `Ratio<i32>` are
unbounded here; all values of the program are between 0 and 6. A panic inside `Display` is modelled without the part of the
text that was written before it. -/
def displayMain {F : Type} [Shown F] (a b c d e f : F) : Print Unit := do
  let m ← call (Mat.new 3 [1, 2, 3, 4, 5, (6 : Int)])
  sayln ("Matrix:\n".toList ++ (← call m.text))
  let m ← call (Mat.col [a, b, c])
  sayln ("Column:\n".toList ++ (← call m.text))
  let v ← call (Vec.new [d, e, f])
  sayln ("Vector:\n".toList ++ (← call v.text))
  let p ← call (Pt.new [(3 / 4 : Rat), 4 / 3, 1 / 2])
  sayln ("Point:\n".toList ++ (← call p.text))
  let s ← call (ScalarProduct.default (T := Rat) 4)
  sayln ("ScalarProduct:\n".toList ++ (← call s.text))
  let g ← call (AffineMap.identity (T := Rat) 4)
  sayln ("AffineMap:\n".toList ++ (← call g.text))
  let h ← call (AffineMap.identity (T := Int) 4)
  let k ← call (CoordMap.new h)
  sayln ("CoordinateMap:\n".toList ++ (← call k.text))

end Report
end Systre
