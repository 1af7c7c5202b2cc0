import Verif.Model.AnimFrame
import Verif.Spec.PlotPanels
/-! # Specification: the pictures of an animation -/

namespace Pgkyl.Spec
open Plot

/-- The title that names frame `n` and time `t`. -/
def stampTitle {F : Type} (fmt : F → List Char) (n : Int) (t : F) : List Char :=
  " frame: ".toList ++ pyStr n ++ "  time: ".toList ++ fmt t

/-- The labels drawn in panel `k` for a dataset with `n` components (or pairs of components) in unlabelled pictures: one component has no
label, several are named `c0`, `c1`, ... -/
def drawnIn (squeeze : Bool) (n k : Nat) : List (List Char) :=
  ((List.range n).filter fun c => (if squeeze then 0 else c) = k).map fun c => if 1 < n then 'c' :: Nat.toDigits 10 c else []

end Pgkyl.Spec
