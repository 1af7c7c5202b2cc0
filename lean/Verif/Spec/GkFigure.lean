import Verif.Model.GkFigure
import Verif.Spec.GkNodes
import Verif.Spec.Picture
import Verif.Spec.Contour
/-! # Specification: the figure of `gk_nodes` -/

namespace Pgkyl.Spec
open Gk (Box Layout)

section
variable {F : Type} [_root_.Field F] [LinearOrder F]

/-- The smallest and the largest coordinate `pos` of the nodes drawn of the blocks `bs`. -/
structure NodeExtremes (bs : List Nat) (cells : Nat → List Nat) (pos : Nat → List Nat → F) (lo hi : F) : Prop where
  low : ∃ b ∈ bs, ∃ j, inRange (planeOf (cells b)) j = true ∧ pos b j = lo
  high : ∃ b ∈ bs, ∃ j, inRange (planeOf (cells b)) j = true ∧ pos b j = hi
  all : ∀ b ∈ bs, ∀ j, inRange (planeOf (cells b)) j = true → lo ≤ pos b j ∧ pos b j ≤ hi

/-- The box lies inside the figure. -/
def Inside (b : Box F) : Prop := 0 ≤ b.left ∧ 0 ≤ b.bottom ∧ b.left + b.width ≤ 1 ∧ b.bottom + b.height ≤ 1

/-- A drawing over the extents `r` and `z` that fills the axes of the figure is not distorted: the same length is drawn equally
long in both directions. -/
def Undistorted (L : Layout F) (r z : F) : Prop := L.axes.width * L.width / r = L.axes.height * L.height / z

/-- The lines through the nodes of a plane of `k` by `l` nodes: along the second direction, then along the first. -/
def nodeLines (k l : Nat) (R Z : List Nat → F) : List (List (F × F)) :=
  ((List.range k).map fun i => (List.range l).map fun j => (R [i, j], Z [i, j])) ++
    (List.range l).map fun j => (List.range k).map fun i => (R [i, j], Z [i, j])

end
end Pgkyl.Spec
