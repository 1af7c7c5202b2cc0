import Verif.Spec.DgCommands
import Verif.Model.GDataFile
/-!
# Saving interpolated data
-/

namespace Pgkyl.Spec
open GkylReader

section
variable {F : Type} [_root_.Field F]

/-- The cells of the refined mesh. -/
def DgCase.fineCells (q : DgCase F) : List Nat := List.zipWith (· * ·) q.cells (perCell q.basis q.cells.length q.points)

/-- The value of field `j` in a cell of the refined mesh: that at its midpoint. -/
def DgCase.fineValue (q : DgCase F) (idx : List Nat) (j : Nat) : F :=
  q.value j (List.zipWith (· / ·) idx (perCell q.basis q.cells.length q.points)) (midPt q.fine idx)

/-- The interpolated data can be saved without loss: every value and every coordinate is a number that `enc` and `dec` keep,
and the sizes fit the file format. -/
structure DgCase.Savable [LT F] (q : DgCase F) (enc : F → Word) (dec : Word → F) : Prop where
  cells : ∀ n ∈ q.cells, 0 < n
  dx : ∀ a ∈ q.axes, 0 < a.dx
  values : ∀ idx, inRange q.fineCells idx = true → ∀ j < q.m / q.fns.length, dec (enc (q.fineValue idx j)) = q.fineValue idx j
  coords : ∀ a ∈ q.fine, ∀ i ≤ a.cells, dec (enc (a.node i)) = a.node i
  dims : q.cells.length < 2 ^ 63
  width : q.m / q.fns.length * 8 < 2 ^ 63
  size : q.fineCells.prod * (q.m / q.fns.length) < 2 ^ 63

/-- The dataset holds the interpolated field on the refined mesh. -/
def DgCase.HoldsFine (q : DgCase F) (d : GData F) : Prop :=
  ∃ g, IsMesh g q.fine ∧ HoldsField d g q.fineCells (q.m / q.fns.length) q.fineValue

end

end Pgkyl.Spec
