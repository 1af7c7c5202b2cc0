import Verif.Spec.Field
import Verif.Spec.Idx
import Verif.Model.EvCmd
import Mathlib.Algebra.Order.Field.Basic
/-! # Specification: partial derivatives of cell data on a rectilinear grid -/

namespace Pgkyl.Spec

section
variable {F : Type} [_root_.Field F]

/-- The centre of cell `i` of an axis with the nodes `x`. -/
def centre (x : List F) (i : Nat) : F := (x.getD i 0 + x.getD (i + 1) 0) / 2

/-- The three cells a derivative in cell `i` of `n` is computed from: the cell and its neighbours, at an end of the axis the
three cells nearest to the end. -/
def stencil (n i : Nat) : List Nat :=
  if i = 0 then [0, 1, 2] else if i + 1 = n then [i - 2, i - 1, i] else [i - 1, i, i + 1]

/-- `s` is the slope at `z i` of the parabola through the three points `(z j, f j)`, `j` in the stencil of `i`. -/
def ParabolaSlope (z f : Nat → F) (n i : Nat) (s : F) : Prop :=
  ∃ a b c : F, (∀ j ∈ stencil n i, f j = a + b * z j + c * z j ^ 2) ∧ s = b + 2 * c * z i

/-- `s` is the partial derivative along axis `ax`, in cell `idx`, of the cell data `f` on the grid with the given nodes. -/
def IsPartial (axes : List (List F)) (cells : List Nat) (f : List Nat → F) (ax : Nat) (idx : List Nat) (s : F) : Prop :=
  ∃ (x : List F) (n i : Nat), axes[ax]? = some x ∧ cells[ax]? = some n ∧ idx[ax]? = some i ∧
    ParabolaSlope (centre x) (fun j => f (idx.set ax j)) n i s

end

/-- The grid of cell data with the given numbers of cells: along every axis increasing nodes, one more than there are cells,
and at least three cells. -/
def CellGrid {F : Type} [LinearOrder F] (axes : List (List F)) (cells : List Nat) : Prop :=
  axes.length = cells.length ∧ ∀ (d : Nat) (x : List F) (n : Nat), axes[d]? = some x → cells[d]? = some n →
    x.length = n + 1 ∧ 3 ≤ n ∧ Increasing x

/-- The first operand of `grad2` names the axes `A`: a number, or a text `a:b` or `a,b,…`. -/
inductive GradNames {F : Type} [Add F] [IntCast F] (fn : Fns F) : EvVal F → List Nat → Prop
  | number {x : F} {a : Nat} (h : fn.toInt x = some (a : Int)) (h' : fn.toInt (x + ((1 : Int) : F)) = some ((a + 1 : Nat) : Int)) :
      GradNames fn (.arr (NArr.scalar x)) [a]
  | range (a b : Nat) : GradNames fn (.str (dec a ++ ':' :: dec b)) (List.range' a (b - a))
  | list (a b : Nat) (l : List Nat) : GradNames fn (.str (joinWith ',' ((a :: b :: l).map dec))) (a :: b :: l)

end Pgkyl.Spec
