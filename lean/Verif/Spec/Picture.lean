import Verif.Spec.SelectInterp
import Verif.Spec.Plot
/-! # Specification: pictures of a function given by an expansion in every cell -/

namespace Pgkyl.Spec

variable {F : Type} [_root_.Field F]

/-- An axis of a mesh and an argument of `select` for it, which asks for the cells `lo, …, hi - 1`. -/
structure Cut (F : Type) where
  axis : Axis F
  z : Option (IdxArg F)
  lo : Nat
  hi : Nat

/-- The argument asks for these cells, at least one. -/
structure Cut.OK [LinearOrder F] (c : Cut F) : Prop where
  dx : 0 < c.axis.dx
  some : c.lo < c.hi
  asks : Denotes c.axis.nodes c.axis.cells c.z c.lo c.hi

/-- The index in the mesh of a cell of the selection, given its index along the directions of which more than one cell is
selected. -/
def cutIndex (cuts : List (Cut F)) (idx : List Nat) : List Nat :=
  List.zipWith (· + ·) (fullIndex (cuts.map fun c => c.hi - c.lo) idx) (cuts.map (·.lo))

/-- The value of field `j` of the expansion at the midpoint of the refined cell `idx`. -/
def DgCase.at (q : DgCase F) (j : Nat) (idx : List Nat) : F :=
  q.value j (List.zipWith (· / ·) idx (perCell q.basis q.cells.length q.points)) (midPt q.fine idx)

end Pgkyl.Spec
