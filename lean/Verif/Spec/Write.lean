import Verif.Model.World
/-! # Specification for saved files (C22-C25) -/

namespace Pgkyl.Spec

/-- The midpoint of cell `i` of an axis given by its nodes. -/
def midpoint {F : Type} [Add F] [Div F] [Zero F] [OfNat F 2] (nodes : List F) (i : Nat) : F :=
  (nodes.getD i 0 + nodes.getD (i + 1) 0) / 2

/-- The coordinates of a cell: the midpoint on each axis. -/
def cellCentre {F : Type} [Add F] [Div F] [Zero F] [OfNat F 2] (axes : List (List F)) (idx : List Nat) :
    List F := List.zipWith midpoint axes idx

/-- A dataset with a rectilinear cell-centred grid: `cells[d] + 1` nodes on axis `d`, and `nc`
components per cell. -/
structure CellCentred {F : Type} (d : GData F) (axes : List (List F)) (cells : List Nat) (nc : Nat)
    (v : NArr F) : Prop where
  grid : d.grid = some (axes.map NArr.ofList)
  nodes : axes.map List.length = cells.map (· + 1)
  values : d.values = some v
  shape : v.shape = cells ++ [nc]
  wf : v.WF
  numCells : d.numCells = some cells
  numComps : d.numComps = nc

end Pgkyl.Spec
