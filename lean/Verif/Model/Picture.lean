import Verif.Model.GData
import Verif.Model.Plot
/-! # What `plot` draws of a dataset

The functions of `Model/Plot.lean` applied to a dataset of the program (plot.py). -/

namespace Pgkyl.Plot

variable {F : Type} [Add F] [Mul F] [Min F] [Max F]

/-- plot.py:138-199 for a dataset whose axes are one-dimensional arrays.  (The bounds are only used for the limits of line
plots but read for every dataset; without them the assignment in plot.py:160 is a TypeError.  A dataset without a grid or
without values has no attribute to go on with.) -/
def ofData (d : GData F) : Except Err (Prep F) :=
  match d.grid, d.numCells, d.values with
  | some g, some cells, some v => do
    match ← d.bounds with
    | none => .error .typeError
    | some _ => prepare (g.map (·.data)) cells v
  | _, _, _ => .error .attributeError

/-- plot.py:138-199, 341-346: the line drawn of a component of a dataset. -/
def lineOf (half : F) (s : Scales F) (d : GData F) (comp : Nat) : Except Err (List F × List F) := do
  line half s (← ofData d) comp

/-- plot.py:138-199, 447-457: what is given to `pcolormesh` for a component of a dataset. -/
def meshOf (half : F) (s : Scales F) (d : GData F) (comp : Nat) : Except Err (List F × List F × NArr F) := do
  mesh half s (← ofData d) comp

/-- plot.py:138-199, 367-371: what is given to `contour` for a component of a dataset. -/
def contourOf (half : F) (s : Scales F) (d : GData F) (comp : Nat) : Except Err (List F × List F × NArr F) := do
  contour half s (← ofData d) comp

end Pgkyl.Plot
