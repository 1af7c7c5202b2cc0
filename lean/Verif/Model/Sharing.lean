import Verif.Model.NumOps
/-!
# Shared coordinate arrays

In the other modules arrays are values.  Here a coordinate array is an object: a dataset holds the addresses of the arrays
of its grid, and an operation in place changes the array for every dataset that holds its address.
-/

namespace Pgkyl.Sharing

variable {F : Type}

/-- A dataset: the addresses of its coordinate arrays and the bounds recorded when they were assigned (gdata.py:262-270).
(The values are omitted: no operation modelled here writes into them.) -/
structure Dat (F : Type) where
  axes : List Nat
  lower : List (Option F)
  upper : List (Option F)
  deriving DecidableEq, Repr

/-- The coordinate arrays that exist, by address, and the datasets. -/
structure Heap (F : Type) where
  arrs : List (NArr F) := []
  data : List (Dat F) := []
  deriving DecidableEq, Repr

/-- What the user does. -/
inductive Op (F : Type) where
  /-- a file is loaded: its coordinate arrays are new -/
  | load (grid : List (NArr F))
  /-- `ev "x op" --tag t` for an operator that passes on the grid of the dataset `src` -/
  | derive (src : Nat)
  /-- `ev "x i c scale_zi_axis"` for the dataset `src`; `new`: with `--tag` -/
  | scale (src i : Nat) (c : F) (new : Bool)

namespace Heap

/-- gdata.py:259-260 `get_grid`: the coordinates the user sees. -/
def grid (h : Heap F) (d : Dat F) : List (NArr F) := d.axes.filterMap (h.arrs[·]?)

variable [Min F] [Max F]

/-- gdata.py:262-270 `set_grid`: the bounds are recorded. -/
def setGrid (h : Heap F) (axes : List Nat) : Dat F :=
  ⟨axes, (axes.filterMap (h.arrs[·]?)).map fun z => z.data.min?, (axes.filterMap (h.arrs[·]?)).map fun z => z.data.max?⟩

/-- gkyl_reader.py, `np.linspace` for every axis, and gdata.py:289-292 `push`. -/
def load (h : Heap F) (grid : List (NArr F)) : Heap F :=
  let h' : Heap F := { h with arrs := h.arrs ++ grid }
  { h' with data := h'.data ++ [h'.setGrid (List.range' h.arrs.length grid.length)] }

/-- select.py:31-32 `list(grid)` copies the list, not the arrays; ev_cmd.py:6-19 `_get_grid` passes the list on; ev.py:221-226
the result holds it. -/
def derive (h : Heap F) (src : Nat) : Except Err (Heap F) :=
  match h.data[src]? with
  | none => .error .keyError
  | some d => .ok { h with data := h.data ++ [h.setGrid d.axes] }

/-- ev_cmd.py:390-409 `scale_zi_axis`: `out_grid[i] *= c` multiplies the array in place (`ndarray.__imul__`); the result is
stored as a new dataset (ev.py:221-226) or in its operand (ev.py:208-213), with the same list.  (Simplifications: one dataset
at a time; an array of floating-point numbers, `i ≥ 0`.) -/
def scale [Mul F] (h : Heap F) (src i : Nat) (c : F) (new : Bool) : Except Err (Heap F) :=
  match h.data[src]? with
  | none => .error .keyError
  | some d => match d.axes[i]? with
    | none => .error .indexError
    | some a =>
      let h' : Heap F := { h with arrs := h.arrs.modify a (·.map1 (· * c)) }
      if new then .ok { h' with data := h'.data ++ [h'.setGrid d.axes] }
      else .ok { h' with data := h'.data.set src (h'.setGrid d.axes) }

/-- One command. -/
def step [Mul F] (h : Heap F) : Op F → Except Err (Heap F)
  | .load g => .ok (h.load g)
  | .derive s => h.derive s
  | .scale s i c new => h.scale s i c new

/-- A session. -/
def run [Mul F] (ops : List (Op F)) : Except Err (Heap F) := ops.foldlM step {}

end Heap

end Pgkyl.Sharing
