import Verif.Model.NArr
/-! # Model of the dataset class, `src/postgkyl/data/gdata.py` -/

namespace Pgkyl

/-- The metadata dictionary `GData.ctx` (gdata.py:84).  The four keys the class itself reads and
writes are fields (`none` = key absent); every other key is kept in `other`.
Simplification: `cells` is a list of naturals (the code stores a tuple or an int array). -/
structure Ctx (F : Type) where
  cells : Option (List Nat) := none
  numComps : Option Nat := none
  lower : Option (List F) := none
  upper : Option (List F) := none
  other : List (String × String) := []
  deriving DecidableEq, Repr

/-- The state of a `GData` object (gdata.py:80-103): grid, values, metadata, activation flag, tag,
labels.  The reader, colours and neighbours are not part of the state modelled here. -/
structure GData (F : Type) where
  grid : Option (List (NArr F)) := none
  values : Option (NArr F) := none
  ctx : Ctx F := {}
  tag : List Char := "default".toList
  label : List Char := []
  customLabel : List Char := []
  fileName : List Char := []
  status : Bool := true
  deriving DecidableEq, Repr

namespace GData
variable {F : Type}

/-- gdata.py:34-103 `GData(tag=, label=, ctx=)` without a file: an empty, active dataset whose
metadata dictionary starts as a copy of `ctx`. -/
def new (tag label : List Char) (ctx : Ctx F) : GData F :=
  { ctx := ctx, tag := tag, customLabel := label }

/-- gdata.py:144-147 `set_tag`: the empty string is ignored. -/
def setTag (d : GData F) (tag : List Char) : GData F :=
  if tag = [] then d else { d with tag := tag }

/-- gdata.py:152-157 `get_label`: the custom label wins. -/
def getLabel (d : GData F) : List Char :=
  if d.customLabel ≠ [] then d.customLabel else d.label

/-- gdata.py:168-175 `activate`, `deactivate`. -/
def activate (d : GData F) : GData F := { d with status := true }
/-- gdata.py:171-172 `deactivate`. -/
def deactivate (d : GData F) : GData F := { d with status := false }

/-- gdata.py:191-203 `get_num_cells`; without values and metadata the code returns the integer 0,
here `none`. -/
def numCells (d : GData F) : Option (List Nat) :=
  match d.ctx.cells with
  | some c => some c
  | none => d.values.map fun v => v.shape.dropLast

/-- gdata.py:208-215 `get_num_comps`: a stored 0 is falsy and falls through. -/
def numComps (d : GData F) : Nat :=
  match d.ctx.numComps with
  | some (n + 1) => n + 1
  | _ => match d.values with
    | some v => v.shape.getLastD 0
    | none => 0

/-- gdata.py:220-236 `get_num_dims(squeeze)`. -/
def numDims (d : GData F) (squeeze : Bool := false) : Nat :=
  match d.numCells with
  | none => 0
  | some c => if squeeze then (c.filter (· ≠ 1)).length else c.length

variable [Min F] [Max F]

/-- `array.min()` for each of the first `n` axes; an empty array raises ValueError, a missing
axis IndexError. -/
def minima : Nat → List (NArr F) → Except Err (List F)
  | 0, _ => .ok []
  | _ + 1, [] => .error .indexError
  | n + 1, g :: gs =>
    match g.data.min? with
    | none => .error .valueError
    | some m => do return m :: (← minima n gs)

/-- `array.max()` for each of the first `n` axes. -/
def maxima : Nat → List (NArr F) → Except Err (List F)
  | 0, _ => .ok []
  | _ + 1, [] => .error .indexError
  | n + 1, g :: gs =>
    match g.data.max? with
    | none => .error .valueError
    | some m => do return m :: (← maxima n gs)

/-- gdata.py:241-254 `get_bounds`: stored bounds if present, else the extrema of the grid. -/
def bounds (d : GData F) : Except Err (Option (List F × List F)) :=
  match d.ctx.lower, d.ctx.upper with
  | some l, some u => .ok (some (l, u))
  | _, _ => match d.grid with
    | none => .ok none
    | some g => match d.values with
      | none => .error .attributeError
      | some v => do
        let l ← minima (v.shape.length - 1) g
        let u ← maxima (v.shape.length - 1) g
        return some (l, u)

/-- gdata.py:262-270 `set_grid`: stores the grid and its bounds.  (Simplification: an exception in
the extrema loop leaves the new grid stored in the code; here the whole call fails.) -/
def setGrid (d : GData F) (grid : List (NArr F)) : Except Err (GData F) := do
  let l ← minima d.numDims grid
  let u ← maxima d.numDims grid
  return { d with grid := some grid, ctx := { d.ctx with lower := some l, upper := some u } }

/-- gdata.py:280-285 `set_values`: stores the values and updates the two counters when they
differ.  A 0-d array has no last axis (`IndexError`). -/
def setValues (d : GData F) (values : NArr F) : Except Err (GData F) :=
  match values.shape.getLast? with
  | none => .error .indexError
  | some nc =>
    let c := d.ctx
    let c := if c.cells = some values.shape.dropLast then c
      else { c with cells := some values.shape.dropLast }
    let c := if c.numComps = some nc then c else { c with numComps := some nc }
    .ok { d with values := some values, ctx := c }

/-- gdata.py:289-292 `push`: values first, then grid. -/
def push (d : GData F) (grid : List (NArr F)) (values : NArr F) : Except Err (GData F) := do
  (← d.setValues values).setGrid grid

end GData

end Pgkyl
