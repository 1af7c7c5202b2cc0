import Verif.Model.NArr
/-!
# Model of plotting

`src/postgkyl/output/plot.py` and `src/postgkyl/commands/plot.py`: which panels are created and used, which numbers are
handed to matplotlib, and the common colour range.  Matplotlib itself, styles, labels and figure saving are not
modelled.
-/

namespace Pgkyl
namespace Plot

/-! ## Panels -/

/-- `int(np.ceil(n / k))` for positive `k`. -/
def ceilDiv (n k : Nat) : Nat := (n + k - 1) / k

/-- plot.py:273-291: rows and columns for `n` panels.  `np.sqrt` is taken to be exact enough to recognise squares and
to round up and down correctly (true of IEEE square roots below 2^52).  Zero rows or columns given by the user is a
ZeroDivisionError. -/
def layout (rows cols : Option Nat) (n : Nat) : Except Err (Nat × Nat) :=
  match rows, cols with
  | some 0, _ => .error .fail
  | some (r + 1), _ => .ok (r + 1, ceilDiv n (r + 1))
  | none, some 0 => .error .fail
  | none, some (c + 1) => .ok (ceilDiv n (c + 1), c + 1)
  | none, none =>
    let s := Nat.sqrt n
    if s * s = n then .ok (s, s)
    else if (s + 1) * s ≥ n then .ok (s, s + 1)
    else .ok (s + 1, s + 1)

/-- What decides on the panels of one call of `plot`: number of components of the dataset, `squeeze`, `num_axes`,
`start_axes`, `num_subplot_row`, `num_subplot_col`, whether vectors are drawn (`streamline` or `quiver`), and whether
every drawn component adds a colour bar to the figure. -/
structure Opts where
  squeeze : Bool := false
  numAxes : Option Nat := none
  startAxes : Nat := 0
  rows : Option Nat := none
  cols : Option Nat := none
  vectors : Bool := false
  colorbar : Bool := false

/-- plot.py:200-207: the components (or pairs of components) drawn, and the number of panels wanted
(`num_axes` of 0 is falsy). -/
def idxComps (o : Opts) (nc : Nat) : List Nat := List.range (nc / (if o.vectors then 2 else 1))

/-- plot.py:203-207. -/
def panelsWanted (o : Opts) (nc : Nat) : Nat :=
  match o.numAxes with
  | some (n + 1) => n + 1
  | _ => (idxComps o nc).length

/-- plot.py:258-299: the number of axes in the figure before drawing, given the number already there. -/
def figureAxes (o : Opts) (nc existing : Nat) : Except Err Nat :=
  if existing > 0 then
    if o.squeeze = false ∧ panelsWanted o nc > existing then .error .valueError else .ok existing
  else if o.squeeze then .ok 1
  else do
    let (r, c) ← layout o.rows o.cols (panelsWanted o nc)
    return r * c

/-- plot.py:337-339: the panel of each drawn component; `fig.axes` was read before the loop. -/
def panelsOf (o : Opts) (axes : Nat) : List Nat → Except Err (List Nat)
  | [] => .ok []
  | c :: cs => do
    let p := if o.squeeze then 0 else c + o.startAxes
    if p < axes then return p :: (← panelsOf o axes cs) else .error .indexError

/-- One call of `plot` on a figure with `existing` axes: the axes of the figure afterwards, and the panel of each
drawn component. A colour bar is one more axes at the end of the figure (plot.py:21-25). -/
def plotOne (o : Opts) (nc existing : Nat) : Except Err (Nat × List Nat) := do
  let axes ← figureAxes o nc existing
  let ps ← panelsOf o axes (idxComps o nc)
  return (axes + (if o.colorbar then ps.length else 0), ps)

/-- commands/plot.py:226-248 on one figure: the datasets one after the other; with `--subplots` the first panel moves
on by the number of components of each dataset. -/
def plotAll (o : Opts) (subplots : Bool) (existing : Nat) : List Nat → Except Err (List (List Nat))
  | [] => .ok []
  | nc :: ncs => do
    let (axes, ps) ← plotOne o nc existing
    let o' := if subplots then { o with startAxes := o.startAxes + nc } else o
    return ps :: (← plotAll o' subplots axes ncs)

/-- commands/plot.py:134-145: the options of the `plot` command with `--subplots`, and the loop over the datasets
(given by their numbers of components) on a new figure. -/
def plotSubplots (o : Opts) (ncs : List Nat) : Except Err (List (List Nat)) :=
  plotAll { o with numAxes := some ncs.sum, startAxes := 0 } true 0 ncs

section
variable {F : Type} [Add F] [Mul F]

/-! ## Positions -/

/-- `0.5 * (g[:-1] + g[1:])` -/
def mids (half : F) (g : List F) : List F := List.zipWith (fun a b => half * (a + b)) g.dropLast g.tail

/-- plot.py:36-41: the positions of the values along one axis given by a one-dimensional array. -/
def centres (half : F) (g : List F) (n : Nat) : Except Err (List F) :=
  if g.length = n then .ok g
  else if g.length = n + 1 then .ok (mids half g)
  else .error .valueError

/-- plot.py:28-57 `_get_nodal_grid` for one-dimensional axis arrays. -/
def nodalGrid (half : F) (grid : List (List F)) (cells : List Nat) : Except Err (List (List F)) :=
  if grid.length ≠ cells.length then .error .valueError
  else (List.zip grid cells).mapM fun p => centres half p.1 p.2

/-- plot.py:44-53 for an axis `d` of a grid of two-dimensional arrays (rows of rows): the means of diagonally opposite
corners. -/
def diagMean (half : F) (g : NArr F) : NArr F :=
  match g.shape with
  | [m, n] => NArr.ofFn [m - 1, n - 1] fun idx =>
      match idx with
      | [i, j] => do
        let a ← g.get? [i, j]
        let b ← g.get? [i + 1, j + 1]
        return half * (a + b)
      | _ => none
  | _ => g

/-- plot.py:43-53: axis `d` of a two-dimensional grid of two-dimensional arrays. -/
def centres2 (half : F) (g : NArr F) (d n : Nat) : Except Err (NArr F) :=
  if g.shape[d]? = some n then .ok g
  else if g.shape[d]? = some (n + 1) then .ok (diagMean half g)
  else .error .valueError

/-- plot.py:165-188: the data after removing the collapsed dimensions. -/
structure Prep (F : Type) where
  grid : List (List F)
  cells : List Nat
  values : NArr F

/-- The entries of `l` at the positions where the extent is larger than one. -/
def keepLarge {α : Type} (l : List α) (cells : List Nat) : List α :=
  ((List.zip l cells).filter fun p => decide (1 < p.2)).map (·.1)

/-- `np.squeeze(values, idx)` with `idx` the axes of at most one cell: `ValueError` unless these axes have extent 1.
In row-major order the data stay as they are. -/
def squeezeValues (values : NArr F) (cells : List Nat) : Except Err (NArr F) :=
  if (List.zip values.shape cells).all (fun p => decide (1 < p.2 ∨ p.1 = 1)) = true then
    .ok ⟨keepLarge (values.shape.take cells.length) cells ++ values.shape.drop cells.length, values.data⟩
  else .error .valueError

/-- plot.py:163-199 for axes given by one-dimensional arrays: more than two dimensions (`num_dims`) are rejected, the
axes of at most one cell are removed.  If all axes are removed there is no grid left (`grid[0]`: IndexError). -/
def prepareDims (numDims : Nat) (grid : List (List F)) (cells : List Nat) (values : NArr F) : Except Err (Prep F) :=
  if numDims > 2 then .error .valueError
  else if grid.length > numDims then
    if cells.all (fun n => decide (1 < n)) = true then .ok ⟨grid, cells, values⟩
    else do
      let v ← squeezeValues values cells
      let g := keepLarge grid cells
      if g = [] then .error .indexError
      else return ⟨g, cells.filter fun n => decide (1 < n), v⟩
  else .ok ⟨grid, cells, values⟩

/-- plot.py:138-199 for a dataset: `num_dims` is the number of its dimensions of more than one cell. -/
def prepare (grid : List (List F)) (cells : List Nat) (values : NArr F) : Except Err (Prep F) :=
  prepareDims (cells.filter (· ≠ 1)).length grid cells values

/-- plot.py:143-148: `num_dims` for a pair of a grid and values: the axes of the values of extent other than 1, not
counting the axis of the components if the grid has one axis less than the values.  (`values[..., 0]`: at least one
component is assumed.) -/
def pairDims (grid : List (List F)) (values : NArr F) : Nat :=
  if grid.length = values.shape.length then (values.shape.filter (· ≠ 1)).length
  else (values.shape.dropLast.filter (· ≠ 1)).length

/-- input_parser.py:36-44 and plot.py:138-199 for a pair of a grid, of one-dimensional arrays, and values.  The number of
entries of each array counts as the number of cells (plot.py:154).  `np.min` of an empty array: ValueError. -/
def preparePair (grid : List (List F)) (values : NArr F) : Except Err (Prep F) :=
  if grid.length ≠ values.shape.length ∧ grid.length ≠ values.shape.length - 1 then .error .valueError
  else if grid.any (·.isEmpty) = true then .error .valueError
  else prepareDims (pairDims grid values) grid (grid.map List.length) values

/-- Shift and scale of one direction (plot.py:343-344 and elsewhere). -/
def place (shift scale x : F) : F := (x + shift) * scale

/-- The shifts and scales of a plot. -/
structure Scales (F : Type) where
  xshift : F
  xscale : F
  yshift : F
  yscale : F
  zshift : F
  zscale : F

/-- `values[..., comp]`. -/
def component (v : NArr F) (comp : Nat) : NArr F :=
  NArr.ofFn v.shape.dropLast fun idx => v.get? (idx ++ [comp])

/-- plot.py:341-346: the abscissae and ordinates of the line of one component of one-dimensional data. -/
def line (half : F) (s : Scales F) (p : Prep F) (comp : Nat) : Except Err (List F × List F) := do
  let g ← nodalGrid half p.grid p.cells
  match g with
  | [] => .error .indexError
  | x :: _ => return (x.map (place s.xshift s.xscale), (component p.values comp).data.map (place s.yshift s.yscale))

/-- `values[..., comp].transpose()` of two-dimensional values, shifted and scaled. -/
def zValues (s : Scales F) (v : NArr F) (comp : Nat) : NArr F :=
  NArr.ofFn v.shape.dropLast.reverse fun idx => (v.get? (idx.reverse ++ [comp])).map (place s.zshift s.zscale)

/-- plot.py:367-371: what is given to `contour`: positions along both directions and the matrix of values. -/
def contour (half : F) (s : Scales F) (p : Prep F) (comp : Nat) : Except Err (List F × List F × NArr F) := do
  let g ← nodalGrid half p.grid p.cells
  match g with
  | x :: y :: _ => return (x.map (place s.xshift s.xscale), y.map (place s.yshift s.yscale), zValues s p.values comp)
  | _ => .error .indexError

/-- plot.py:447-457: what is given to `pcolormesh`: the nodes along both directions, or the positions of the values if
one of the directions has as many nodes as values. -/
def mesh (half : F) (s : Scales F) (p : Prep F) (comp : Nat) : Except Err (List F × List F × NArr F) :=
  match p.grid with
  | x :: y :: _ =>
    let z := zValues s p.values comp
    if some x.length = z.shape[1]? ∨ some y.length = z.shape[0]? then contour half s p comp
    else .ok (x.map (place s.xshift s.xscale), y.map (place s.yshift s.yscale), z)
  | _ => .error .indexError

end

/-! ## Common colour range -/

section
variable {F : Type} [LT F] [DecidableLT F] [Mul F]

/-- `np.nanmin` of an array without NaN; an empty array is a ValueError. -/
def minOf : List F → Except Err F
  | [] => .error .valueError
  | x :: xs => .ok (xs.foldl (fun m y => if y < m then y else m) x)

/-- `np.nanmax`, likewise. -/
def maxOf : List F → Except Err F
  | [] => .error .valueError
  | x :: xs => .ok (xs.foldl (fun m y => if m < y then y else m) x)

/-- commands/plot.py:174-182: one dataset; `none` stands for the initial infinities. -/
def widen (zscale : F) (r : Option (F × F)) (values : List F) : Except Err (Option (F × F)) := do
  let val := values.map (· * zscale)
  let lo ← minOf val
  let hi ← maxOf val
  match r with
  | none => return some (lo, hi)
  | some (a, b) => return some (if lo < a then lo else a, if b < hi then hi else b)

/-- commands/plot.py:169-203 with `--globalrange` (and without `--cutoffglobalrange`): the colour range of every plot;
`none` if there is no dataset. -/
def globalRange (zscale : F) (zmin zmax : Option F) (datasets : List (List F)) :
    Except Err (Option F × Option F) := do
  let r ← datasets.foldlM (widen zscale) none
  return (zmin.or (r.map (·.1)), zmax.or (r.map (·.2)))

end
end Plot
end Pgkyl
