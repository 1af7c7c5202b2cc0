import Verif.Model.GDataFile
import Verif.Model.DataSpace
/-! # Saving datasets: `GData.write` (gdata.py:461-614) other than the binary format, and the `write`
command (commands/write.py) -/

namespace Pgkyl

/-- `str.lstrip(c)` for one character. -/
def lstrip (c : Char) (s : List Char) : List Char := s.dropWhile (· = c)

/-- `str.strip(c)` for one character. -/
def strip (c : Char) (s : List Char) : List Char := (lstrip c (lstrip c s).reverse).reverse

/-- gdata.py:491-505 the name of the file `write` creates.  (`self._file_name` is always a string, so
the `gdata.` branch at line 496 is never taken.) -/
def writeName (fileName outName ext : List Char) : List Char :=
  if outName = [] then
    strip '_' ((splitOn '.' fileName).headD []) ++ "_mod.".toList ++ ext
  else if (splitOn '.' outName).getLastD [] ≠ ext then outName ++ '.' :: ext
  else outName

section txt
variable {F : Type} [Add F] [Mul F] [Div F] [IntCast F]

/-- gdata.py:585 `0.5 * (grid[d][1:] + grid[d][:-1])` for a 1-D array. -/
def centres (g : List F) : List F :=
  List.zipWith (fun x y => (((1 : Int) : F) / ((2 : Int) : F)) * (x + y)) g.tail g.dropLast

/-- gdata.py:583-586 the loop replacing `grid[d]` for `d < num_dims` *in the dataset's own list*.
A missing axis is `IndexError`.  Simplification: axes that are not 1-D arrays (mapped grids) are an
error here. -/
def centreAxes : Nat → List (NArr F) → Except Err (List (NArr F))
  | 0, gs => .ok gs
  | _ + 1, [] => .error .indexError
  | n + 1, g :: gs =>
    if g.shape.length = 1 then do
      return NArr.ofList (centres g.data) :: (← centreAxes n gs)
    else .error .valueError

/-- gdata.py:588-591 `basis[d] = prod(num_cells[d+1:])`, 1 for the last axis. -/
def txtBasis : List Nat → List Nat
  | [] => []
  | _ :: ns => ns.prod :: txtBasis ns

/-- gdata.py:596-600 the multi-index of row `idx`.  (The code keeps the basis as floats, which is exact
below 2^53; natural numbers here.) -/
def txtIndex : List Nat → Nat → List Nat
  | [], _ => []
  | b :: bs, idx => (idx / b) :: txtIndex bs (idx % b)

/-- gdata.py:602-604 `grid[d][idxs[d]]` for all `d`. -/
def txtCoords : List (NArr F) → List Nat → Except Err (List F)
  | _, [] => .ok []
  | [], _ :: _ => .error .indexError
  | g :: gs, i :: is => match g.data[i]? with
    | some x => do return x :: (← txtCoords gs is)
    | none => .error .indexError

/-- gdata.py:594-609 one line of the text file: the numbers it holds, in order.  (The formatting
`:.15e` of each number is not modelled.)  With no components the access `[num_comps - 1]` fails. -/
def txtLine (grid : List (NArr F)) (values : NArr F) (basis : List Nat) (numComps : Nat) (i : Nat) :
    Except Err (List F) := do
  let idxs := txtIndex basis i
  let xs ← txtCoords grid idxs
  if numComps = 0 then .error .indexError
  else do
    let vs ← (List.range numComps).mapM fun c => match values.get? (idxs ++ [c]) with
      | some x => .ok x
      | none => .error .indexError
    return xs ++ vs

/-- gdata.py:581-611 `write(extension="txt")`: the lines of the file, and the dataset as it is
afterwards (its grid list has been overwritten).  On an exception the dataset is changed too, which
the second component records. -/
def writeTxt (d : GData F) : Except Err (List (List F)) × GData F :=
  match d.numCells, d.grid, d.values with
  | some cells, some grid, some v =>
    match centreAxes d.numDims grid with
    | .error e => (.error e, d)
    | .ok grid' =>
      ((List.range cells.prod).mapM (txtLine grid' v (txtBasis cells) d.numComps),
        { d with grid := some grid' })
  | _, _, _ => (.error .typeError, d)

end txt

/-- gdata.py:612-613 `write(extension="npy")`: the array handed to `np.save` (`squeeze` drops the axes
of length 1). -/
def squeezed {F : Type} (v : NArr F) : NArr F := ⟨v.shape.filter (· ≠ 1), v.data⟩

/-- commands/write.py:30-33 splitting the `-f` argument into stem and format. -/
def writeStem (filename mode : List Char) : List Char × List Char :=
  if 1 < (splitOn '.' filename).length then
    ((splitOn '.' filename).headD [], (splitOn '.' filename).getLastD [])
  else (filename, mode)

/-- commands/write.py:26-58 without `--single`: the names of the files written, in order, with the
dataset each one holds. -/
def writeCmdFiles {F : Type} (s : Space F) (use : Option Tag) (filename mode : List Char) :
    Except Err (List (List Char × Nat)) := do
  let (fn, md) := writeStem filename mode
  let numFiles ← s.getNumDatasets use true
  let items ← s.toList use true true .none
  return items.map fun e =>
    (writeName [] (if 1 < numFiles then fn ++ '_' :: (pyStr e.1 ++ '.' :: md) else fn ++ '.' :: md) md,
      e.2)

end Pgkyl
