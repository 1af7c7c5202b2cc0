import Verif.Model.GData
import Verif.Model.GkylReader
import Mathlib.Algebra.Order.Floor.Ring
import Mathlib.Algebra.Field.Basic
/-!
# The HDF5 readers and the choice of the reader

Models `data/gkyl_h5_reader.py`, `data/flash_h5_reader.py` and the reader selection of `data/gdata.py`.  The HDF5 library is
not modelled: an HDF5 file is given by the groups and arrays the code asks for.
-/

namespace Pgkyl
namespace H5

variable {F : Type}

/-- What gkyl_h5_reader.py:47-62 reads of a frame: attributes of `/StructGrid`, `/StructGridField`, the attribute of
`/timeData`. -/
structure Frame (F : Type) where
  lower : List F
  upper : List F
  cells : List Nat
  field : NArr F
  time : Option String := none

/-- What gkyl_h5_reader.py:64-73 reads of a diagnostic: `/DataStruct/timeMesh` and `/DataStruct/data`. -/
structure Diagnostic (F : Type) where
  times : NArr F
  values : NArr F

/-- What flash_h5_reader.py:52-59 reads, in the layout of the file (the code transposes every array): the centres of the
blocks and their sizes (block, direction), the node types, and the variable (block, z, y, x). -/
structure Flash (F : Type) where
  coord : NArr F
  size : NArr F
  ntype : List Int
  var : NArr F

/-- An HDF5 file. -/
structure File (F : Type) where
  frame : Option (Frame F) := none
  diagnostic : Option (Diagnostic F) := none
  flash : Option (Flash F) := none

/-- A file on disk as the four readers see it: its bytes, what the ADIOS library says (`False`, `True`, or an exception other
than the two caught at gkyl_adios_reader.py:91-95), and its contents if it is an HDF5 file. -/
structure Medium (F : Type) where
  bytes : Bytes := []
  adios : Except Err Bool := .ok false
  hdf : Option (File F) := none

/-! ### Choice of the reader -/

inductive Kind
  | gkyl | adios | h5 | flash
  deriving DecidableEq, Repr

/-- gdata.py:107-112, in the order of insertion. -/
def readers : List (String × Kind) := [("gkyl", .gkyl), ("adios", .adios), ("h5", .h5), ("flash", .flash)]

/-- `is_compatible` of the four readers: gkyl_reader.py:152-165, gkyl_adios_reader.py:66-95, gkyl_h5_reader.py:29-45,
flash_h5_reader.py:39-50. -/
def isCompatible (m : Medium F) : Kind → Except Err Bool
  | .gkyl => .ok (GkylReader.compatible m.bytes).isSome
  | .adios => m.adios
  | .h5 => match m.hdf with
    | none => .ok false
    | some f => .ok (f.frame.isSome || f.diagnostic.isSome)
  | .flash => match m.hdf with
    | none => .ok false
    | some f => .ok f.flash.isSome

/-- gdata.py:115-120: a known name leaves only that reader, any other name all of them. -/
def candidates (name : String) : List (String × Kind) :=
  match readers.find? (fun p => p.1 = name) with
  | some p => [p]
  | none => readers

/-- gdata.py:121-129: the loop. -/
def firstCompatible (m : Medium F) : List (String × Kind) → Except Err (Option Kind)
  | [] => .ok none
  | p :: ps => do if ← isCompatible m p.2 then return some p.2 else firstCompatible m ps

/-- gdata.py:114-132 (`NameError` is `Err.fail`). -/
def choose (m : Medium F) (name : String) : Except Err Kind := do
  match ← firstCompatible m (candidates name) with
  | some k => return k
  | none => .error .fail

/-! ### Legacy Gkeyll files -/

/-- gkyl_reader.py:133-134 and gkyl_adios_reader.py:63-64: the constructors of the readers tried before the HDF5 readers
leave a `grid_type` in the metadata; when the reader is named they are not called. -/
def triedCtx (named : Bool) (ctx : Ctx F) : Ctx F :=
  if named ∨ (Dict.get? ctx.other "grid_type").isSome then ctx
  else { ctx with other := Dict.set ctx.other "grid_type" "uniform" }

/-- `if self.ctx:` -/
def nonempty (c : Ctx F) : Bool :=
  c.cells.isSome || c.numComps.isSome || c.lower.isSome || c.upper.isSome || !c.other.isEmpty

/-- gkyl_h5_reader.py:55-57. -/
def timeCtx (f : Frame F) (c : Ctx F) : Ctx F :=
  match f.time with
  | some t => { c with other := Dict.set c.other "time" t }
  | none => c

/-- gkyl_h5_reader.py:97-105, 109-111: the metadata, recorded only if there is some already. -/
def record (cells : List Nat) (lower upper : List F) (shape : List Nat) (c : Ctx F) : Ctx F :=
  if nonempty c then
    { cells := some cells, lower := some lower, upper := some upper,
      numComps := some (if cells.length < shape.length then shape.getLastD 0 else 1),
      other := Dict.set c.other "grid_type" "uniform" }
  else c

variable [Add F] [Sub F] [Mul F] [Div F] [IntCast F]

/-- gkyl_h5_reader.py:108 `np.linspace` along every axis.  (A list of bounds that is too short is an `IndexError`.) -/
def nodes (cells : List Nat) (lower upper : List F) : Except Err (List (NArr F)) :=
  if lower.length < cells.length ∨ upper.length < cells.length then .error .indexError
  else .ok ((List.zip (List.zip lower upper) cells).map fun p => NArr.ofList (GkylReader.linspace p.1.1 p.1.2 (p.2 + 1)))

/-- gkyl_h5_reader.py:79-113 `load` for a frame, and gdata.py:134-137. -/
def loadFrame (f : Frame F) (c : Ctx F) : Except Err (GData F) := do
  let g ← nodes f.cells f.lower f.upper
  return { grid := some g, values := some f.field,
           ctx := record f.cells f.lower f.upper f.field.shape (timeCtx f c) }

/-- gkyl_h5_reader.py:64-73, 92-113 `load` for a diagnostic whose time mesh is a list.  The mesh that was read (`grid`) is
replaced at line 108 by uniform nodes between the first and the last time, one more than there are times.  (A mesh of shape
`(n, 1)` gives the same numbers in an array of shape `(n+1, 1)`: not modelled.) -/
def loadDiagnostic (d : Diagnostic F) (c : Ctx F) : Except Err (GData F) :=
  match d.times.data.head?, d.times.data.getLast? with
  | some t0, some t1 =>
    if d.times.shape.length ≠ 1 then .error .valueError
    else do
      let g ← nodes d.times.shape [t0] [t1]
      return { grid := some g, values := some d.values,
               ctx := record d.times.shape [t0] [t1] d.values.shape c }
  | _, _ => .error .indexError

/-! ### FLASH -/

section flash
variable {F : Type} [Field F] [LinearOrder F] [FloorRing F]

/-- Column `d` of an array with one row per block. -/
def column (a : NArr F) (n d : Nat) : List F := (List.range n).map fun b => (a.get? [b, d]).getD 0

/-- flash_h5_reader.py:61 `coord - bsize / 2` for direction `d`. -/
def lowerEdges (f : Flash F) (n d : Nat) : List F :=
  List.zipWith (fun c s => c - s / ((2 : Int) : F)) (column f.coord n d) (column f.size n d)

/-- flash_h5_reader.py:62 `coord + bsize / 2`. -/
def upperEdges (f : Flash F) (n d : Nat) : List F :=
  List.zipWith (fun c s => c + s / ((2 : Int) : F)) (column f.coord n d) (column f.size n d)

/-- flash_h5_reader.py:60-65 for one direction with `nb` cells per block: the size of the smallest block, the lower and the
upper bound, and the number of cells.  (An empty file is a `ValueError`.) -/
structure Axis (F : Type) where
  res : F
  lower : F
  upper : F
  cells : Int

/-- flash_h5_reader.py:60-65. -/
def axis (f : Flash F) (n nb d : Nat) : Except Err (Axis F) :=
  match (column f.size n d).min?, (lowerEdges f n d).min?, (upperEdges f n d).max? with
  | some res, some lo, some up => .ok ⟨res, lo, up, ⌊(up - lo) / (res / (nb : F))⌋⟩
  | _, _, _ => .error .valueError

/-- flash_h5_reader.py:69: how many cells of the result a cell of block `b` covers. -/
def mult (f : Flash F) (ax : Axis F) (d b : Nat) : Int := ⌈(f.size.get? [b, d]).getD 0 / ax.res⌉

/-- flash_h5_reader.py:70-71: the first cell of block `b`. -/
def first (f : Flash F) (ax : Axis F) (nb d b : Nat) : Int :=
  ⌊((f.coord.get? [b, d]).getD 0 - (f.size.get? [b, d]).getD 0 / ((2 : Int) : F) - ax.lower) / ax.res * (nb : F)⌋

/-- `data[x0:x1, y0:y1] = v` for `0 ≤ x0, y0` (slices stop at the end of the axis). -/
def fill (a : NArr F) (x0 x1 y0 y1 : Int) (v : F) : NArr F :=
  NArr.ofFn a.shape fun idx =>
    if x0 ≤ (idx.getD 0 0 : Nat) ∧ ((idx.getD 0 0 : Nat) : Int) < x1 ∧ y0 ≤ (idx.getD 1 0 : Nat) ∧
        ((idx.getD 1 0 : Nat) : Int) < y1 then some v else a.get? idx

/-- flash_h5_reader.py:74-77: cell `(i, j)` of block `b`.  The slices reach one cell further than the cell. -/
def fillCell (f : Flash F) (mx my x y : Int) (b : Nat) (a : NArr F) (ij : Nat × Nat) : NArr F :=
  fill a (x + ij.1 * mx) (x + (ij.1 + 1) * mx + 1) (y + ij.2 * my) (y + (ij.2 + 1) * my + 1)
    ((f.var.get? [b, 0, ij.2, ij.1]).getD 0)

/-- flash_h5_reader.py:72-73: the order of the cells of a block. -/
def cellOrder (nxb nyb : Nat) : List (Nat × Nat) := (List.range nxb).flatMap fun i => (List.range nyb).map fun j => (i, j)

/-- flash_h5_reader.py:68-81: one block; only leaf blocks are used. -/
def fillBlock (f : Flash F) (ax ay : Axis F) (nxb nyb : Nat) (a : NArr F) (b : Nat) : NArr F :=
  if f.ntype[b]? = some 1 then
    (cellOrder nxb nyb).foldl
      (fillCell f (mult f ax 0 b) (mult f ay 1 b) (first f ax nxb 0 b) (first f ay nyb 1 b) b) a
  else a

/-- flash_h5_reader.py:52-91 `get_data`: the nodes and the values. -/
def flashData (f : Flash F) : Except Err (List (NArr F) × NArr F) :=
  match f.var.shape with
  | [n, _, nyb, nxb] => do
    let ax ← axis f n nxb 0
    let ay ← axis f n nyb 1
    if ax.cells < 0 ∨ ay.cells < 0 then .error .valueError
    else
      let a := (List.range n).foldl (fillBlock f ax ay nxb nyb)
        ⟨[ax.cells.toNat, ay.cells.toNat], List.replicate (ax.cells.toNat * ay.cells.toNat) 0⟩
      return ([NArr.ofList (GkylReader.linspace ax.lower ax.upper (ax.cells.toNat + 1)),
          NArr.ofList (GkylReader.linspace ay.lower ay.upper (ay.cells.toNat + 1))],
        ⟨a.shape ++ [1], a.data⟩)
  | _ => .error .valueError

end flash

/-! ### Opening a file -/

/-- gdata.py:113-138 for a file that is not for the `.gkyl` reader or ADIOS (those are in `Verif/Model/GDataFile.lean` and
`Verif/Model/Adios.lean`; here `Err.fail`).  The selections `zs` and `comp` are handed to the readers, and the HDF5 readers
ignore them.  The FLASH reader has no method `preload`: `AttributeError` (flash_h5_reader.py:30-91). -/
def openFile (m : Medium F) (name : String) (ctx : Ctx F) (_zs : List (Option String)) (_comp : Option String) :
    Except Err (GData F) := do
  match ← choose m name with
  | .gkyl => .error .fail
  | .adios => .error .fail
  | .flash => .error .attributeError
  | .h5 =>
    let c := triedCtx (name = "h5") ctx
    match m.hdf with
    | none => .error .fail
    | some f => match f.frame with
      | some fr => loadFrame fr c
      | none => match f.diagnostic with
        | some d => loadDiagnostic d c
        | none => .error .fail

end H5
end Pgkyl
