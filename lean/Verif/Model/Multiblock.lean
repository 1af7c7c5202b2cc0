import Verif.Model.Select
import Verif.Model.Animate
import Mathlib.Algebra.Field.Basic
import Mathlib.Algebra.Order.Group.Abs
import Mathlib.Data.List.Sort
/-!
# Model of `select --multiblock` (`commands/select.py`) and of `GData.set_neighbors` (`data/gdata.py`)

Lines through two-dimensional blocks.
-/

namespace Pgkyl.Multi

variable {F : Type} [_root_.Field F] [LinearOrder F]

/-- Library: `np.isclose(a, b)`. -/
def isclose (a b : F) : Bool := decide (|a - b| ≤ 1 / 10 ^ 8 + 1 / 10 ^ 5 * |b|)

/-- The first and last nodes of a block along x and y. -/
structure Box (F : Type) where
  lo : Nat → F
  hi : Nat → F

/-- First and last entry of a one-dimensional array. -/
def endsOf (g : NArr F) : Except Err (F × F) :=
  match g.data.head?, g.data.getLast? with
  | some a, some b => .ok (a, b)
  | _, _ => .error .indexError

/-- `get_grid()[dim][0]` and `get_grid()[dim][-1]` of a two-dimensional block.  (Simplification: other blocks are refused;
in the code one-dimensional blocks have neighbours too, three-dimensional ones end in a `TypeError`.) -/
def box (d : GData F) : Except Err (Box F) :=
  match d.grid with
  | some [gx, gy] => do
    let x ← endsOf gx
    let y ← endsOf gy
    return ⟨fun d => if d = 0 then x.1 else y.1, fun d => if d = 0 then x.2 else y.2⟩
  | _ => .error .typeError

/-- gdata.py:307-310: whether block `c` becomes the upper neighbour of block `b` in direction `dim` (`1 - dim` is the other
direction).  A block that could be the lower neighbour as well becomes just that. -/
def upper (b c : Box F) (dim : Nat) : Bool :=
  !(isclose (b.lo dim) (c.hi dim) && isclose (b.lo (1 - dim)) (c.lo (1 - dim))) &&
    (isclose (b.hi dim) (c.lo dim) && isclose (b.lo (1 - dim)) (c.lo (1 - dim)))

/-- `_neighbors[dim][1]` of each dataset. -/
abbrev Nb := Nat → Nat → Option Nat

/-- The object with the given name. -/
def object (s : Space F) (i : Nat) : Except Err (GData F) :=
  match s.heap[i]? with
  | some d => .ok d
  | none => .error .attributeError

/-- gdata.py:300-310: the upper neighbour in direction `dim`: the last candidate that fits, otherwise what was there. -/
def upperOf (s : Space F) (b : Box F) (dim : Nat) (old : Option Nat) (cands : List Nat) : Except Err (Option Nat) :=
  cands.foldlM (fun acc c => do
    let e ← box (← object s c)
    return if upper b e dim then some c else acc) old

/-- gdata.py:295-319 `set_neighbors`: the state of the neighbours afterwards.  (The lower neighbours are not used anywhere
and left out.) -/
def setNeighbors (s : Space F) (nb : Nb) (i : Nat) (cands : List Nat) : Except Err Nb := do
  let b ← box (← object s i)
  let n0 ← upperOf s b 0 (nb i 0) cands
  let n1 ← upperOf s b 1 (nb i 1) cands
  return fun j dim => if j = i then (if dim = 0 then n0 else if dim = 1 then n1 else nb j dim) else nb j dim

/-- The lower and upper bounds of a dataset in direction `dim`. -/
def boundsOf (d : GData F) (dim : Nat) : Except Err (F × F) := do
  match ← d.bounds with
  | some (l, u) => match l[dim]?, u[dim]? with
    | some a, some b => return (a, b)
    | _, _ => .error .indexError
  | none => .error .indexError

/-- select.py:58-60: the smallest lower bound in a direction. -/
def least (s : Space F) (ids : List Nat) (dim : Nat) : Except Err F := do
  let l ← ids.mapM fun i => do return (← boundsOf (← object s i) dim).1
  match l.min? with
  | some m => .ok m
  | none => .error .valueError

/-- select.py:62-76: the block where the line in direction `dim` starts: the last one that fits, otherwise the block of
before. -/
def start (s : Space F) (ids : List Nat) (dim : Nat) (c m : F) (block : Option Nat) : Except Err (Option Nat) :=
  ids.foldlM (fun acc i => do
    let d ← object s i
    let o ← boundsOf d (1 - dim)
    let a ← boundsOf d dim
    return if o.1 ≤ c ∧ c ≤ o.2 ∧ a.1 = m then some i else acc) block

/-- The options of the command; `along = 0` is a line along x (`--z1` given), `along = 1` a line along y (`--z0` given), at the
coordinate text `z`. -/
structure Opts where
  use : Option Tag := none
  tag : Tag := []
  label : List Char := []
  along : Nat := 0
  z : List Char := []
  comp : Option (List Char) := none
  multiframe : Bool := false

/-- The selection arguments `z0` and `z1`. -/
def Opts.zs (o : Opts) : List (Option (IdxArg F)) :=
  if o.along = 0 then [none, some (.str o.z)] else [some (.str o.z), none]

/-- `postgkyl.data.select(block, z0= or z1=, comp=)`. -/
def cut (pf : List Char → Option F) (o : Opts) (s : Space F) (i : Nat) : Except Err (List (NArr F) × NArr F) := do
  let d ← object s i
  let r ← select pf d (o.comp.map .str) o.zs false
  return (r.1, r.2.1)

/-- The nodes along the line of a cut. -/
def lineNodes (o : Opts) (r : List (NArr F) × NArr F) : List F := ((r.1[o.along]?).map NArr.data).getD []

/-- select.py:91-101 and 116-125: from neighbour to neighbour; the nodes and the values found.  (The loop is given a number
of passes; running out of them, here `fail`, is a loop that has not ended yet.) -/
def walk (pf : List Char → Option F) (o : Opts) (s : Space F) (cands : List Nat) :
    Nat → Nb → Nat → List F → List (NArr F) → Except Err (Nb × Nat × List F × List (NArr F))
  | fuel, nb, i, nodes, vals =>
    match nb i o.along with
    | none => .ok (nb, i, nodes, vals)
    | some j =>
      match fuel with
      | 0 => .error .fail
      | fuel + 1 => do
        let nb ← setNeighbors s nb j cands
        let r ← cut pf o s j
        walk pf o s cands fuel nb j (nodes ++ lineNodes o r) (vals ++ [r.2])

/-- Library: `np.unique`. -/
def unique (l : List F) : List F := l.dedup.insertionSort (· ≤ ·)

/-- select.py:86-88, 98-101, 104 and 112-114, 122-126: the rows of all blocks in one array; different lengths of the rows
do not fit (`ValueError`). -/
def stack (along : Nat) (vals : List (NArr F)) : Except Err (NArr F) :=
  let data := (vals.map NArr.data).flatten
  match vals with
  | [] => .error .indexError
  | v :: _ =>
    if vals.all fun w => w.shape.length = 3 ∧ w.shape[1 - along]? = some 1 ∧ w.shape[2]? = v.shape[2]? then
      let n := (vals.map fun w => (w.shape[along]?).getD 0).sum
      let c := (v.shape[2]?).getD 0
      .ok ⟨if along = 0 then [n, 1, c] else [1, n, c], data⟩
    else .error .valueError

/-- The variables that live on from frame to frame. -/
structure State (F : Type) where
  s : Space F
  nb : Nb
  block : Option Nat := none

/-- A line: the grid of its first block, the nodes found along the line, the values, and what is known about the blocks. -/
structure Line (F : Type) where
  grid : List (NArr F)
  nodes : List F
  vals : NArr F
  nb : Nb
  block : Nat

/-- select.py:54-127: the line through one frame. -/
def lineOf (pf : List Char → Option F) (o : Opts) (fuel : Nat) (st : State F) (ids : List Nat) : Except Err (Line F) := do
  let _ ← least st.s ids (1 - o.along)
  let m ← least st.s ids o.along
  match pf o.z with
  | none => .error .valueError
  | some c => do
    match ← start st.s ids o.along c m st.block with
    | none => .error .unboundLocal
    | some i => do
      let nb ← setNeighbors st.s st.nb i ids
      let r ← cut pf o st.s i
      let cands := (← st.s.toList o.use false true .none).map (·.2)
      let w ← walk pf o st.s cands fuel nb i (lineNodes o r) [r.2]
      let vals ← stack o.along w.2.2.2
      return ⟨r.1, w.2.2.1, vals, w.1, w.2.1⟩

/-- select.py:54-142: one frame. -/
def frameStep (pf : List Char → Option F) (o : Opts) (fuel : Nat) (st : State F) (ids : List Nat) :
    Except Err (State F) := do
  let l ← lineOf pf o fuel st ids
  let out ← (GData.new o.tag o.label {}).push (l.grid.set o.along (.ofList (unique l.nodes))) l.vals
  return ⟨(ids.foldl (fun s i => s.update i GData.deactivate) st.s).addNew out, l.nb, some l.block⟩

/-- select.py:36-142 `select --multiblock` with one of `--z0` and `--z1` (with neither, no block is found and the program
ends in an `UnboundLocalError`; with both it ends in an `AttributeError`).  (Simplification: the frame number stored in the
metadata of the results is left out.) -/
def selectBlocks (pf : List Char → Option F) (o : Opts) (fuel : Nat) (s : Space F) : Except Err (Space F) := do
  let fr ← Anim.setFrame s
  let ids := (← s.toList o.use false true .none).map (·.2)
  let frames := if o.multiframe then Anim.blockFrames fr.1 fr.2 ids else [ids]
  let st ← frames.foldlM (frameStep pf o fuel) ⟨s, fun _ _ => none, none⟩
  return st.s

end Pgkyl.Multi
