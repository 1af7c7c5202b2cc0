import Verif.Model.GData
import Verif.Model.IdxParser
/-! # Model of `src/postgkyl/data/select.py` -/

namespace Pgkyl

/-- Look up one position list per axis: the source index of the output index `idx` when axis `d` of
the output takes the source positions `sel[d]` (NumPy outer indexing). -/
def pick : List (List Nat) → List Nat → Option (List Nat)
  | [], [] => some []
  | s :: ss, i :: is => do
    let j ← s[i]?
    let js ← pick ss is
    return j :: js
  | _, _ => none

/-- `a[sel0, sel1, ...]` where every `sel` is a list of positions along that axis: models NumPy
indexing by a tuple of slices with at most one integer list in the last place. -/
def NArr.ix {α : Type} (a : NArr α) (sel : List (List Nat)) : NArr α :=
  NArr.ofFn (sel.map List.length) fun idx => (pick sel idx).bind a.get?

/-- The positions selected by the Python slice `a:b` on an axis of length `n`. -/
def slicePos (n : Nat) (a b : Int) : List Nat := pySlice (List.range n) a b

/-- The positions kept on one coordinate axis: in the values and in the grid. -/
structure AxisSel where
  v : List Nat
  g : List Nat
  deriving DecidableEq, Repr

variable {F : Type} [LT F] [DecidableLT F]

/-- select.py:50-54: length of the grid along axis `d`: first axis for 1-D ("uniform") grids, axis
`d` for multi-dimensional ones. -/
def gridLen (uniform : Bool) (d : Nat) (g : NArr F) : Except Err Nat :=
  match g.shape[if uniform then 0 else d]? with
  | some n => .ok n
  | none => .error .indexError

/-- select.py:43-74: body of the coordinate loop for one axis with `nval` cells in the values and
grid array `g`.  `z = none` keeps the whole axis (lines 35 and 38). -/
def axisSel (pf : List Char → Option F) (uniform : Bool) (d : Nat) (g : NArr F) (nval : Nat)
    (z : Option (IdxArg F)) : Except Err AxisSel := do
  let lenGrid ← gridLen uniform d g
  match z with
  | none => return ⟨List.range nval, List.range lenGrid⟩
  | some z =>
    let matching := nval == lenGrid
    match ← idxParser pf z (some g) matching with
    | .int i =>
      return ⟨slicePos nval i (i + 1),
        if matching then slicePos lenGrid i (i + 1) else slicePos lenGrid i (i + 2)⟩
    | .slice a b =>
      return ⟨slicePos nval a b,
        if matching then slicePos lenGrid a b else slicePos lenGrid a (b + 1)⟩
    | _ => .error .typeError

/-- select.py:42-76: the coordinate loop over the axes `d, d+1, ...` (cells, grids and selections
of these axes).  (Simplification: with fewer grid arrays than dimensions the call is refused even if nothing is selected on the
axes without a grid.) -/
def axesSel (pf : List Char → Option F) (uniform : Bool) : Nat → List Nat → List (NArr F) →
    List (Option (IdxArg F)) → Except Err (List AxisSel)
  | _, [], _, _ => .ok []
  | _, _ :: _, [], _ => .error .indexError
  | d, n :: ns, g :: gs, zs => do
    let a ← axisSel pf uniform d g n (zs.headD none)
    let as ← axesSel pf uniform (d + 1) ns gs zs.tail
    return a :: as

/-- A position along an axis of length `n` given by a Python integer; IndexError outside. -/
def intPos (n : Nat) (i : Int) : Except Err Nat :=
  if 0 ≤ i ∧ i < n then .ok i.toNat
  else if -n ≤ i ∧ i < 0 then .ok (n + i).toNat
  else .error .indexError

/-- Positions of an integer list along an axis of length `n`. -/
def listPos (n : Nat) : List Int → Except Err (List Nat)
  | [] => .ok []
  | i :: is => do
    let p ← intPos n i
    let ps ← listPos n is
    return p :: ps

/-- select.py:79-81 and 89-92: positions kept on the component axis.  An integer removes the axis,
and lines 90-92 put it back with length one, so it acts as a one-element list.
(Simplification: a `comp` that is neither int, float nor str is rejected here; in the code it turns
into `None`, i.e. `np.newaxis`.) -/
def compSel (pf : List Char → Option F) (nc : Nat) (comp : Option (IdxArg F)) :
    Except Err (List Nat) :=
  match comp with
  | none => .ok (List.range nc)
  | some c => do
    match ← idxParser pf c none false with
    | .int i => return [← intPos nc i]
    | .slice a b => return slicePos nc a b
    | .tuple l => listPos nc l
    | .none => .error .typeError

/-- select.py:69-70 for 1-D grids (only the first axis of grid `d` is cut) and 83-87 for
multi-dimensional grids (every grid is cut along all coordinate axes); trailing axes are kept.
(Simplification: multi-dimensional grids are assumed to have equal extents along each axis, so the
positions of axis `d`, computed from grid `d`, exist in every grid.) -/
def cutGrid (uniform : Bool) (gsel : List (List Nat)) (grid : List (NArr F)) : List (NArr F) :=
  if uniform then
    List.zipWith (fun g s => g.ix (s :: (g.shape.drop 1).map List.range)) grid gsel
      ++ grid.drop gsel.length
  else
    (grid.take gsel.length).map (fun g => g.ix (gsel ++ (g.shape.drop gsel.length).map List.range))
      ++ grid.drop gsel.length

/-- select.py:13-97 `select`.  `zs` is the tuple `(z0, ..., z5)`.  Returns the new grid and values
and the state of the dataset afterwards.  (Simplification: values that do not have exactly one more
axis than the dataset has dimensions are rejected.) -/
def select [Min F] [Max F] (pf : List Char → Option F) (data : GData F)
    (comp : Option (IdxArg F)) (zs : List (Option (IdxArg F))) (overwrite : Bool) :
    Except Err (List (NArr F) × NArr F × GData F) :=
  match data.grid, data.values with
  | some (g0 :: gs), some values => do
    let numDims := data.numDims
    if values.shape.length ≠ numDims + 1 then .error .indexError
    else
      let uniform := g0.shape.length == 1
      let sels : List AxisSel ← axesSel pf uniform 0 values.shape.dropLast (g0 :: gs) (zs.take 6)
      let cs ← compSel pf (values.shape.getLastD 0) comp
      let valuesOut := values.ix (sels.map (·.v) ++ [cs])
      let grid := cutGrid uniform (sels.map (·.g)) (g0 :: gs)
      let data' ← if overwrite then data.push grid valuesOut else pure data
      return (grid, valuesOut, data')
  | _, _ => .error .typeError

end Pgkyl
