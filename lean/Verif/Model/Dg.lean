import Verif.Model.NumOps
import Verif.Model.CompOps
import Verif.Model.GkylReader
import Verif.Model.InterpTables
import Verif.Model.DerivTables
/-!
# Model of the interpolation of DG data, `src/postgkyl/data/dg.py`

Also the matrices of `data/computeInterpolationMatrices.py` and `data/computeDerivativeMatrices.py`.
Only the arithmetic operations of the numbers are assumed, no laws.
-/

namespace Pgkyl

namespace NArr
variable {α : Type}

/-- `a[..., np.newaxis]` (NumPy library). -/
def newLast (a : NArr α) : NArr α := ⟨a.shape ++ [1], a.data⟩

/-- `np.append(a, b, axis=-1)` (NumPy library): all extents but the last must agree. -/
def appendLast (a b : NArr α) : Except Err (NArr α) :=
  match a.shape.getLast?, b.shape.getLast? with
  | some m, some n =>
    if a.shape.dropLast = b.shape.dropLast then
      .ok (ofFn (a.shape.dropLast ++ [m + n]) fun idx =>
        let c := idx.getLastD 0
        if c < m then a.get? idx else b.get? (idx.dropLast ++ [c - m]))
    else .error .valueError
  | _, _ => .error .valueError

/-- Length of the slice `start:stop:step` of an axis of length `n` (NumPy library), non-negative
bounds, positive step. -/
def stridedLen (n : Nat) (s : Nat × Nat × Nat) : Nat :=
  (min s.2.1 n - s.1 + (s.2.2 - 1)) / s.2.2

/-- The position within the slice `start:stop:step` that the index `i` of an axis of length `n`
is, if it is selected (NumPy library). -/
def stridedPos (n : Nat) (s : Nat × Nat × Nat) (i : Nat) : Option Nat :=
  if s.1 ≤ i ∧ i < min s.2.1 n ∧ (i - s.1) % s.2.2 = 0 then some ((i - s.1) / s.2.2) else none

/-- `a[start0:stop0:step0, ...] = t` with one slice per axis (NumPy library).  Simplification: `t`
must have exactly the shape of the selection (NumPy also broadcasts). -/
def assignStrided (a : NArr α) (sl : List (Nat × Nat × Nat)) (t : NArr α) : Except Err (NArr α) :=
  if t.shape = List.zipWith stridedLen a.shape sl then
    .ok (ofFn a.shape fun idx =>
      match (List.zipWith (fun p i => stridedPos p.1 p.2 i) (a.shape.zip sl) idx).mapM id with
      | some pos => t.get? pos
      | none => a.get? idx)
  else .error .valueError

end NArr

namespace Dg

/-- `l[i]` for a Python index, negative from the end (NumPy library). -/
def pyGet {α : Type} (l : List α) (i : Int) : Except Err α :=
  let j := if i < 0 then i + l.length else i
  if 0 ≤ j then
    match l[j.toNat]? with
    | some x => .ok x
    | none => .error .indexError
  else .error .indexError

/-- dg.py:12-18. -/
def nodesSerendipity : List (List Nat) := [
  [1, 2, 3, 4, 5],
  [1, 4, 8, 12, 17],
  [1, 8, 20, 32, 50],
  [1, 16, 48, 80, 136],
  [1, 32, 112, 192, 352],
  [1, 64, 256, 448, 880]]

/-- dg.py:20-26. -/
def nodesMaximal : List (List Nat) := [
  [2, 3, 4, 5],
  [3, 6, 10, 15],
  [4, 10, 20, 35],
  [5, 15, 35, 70],
  [6, 21, 56, 126],
  [7, 28, 84, 210]]

/-- dg.py:28-34. -/
def nodesTensor : List (List Nat) := [
  [2, 3, 4, 5],
  [4, 9, 16, 25],
  [8, 27, 64, 125],
  [16, 81, 256, 625],
  [32, 343, 1024, 3125],
  [64, 729, 4096, 15625]]

/-- dg.py:36. -/
def nodesGkHybrid : List Nat := [1, 6, 12, 24, 48]
/-- dg.py:37. -/
def nodesHybrid : List Nat := [1, 6, 12, 24, 48]

/-- dg.py:55-75 `_getnum_nodes`.  Simplification: the basis name is given in lower case (the code
lowers it); the NameError is `Err.fail`. -/
def numNodes (dim p : Nat) (basis : String) : Except Err Nat :=
  if basis = "serendipity" then do
    pyGet (← pyGet nodesSerendipity ((dim : Int) - 1)) p
  else if basis = "maximal-order" then do
    pyGet (← pyGet nodesMaximal ((dim : Int) - 1)) ((p : Int) - 1)
  else if basis = "tensor" then do
    pyGet (← pyGet nodesTensor ((dim : Int) - 1)) ((p : Int) - 1)
  else if basis = "gkhybrid" then pyGet nodesGkHybrid ((dim : Int) - 1)
  else if basis = "hybrid" then pyGet nodesHybrid ((dim : Int) - 1)
  else .error .fail

/-- `np.argwhere(row == n).squeeze()` used as a condition (dg.py:42-43, 47-48): the position of the
only match, which counts as true when it is not 0.  (The entries of every row are distinct, so there
is at most one; no match is an empty array, false.) -/
def truthyIdx (row : List Nat) (n : Nat) : Option Nat :=
  match row.findIdx? (· = n) with
  | some (i + 1) => some (i + 1)
  | _ => none

/-- dg.py:40-52 `_get_basis_p`; `none` is the pair `(None, None)`. -/
def basisOf (dim ncomp : Nat) : Except Err (Option (String × Nat)) := do
  let rowS ← pyGet nodesSerendipity ((dim : Int) - 1)
  let rowT ← pyGet nodesTensor ((dim : Int) - 1)
  match truthyIdx rowT ncomp with
  | some i => return some ("tensor", i + 1)
  | none => return (truthyIdx rowS ncomp).map fun i => ("serendipity", i)

section matrices
variable {F : Type} [Add F] [Sub F] [Mul F] [Div F] [Neg F] [Zero F] [One F] [IntCast F] [NatCast F]

/-- computeInterpolationMatrices.py:12-18, 41-48: the points of one axis on the reference interval,
`n` of them (`n` counts the extra point of the c2p case). -/
def points (c2p : Bool) (n : Nat) : List F :=
  (List.range n).map fun (i : Nat) =>
    if c2p then -1 + (i : F) * ((2 : Nat) : F) / ((n - 1 : Nat) : F)
    else -1 * ((n - 1 : Nat) : F) / (n : F) + (i : F) * ((2 : Nat) : F) / (n : F)

/-- computeInterpolationMatrices.py:8-10, 22-38: the number of points along each axis.  Only the
branches of the bases "gkhybrid" and "hybrid" in two or more dimensions use the per-axis lists; all
the other branches use the same list for every axis. -/
def pointCounts (dim : Nat) (basis : String) (interp : Nat) (c2p : Bool) : List Nat :=
  let n := if c2p then interp + 1 else interp
  (List.range dim).map fun (d : Nat) =>
    if dim = 1 then n
    else if basis = "gkhybrid" then
      if ((dim = 2 ∨ dim = 3) ∧ d = 1) ∨ (dim = 4 ∧ d = 2) ∨ (dim = 5 ∧ d = 3) then n + 1 else n
    else if basis = "hybrid" then
      if d = dim - 1 then n + 1 else n
    else n

/-- The nested loops over the points (computeInterpolationMatrices.py:216-221, 688-700 and the same
in the other branches): the outermost loop runs over the last axis, so that the row numbered
`k + j*n0 + i*n0*n1` holds the point `(pts[0][k], pts[1][j], pts[2][i])`. -/
def loopPoints : List (List F) → List (List F)
  | [] => [[]]
  | xs :: rest => (loopPoints rest).flatMap fun tl => xs.map (· :: tl)

/-- The branch of createInterpMatrix (computeInterpolationMatrices.py:52-56, 127-129, 205-208, ...):
the `functionVector`; the NameError for an unsupported combination is `Err.fail`. -/
def interpFns (dim order : Nat) (basis : String) (modal : Bool) : Except Err (List Poly) :=
  let kind : Kind := if dim = 1 then (if modal then .modal1 else .nodal1)
    else if modal then .modal basis else .nodal basis
  match InterpTables.all.lookup ⟨dim, kind, order⟩ with
  | some fs => .ok fs
  | none => .error .fail

/-- The branch of createDerivativeMatrix (computeDerivativeMatrices.py:16-21, 118-121, ...). -/
def derivFns (dim order : Nat) (basis : String) (modal : Bool) : Except Err (List Poly) :=
  let kind : Kind := if dim = 1 then (if modal then .modal1 else .nodal basis)
    else if modal then .modal basis else .nodal basis
  match DerivTables.all.lookup ⟨dim, kind, order⟩ with
  | some fs => .ok fs
  | none => .error .fail

/-- One row per point, one column per function (computeInterpolationMatrices.py:57-60 and the same in
the other branches). -/
def matrixOf (fns : List Poly) (pts : List (List F)) : List (List F) :=
  pts.map fun pt => fns.map fun f => f.eval pt

/-- computeInterpolationMatrices.py:7 `createInterpMatrix`. -/
def createInterpMatrix (dim order : Nat) (basis : String) (interp : Nat) (modal c2p : Bool) :
    Except Err (List (List F)) := do
  let fns ← interpFns dim order basis modal
  return matrixOf fns (loopPoints ((pointCounts dim basis interp c2p).map (points c2p)))

/-- computeDerivativeMatrices.py:7 `createDerivativeMatrix`, the slice `[:, :, dir]` of its result
(dg.py:549, 553, 558): the points are the same for every axis (lines 9-14); the functions are
differentiated with respect to the symbol number `dir`. -/
def createDerivativeMatrix (dim order : Nat) (basis : String) (interp : Nat) (modal : Bool)
    (dir : Nat) : Except Err (List (List F)) := do
  let fns ← derivFns dim order basis modal
  if dim ≤ dir then .error .indexError
  else return matrixOf (fns.map (Poly.diff dir)) (loopPoints (List.replicate dim (points false interp)))

/-- dg.py:78-115 `_loadInterpMatrix` with `read=None`.  The result of reading one of the
pre-computed HDF5 files is the parameter `h5`. -/
def loadInterpMatrix (h5 : Except Err (List (List F))) (dim order : Nat) (basis : String)
    (interp : Option Nat) (modal c2p : Bool) : Except Err (List (List F)) :=
  match interp with
  | some n => createInterpMatrix dim order basis n modal c2p
  | none =>
    if c2p then createInterpMatrix dim order basis (order + 1) modal c2p
    else if basis = "tensor" ∨ basis = "gkhybrid" ∨ basis = "hybrid" then
      createInterpMatrix dim order basis (order + 1) true c2p
    else h5

end matrices

section mesh
variable {F : Type} [Add F] [Sub F] [Mul F] [Div F] [IntCast F] [NatCast F]

/-- dg.py:129-150 `_makeMesh`: the nodes of one axis.  Simplification: only one-dimensional input;
`meshArr` covers the arrays the uniform branch also accepts. -/
def makeMesh (n : Nat) (xc : NArr F) (gridType : Option String) : Except Err (List F) :=
  match xc.shape with
  | [m] =>
    let nx := m - 1
    if gridType = none ∨ gridType = some "uniform" then
      match xc.data.head?, xc.data.getLast? with
      | some lo, some up => .ok (GkylReader.linspace lo up (n * nx + 1))
      | _, _ => .error .indexError
    else if gridType = some "mapped" then
      match xc.data.getLast?, xc.data[m - 2]? with
      | some up, some prev =>
        if nx = 0 then .error .indexError
        else .ok (((List.range nx).flatMap fun (i : Nat) =>
            match xc.data[i]?, xc.data[i + 1]? with
            | some x, some y => (List.range n).map fun (j : Nat) => x + (j : F) * ((y - x) / (n : F))
            | _, _ => []) ++ [prev + (n : F) * ((up - prev) / (n : F))])
      | _, _ => .error .indexError
    else .ok []
  | _ => .error .typeError

/-- dg.py:129-137 `_makeMesh` in the uniform case on an array of any shape: `np.linspace` between the first and
the last sub-array, entry by entry. -/
def meshArr (n : Nat) (xc : NArr F) : Except Err (NArr F) :=
  match xc.shape with
  | [] => .error .indexError
  | [_] => do return NArr.ofList (← makeMesh n xc none)
  | m :: rest =>
    if m = 0 then .error .indexError
    else .ok (NArr.ofFn ((n * (m - 1) + 1) :: rest) fun idx =>
      match xc.get? (0 :: idx.tail), xc.get? ((m - 1) :: idx.tail) with
      | some lo, some up => (GkylReader.linspace lo up (n * (m - 1) + 1))[idx.headD 0]?
      | _, _ => none)

/-- `a[0, ..., :, ..., 0]` with the colon at axis `ax` (NumPy library). -/
def lineAt {α : Type} (a : NArr α) (ax : Nat) : NArr α :=
  NArr.ofFn [a.shape.getD ax 0] fun idx =>
    a.get? ((List.replicate a.shape.length 0).set ax (idx.headD 0))

/-- dg.py:153-166 `_make1Dgrids`.  A grid type other than uniform and mapped gives no axes. -/
def make1Dgrids (ns : List Nat) (xc : List (NArr F)) (dims : Nat) (gridType : Option String) :
    Except Err (List (NArr F)) :=
  if gridType = none ∨ gridType = some "uniform" then
    (List.range dims).mapM fun (d : Nat) =>
      match ns[d]?, xc[d]? with
      | some n, some x => meshArr n x
      | _, _ => .error .indexError
  else if gridType = some "mapped" then
    (List.range dims).mapM fun (d : Nat) =>
      match ns[d]?, xc[d]? with
      | some n, some x =>
        if x.shape.length = dims then do
          return NArr.ofList (← makeMesh n (lineAt x (dims - 1 - d)) (some "mapped"))
        else .error .indexError
      | _, _ => .error .indexError
  else .ok []

end mesh

section interp
variable {F : Type} [Add F] [Mul F] [Zero F]

/-- dg.py:176, 476 `vpardir`; `none` is the value 99, outside of the list. -/
def vparDir (dims : Nat) : Option Nat :=
  if dims = 2 ∨ dims = 3 then some 1 else if dims = 4 then some 2 else if dims = 5 then some 3 else none

/-- dg.py:174-183: the number of points per cell along each axis. -/
def meshCounts (n : Nat) (basis : String) (dims : Nat) : Except Err (List Nat) :=
  let base := List.replicate dims (max n 2)
  if basis = "gkhybrid" then
    match vparDir dims with
    | some v => .ok (base.set v (n + 1))
    | none => .error .indexError
  else if basis = "hybrid" then
    if dims = 0 then .error .indexError else .ok (base.set (dims - 1) (n + 1))
  else .ok base

/-- `np.unravel_index(n, shape, order="F")` (NumPy library). -/
def unravelF : List Nat → Nat → List Nat
  | [], _ => []
  | m :: ms, n => n % m :: unravelF ms (n / m)

/-- `np.tensordot(row, np.moveaxis(q, -1, 0), axes=1)` (dg.py:190-194; NumPy library): the sum over
the last axis of `q`, weighted by `row`. -/
def dotLast (row : List F) (q : NArr F) : Except Err (NArr F) :=
  if q.shape.getLast? = some row.length then
    .ok (NArr.ofFn q.shape.dropLast fun c =>
      some (((List.range row.length).filterMap fun k => do
        let a ← row[k]?
        let b ← q.get? (c ++ [k])
        return a * b).foldl (· + ·) 0))
  else .error .valueError

/-- dg.py:198-205: the slices that receive the values of local point `start`. -/
def meshSlices (c2p : Bool) (cells ns start : List Nat) : List (Nat × Nat × Nat) :=
  List.zipWith (fun s (p : Nat × Nat) =>
    if c2p then (s, p.1 * (p.2 - 1) + s, p.2 - 1) else (s, p.1 * p.2, p.2)) start (cells.zip ns)

/-- dg.py:191-206: one round of the main loop, local point number `n`. -/
def meshStep (cMat : List (List F)) (q : NArr F) (cells ns : List Nat) (c2p : Bool) (out : NArr F)
    (n : Nat) : Except Err (NArr F) :=
  match cMat[n]? with
  | none => .error .indexError
  | some row => do
    let temp ← dotLast row q
    out.assignStrided (meshSlices c2p cells ns (unravelF ns n)) temp

/-- dg.py:169-208 `_interpOnMesh`. -/
def interpOnMesh (cMat : List (List F)) (q : NArr F) (n : Nat) (basis : String) (c2p : Bool) :
    Except Err (NArr F) := do
  let cells := q.shape.dropLast
  let ns ← meshCounts n basis cells.length
  let shape := List.zipWith (fun c m => if c2p then c * (m - 1) + 1 else c * m) cells ns
  (List.range ns.prod).foldlM (meshStep cMat q cells ns c2p) (NArr.zeros shape)

end interp

/-- What the interpolation objects read from a dataset (dg.py:226-230, 391-425, 446, 470): the
number of dimensions and components, the grid, the values, and the metadata entries. -/
structure Source (F : Type) where
  numDims : Nat
  numComps : Nat
  grid : List (NArr F)
  values : NArr F
  polyOrder : Option Nat := none
  basisType : Option String := none
  gridType : String := "uniform"
  numCdim : Nat := 0
  numVdim : Nat := 0

/-- An initialised `GInterpModal` or `GInterpNodal`. -/
structure Interp (F : Type) where
  src : Source F
  polyOrder : Nat
  basis : String
  numInterp : Option Nat
  numNodes : Nat

/-- dg.py:400-418: the name of the basis from the option; an unknown name leaves the attribute unset. -/
def modalBasis (opt : Option String) (ctx : Option String) : Except Err String :=
  match opt with
  | some b =>
    if b ≠ "" then
      if b = "ms" then .ok "serendipity"
      else if b = "mo" then .ok "maximal-order"
      else if b = "mt" then .ok "tensor"
      else if b = "gkhyb" then .ok "gkhybrid"
      else if b = "pkpmhyb" then .ok "hybrid"
      else .error .attributeError
    else fromCtx
  | none => fromCtx
where
  /-- dg.py:412-417. -/
  fromCtx : Except Err String :=
    match ctx with
    | some b => if b ≠ "" then .ok b else .error .valueError
    | none => .error .valueError

/-- dg.py:392-399: the option wins; a stored order 0 is falsy. -/
def modalOrder (opt : Option Nat) (ctx : Option Nat) : Except Err Nat :=
  match opt with
  | some p => .ok p
  | none =>
    match ctx with
    | some (p + 1) => .ok (p + 1)
    | _ => .error .valueError

/-- dg.py:390-440 `GInterpModal.__init__` (with `read=None`). -/
def modalInit {F : Type} (src : Source F) (polyOrder : Option Nat) (basis : Option String)
    (numInterp : Option Nat) : Except Err (Interp F) := do
  let p ← modalOrder polyOrder src.polyOrder
  let b ← modalBasis basis src.basisType
  let b := if src.numDims = 1 ∧ b = "hybrid" then "serendipity" else b
  let n := match numInterp with
    | some (k + 1) => k + 1
    | _ => p + 1
  let nodes ← Dg.numNodes src.numDims p b
  return { src := src, polyOrder := p, basis := b, numInterp := some n, numNodes := nodes }

/-- dg.py:283-296 `GInterpNodal.__init__` (with `read=None`). -/
def nodalInit {F : Type} (src : Source F) (polyOrder : Nat) (basis : String)
    (numInterp : Option Nat) : Except Err (Interp F) := do
  let b := if basis = "ns" then "serendipity" else basis
  let nodes ← Dg.numNodes src.numDims polyOrder b
  return { src := src, polyOrder := polyOrder, basis := b, numInterp := numInterp, numNodes := nodes }

/-- dg.py:244-251 `_getRawModal`. -/
def rawModal {F : Type} (o : Interp F) (c : Nat) : Except Err (NArr F) :=
  let lo := c * o.numNodes
  o.src.values.comps lo ((lo + o.numNodes : Nat) : Int)

/-- dg.py:232-242 `_getRawNodal`: the component of node `n` is `int(c + n * (num_comps / num_nodes))`
(computed exactly here, in floating point in the code). -/
def rawNodal {F : Type} (o : Interp F) (c : Nat) : Except Err (NArr F) :=
  match o.src.values.shape.getLast? with
  | none => .error .indexError
  | some m =>
    let pick (n : Nat) : Nat := (c * o.numNodes + n * o.src.numComps) / o.numNodes
    if (List.range o.numNodes).all fun n => pick n < m then
      .ok (NArr.ofFn (o.src.values.shape.dropLast ++ [o.numNodes]) fun idx =>
        o.src.values.get? (idx.dropLast ++ [pick (idx.getLastD 0)]))
    else .error .indexError

/-- The `comp` argument: an integer, a tuple, or a slice (dg.py:449-468). -/
inductive Comp where
  | int (c : Nat)
  | tuple (cs : List Nat)
  | slice (start stop : Nat)
  deriving DecidableEq, Repr

/-- dg.py:449-468: the components, in order; an empty tuple is an IndexError; the component at the
start of a slice is always taken. -/
def Comp.list : Comp → Except Err (List Nat)
  | .int c => .ok [c]
  | .tuple [] => .error .indexError
  | .tuple (c :: cs) => .ok (c :: cs)
  | .slice start stop => .ok (start :: (List.range' (start + 1) (stop - (start + 1))))

section interpolate
variable {F : Type} [Add F] [Sub F] [Mul F] [Div F] [Neg F] [Zero F] [One F] [IntCast F] [NatCast F]

/-- dg.py:449-468: the components one after the other, appended along the last axis. -/
def gather (f : Nat → Except Err (NArr F)) : List Nat → Except Err (NArr F)
  | [] => .error .unboundLocal
  | c :: cs => do
    let v ← f c
    cs.foldlM (fun (acc : NArr F) c => do acc.appendLast ((← f c).newLast)) v.newLast

/-- `int(round(rows ** (1.0 / d)))` (dg.py:487): the integer nearest to the d-th root. -/
def rootRound (rows d : Nat) : Nat :=
  ((List.range (rows + 1)).find? fun n => decide (2 ^ d * rows < (2 * n + 1) ^ d)).getD 0

/-- dg.py:477-488: the number of points per cell used for the output grid. -/
def gridCounts (basis : String) (n rows dims : Nat) : Except Err (List Nat) :=
  if basis = "gkhybrid" then
    match vparDir dims with
    | some v => if v < dims then .ok ((List.replicate dims n).set v (n + 1)) else .error .indexError
    | none => .error .indexError
  else if basis = "hybrid" then
    if dims = 0 then .error .indexError else .ok ((List.replicate dims n).set (dims - 1) (n + 1))
  else .ok (List.replicate dims (rootRound rows dims))

/-- dg.py:469-505: the output grid of `GInterpModal.interpolate`.  `rows` is the number of rows of the
interpolation matrix of the values. -/
def modalGrid (o : Interp F) (n rows : Nat) : Except Err (List (NArr F)) :=
  if o.src.gridType = "c2p" then
    match o.src.grid.head? with
    | none => .error .indexError
    | some q0 => do
      match ← basisOf o.src.numDims (q0.shape.getLastD 0) with
      | none => .error .typeError
      | some (basis, p) =>
        let cMat ← createInterpMatrix o.src.numDims p basis n true true
        (List.range o.src.numDims).mapM fun (d : Nat) =>
          match o.src.grid[d]? with
          | none => .error .indexError
          | some q => interpOnMesh cMat q (n + 1) basis true
  else do
    let ns ← gridCounts o.basis n rows o.src.numDims
    if o.src.gridType = "c2p_vel" then
      -- the velocity axes are replaced; `_make1Dgrids` runs on all of them first
      let grid ← make1Dgrids ns o.src.grid o.src.numDims none
      match o.src.grid.getLast? with
      | none => .error .indexError
      | some ql => do
        match ← basisOf 1 (ql.shape.getLastD 0) with
        | none => .error .typeError
        | some (basis, p) =>
          (List.range o.src.numVdim).foldlM (fun (g : List (NArr F)) d =>
            match ns[o.src.numCdim + d]?, o.src.grid[o.src.numCdim + d]? with
            | some m, some q => do
              let cMat ← createInterpMatrix 1 p basis m true true
              let a ← interpOnMesh cMat q (m + 1) basis true
              return g.set (o.src.numCdim + d) a
            | _, _ => .error .indexError) grid
    else make1Dgrids ns o.src.grid o.src.numDims none

/-- dg.py:442-515 `GInterpModal.interpolate`: grid and values. -/
def modalInterpolate (o : Interp F) (comp : Comp) : Except Err (List (NArr F) × NArr F) :=
  match o.numInterp with
  | none => .error .typeError
  | some n => do
    let cMat ← createInterpMatrix o.src.numDims o.polyOrder o.basis n true false
    let values ← gather (fun c => do interpOnMesh cMat (← rawModal o c) n o.basis false) (← comp.list)
    let grid ← modalGrid o n cMat.length
    return (grid, values)

/-- dg.py:306-307: one component.  Without a number of points `_interpOnMesh` evaluates `max(None, 2)`. -/
def nodalComp (cMat : List (List F)) (o : Interp F) (c : Nat) : Except Err (NArr F) := do
  let q ← rawNodal o c
  match o.numInterp with
  | none => .error .typeError
  | some n => interpOnMesh cMat q n o.basis false

/-- dg.py:298-338 `GInterpNodal.interpolate`: grid and values. -/
def nodalInterpolate (h5 : Except Err (List (List F))) (o : Interp F) (comp : Comp) :
    Except Err (List (NArr F) × NArr F) := do
  let cMat ← loadInterpMatrix h5 o.src.numDims o.polyOrder o.basis o.numInterp false false
  let cs ← comp.list
  let values ← gather (nodalComp cMat o) cs
  let grid ← make1Dgrids (List.replicate o.src.numDims (rootRound cMat.length o.src.numDims))
    o.src.grid o.src.numDims none
  return (grid, values)

/-- `self.Xc[i][1] - self.Xc[i][0]` (dg.py:550, 554, 560).  Simplification: one-dimensional axes. -/
def cellSize (o : Interp F) (i : Nat) : Except Err F :=
  match o.src.grid[i]? with
  | none => .error .indexError
  | some x =>
    match x.shape, x.data[0]?, x.data[1]? with
    | [_], some a, some b => .ok (b - a)
    | _, _, _ => .error .indexError

/-- dg.py:548-551: the derivative along one direction. -/
def derivAlong (o : Interp F) (n : Nat) (q : NArr F) (i : Nat) : Except Err (NArr F) := do
  let cMat ← createDerivativeMatrix o.src.numDims o.polyOrder o.basis n true i
  let v ← interpOnMesh cMat q n o.basis false
  let dx ← cellSize o i
  return (v.map1 fun x => x * ((2 : Nat) : F) / dx).newLast

/-- dg.py:553-555: the first component when no direction is given. -/
def derivFirst (o : Interp F) (n : Nat) (q : NArr F) : Except Err (NArr F) := do
  let cMat ← createDerivativeMatrix o.src.numDims o.polyOrder o.basis n true 0
  let v ← interpOnMesh cMat q n o.basis false
  let dx ← cellSize o 0
  return (v.map1 fun x => x / dx).newLast

/-- dg.py:557-560: a further component when no direction is given. -/
def derivNext (o : Interp F) (n : Nat) (q : NArr F) (acc : NArr F) (i : Nat) : Except Err (NArr F) := do
  let cMat ← createDerivativeMatrix o.src.numDims o.polyOrder o.basis n true i
  let v ← interpOnMesh cMat q n o.basis false
  let dx ← cellSize o i
  acc.appendLast ((v.map1 fun x => x * (((2 : Nat) : F) / dx)).newLast)

/-- dg.py:541-571 `GInterpModal.differentiate`: grid and values. -/
def modalDifferentiate (o : Interp F) (direction : Option Nat) (c : Nat) :
    Except Err (List (NArr F) × NArr F) :=
  match o.numInterp with
  | none => .error .typeError
  | some n => do
    let q ← rawModal o c
    let values ← match direction with
      | some i => derivAlong o n q i
      | none => do
        let v ← derivFirst o n q
        (List.range' 1 (o.src.numDims - 1)).foldlM (derivNext o n q) v
    let grid ← make1Dgrids
      (List.replicate o.src.numDims (rootRound (n ^ o.src.numDims) o.src.numDims))
      o.src.grid o.src.numDims (some o.src.gridType)
    return (grid, values)

/-- dg.py:333-365 `GInterpNodal.differentiate`: grid and values.  Without a direction the code evaluates
`np.zeros(q.shape, num_dims)`, a TypeError; without a number of points `max(None, 2)`, another. -/
def nodalDifferentiate (o : Interp F) (direction : Option Nat) (c : Nat) :
    Except Err (List (NArr F) × NArr F) := do
  let q ← rawNodal o c
  match direction with
  | none => do
    let _ ← derivFns o.src.numDims o.polyOrder o.basis false
    .error .typeError
  | some i => do
    let m := o.numInterp.getD (o.polyOrder + 1)
    let cMat ← createDerivativeMatrix o.src.numDims o.polyOrder o.basis m false i
    match o.numInterp with
    | none => .error .typeError
    | some n => do
      let v ← interpOnMesh cMat q n o.basis false
      let dx ← cellSize o i
      let grid ← make1Dgrids (List.replicate o.src.numDims (rootRound (m ^ o.src.numDims) o.src.numDims))
        o.src.grid o.src.numDims none
      return (grid, (v.map1 fun x => x * ((2 : Nat) : F) / dx).newLast)

end interpolate

end Dg
end Pgkyl
