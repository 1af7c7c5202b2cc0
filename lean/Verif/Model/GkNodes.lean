import Verif.Model.CompOps
import Verif.Model.NumOps
import Verif.Model.Gk
import Verif.Model.Info
/-!
# Model of the command `gk_nodes`: the nodes of a gyrokinetic grid in the R-Z plane

`src/postgkyl/commands/gk_nodes.py` and `utils/gk_utils.py`.  The layout of the figure (lines 172-198), colours, axis labels
and limits are left out.  Reading a file is a parameter.
-/

namespace Pgkyl
namespace Gk

section
variable {F : Type}

/-- gk_nodes.py:16-27 `is_geo_mapc2p`; the position of GKYL_GEOMETRY_MAPC2P in the table is found as
`enum_key_to_idx` does (utils/gkeyll_enums.py:19-21).  The entry is an integer. -/
def isGeoMapc2p (c : Ctx F) : Bool :=
  match Dict.get? c.other "geometry_type" with
  | none => true
  | some g => pyInt g.toList == some (((Text.geometryNames.idxOf "GKYL_GEOMETRY_MAPC2P".toList) : Nat) : Int)

/-- gk_nodes.py:33-47: the slices for Cartesian direction `cd`; the bounds are clamped as slicing does.  Three-dimensional
nodes are taken at the first node in `y`. -/
def nodeSlices (shape : List Nat) (cd : Nat) : List (Nat × Nat) :=
  let cdim := shape.length - 1
  (List.range shape.length).map fun d =>
    if d = cdim then (min cd (shape.getD d 0), min (cd + 1) (shape.getD d 0))
    else if cdim = 3 ∧ d = 1 then (0, min 1 (shape.getD d 0))
    else (0, shape.getD d 0)

/-- gk_nodes.py:51, 58-59: `np.squeeze(nodes[tuple(slices[cd])])`. -/
def nodePart (v : NArr F) (cd : Nat) : NArr F := (v.slice (nodeSlices v.shape cd)).squeeze

variable [Add F] [Mul F]

/-- gk_nodes.py:54: the major radius from the Cartesian coordinates. -/
def radiusOf (sqrt : F → F) (x y : F) : F := sqrt (x * x + y * y)

/-- gk_nodes.py:29-62 `nodes_to_RZ`.  The toroidal angle is not used. -/
def nodesToRZ (sqrt : F → F) (v : NArr F) (mapc2p : Bool) : Except Err (NArr F × NArr F) :=
  if mapc2p then do
    let r ← NArr.zip2 (radiusOf sqrt) (nodePart v 0) (nodePart v 1)
    return (r, nodePart v 2)
  else .ok (nodePart v 0, nodePart v 1)

/-- One entry of the stacked coordinates. -/
def stackAt (r z : NArr F) : List Nat → Option F
  | [i, j, 0] => r.get? [i, j]
  | [i, j, 1] => z.get? [i, j]
  | _ => none

/-- gk_nodes.py:231: `np.stack((majorR, vertZ), axis=2)`; for other than two-dimensional arrays of one shape an error. -/
def segments (r z : NArr F) : Except Err (NArr F) :=
  match r.shape with
  | [m, n] => if z.shape = [m, n] then .ok (NArr.ofFn [m, n, 2] (stackAt r z)) else .error .valueError
  | _ => .error .valueError

/-- One entry of the transposed segments. -/
def swapAt (s : NArr F) : List Nat → Option F
  | [j, i, c] => s.get? [i, j, c]
  | _ => none

/-- gk_nodes.py:232: `segs_constx.transpose(1,0,2)`. -/
def swapSegments (s : NArr F) : NArr F :=
  match s.shape with
  | [m, n, c] => NArr.ofFn [n, m, c] (swapAt s)
  | _ => s

/-- A dataset put on the stack: its tag, and the two arrays that were pushed (in place of grid and values). -/
structure NodeSet (F : Type) where
  tag : Str
  first : NArr F
  second : NArr F
  ctx : Ctx F

/-- gk_nodes.py:64-71, 157-162: the tag of a dataset of block `b`. -/
def nodeTag (base : Str) (numBlocks : Nat) (b : Int) : Str :=
  if 1 < numBlocks then base ++ "_b".toList ++ pyStr b else base

/-- gk_nodes.py:140-153: the name of the nodes file, with a star for the block. -/
def nodesFile (o : Files) (multib nodes : Str) : Str :=
  match nodes with
  | [] => prefixStar o multib ++ "nodes.gkyl".toList
  | c :: cs => if c = '/' then c :: cs else o.path ++ '/' :: (c :: cs)

/-- gk_nodes.py:224-240: the lines through the nodes. -/
def edgeSets (nodes r z : NArr F) (tag : Str) (ctx : Ctx F) : Except Err (List (NodeSet F)) :=
  if nodes.shape.length - 1 = 1 then .ok []
  else (segments r z).map fun s => [⟨tag, s, swapSegments s, ctx⟩]

/-- gk_nodes.py:215-246: one block; `read` gives the values and metadata of a file, `np.squeeze` is that of
`read_gfile` (gk_utils.py:32-44). -/
def nodesBlock (sqrt : F → F) (read : Str → Option (NArr F × Ctx F)) (file : Str) (numBlocks : Nat)
    (added : List (NodeSet F)) (b : Int) : Except Err (List (NodeSet F)) :=
  match read (replaceStar file (pyStr b)) with
  | none => .error .osError
  | some (v, ctx) => do
    let nodes := v.squeeze
    let (r, z) ← nodesToRZ sqrt nodes (isGeoMapc2p ctx)
    let edges ← edgeSets nodes r z (nodeTag "edges".toList numBlocks b) ctx
    return added ++ edges ++ [⟨nodeTag "nodes".toList numBlocks b, r, z, ctx⟩]

/-- gk_nodes.py:155-246: the datasets put on the stack (the first loop, over lines 168-181, reads the same files to lay out the
figure). -/
def gkNodes (sqrt : F → F) (read : Str → Option (NArr F × Ctx F)) (o : Files) (multib nodes : Str) (numFiles : Nat) :
    Except Err (List (NodeSet F)) := do
  let blocks ← getBlockIndices multib numFiles
  blocks.foldlM (nodesBlock sqrt read (nodesFile o multib nodes) blocks.length) []

/-- gk_nodes.py:258-264: cell centres of the flux. -/
def centres (half : F) (g : List F) : List F := (g.zip g.tail).map fun p => half * (p.1 + p.2)

/-- gk_nodes.py:305-312: the dataset of the flux: its grid, and the values transposed. -/
def psiSet (half : F) (contour : Bool) (grid : List (List F)) (v : NArr F) : List (List F) × NArr F :=
  (if contour then grid.map (centres half) else grid, v.squeeze.transpose)

end
end Gk
end Pgkyl
