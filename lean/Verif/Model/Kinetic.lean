import Verif.Model.Params
import Verif.Model.DataSpace
import Mathlib.Analysis.SpecialFunctions.Exp
import Mathlib.Analysis.Real.Pi.Bounds
/-!
# Model of `tools/laguerre_compose.py`, `tools/transform_frame.py`, `tools/accumulate_current.py` and
`tools/rotation_matrix.py`

Numbers are real; the grids of the arguments are one-dimensional and given as lists of nodes.
-/

namespace Pgkyl.Kinetic
open NArr

/-! ## laguerre_compose.py -/

/-- `(g[:-1] + g[1:])/2`, laguerre_compose.py:45-47. -/
noncomputable def centres (g : List ℝ) : List ℝ :=
  List.zipWith (fun a b => (a + b) / 2) g.dropLast g.tail

/-- laguerre_compose.py:55, 67: the value for coefficients `F0` and `G`, temperature over mass `T` and perpendicular
velocity `v`. -/
noncomputable def composed (F0 G T v : ℝ) : ℝ :=
  let F1 := F0 - G / T
  (F0 + F1 * (1 - v * v / 2 / T)) / (2 * Real.pi * T) * Real.exp (-(v * v) / 2 / T)

/-- laguerre_compose.py:51-67: the entry of the result with index `[i, j, l, 0]`. -/
noncomputable def composedAt (f tm : NArr ℝ) (vc : List ℝ) : List Nat → Option ℝ
  | [i, j, l, _] => do
    let F0 ← f.get? [i, j, 0]
    let G ← f.get? [i, j, 1]
    let T ← tm.get? [i, 0]
    let v ← vc[l]?
    some (composed F0 G T v)
  | _ => none

/-- laguerre_compose.py:39-74 `laguerre_compose(in_f, in_T_m)`, for one space and one parallel velocity dimension: grid
and values.  (Simplifications: any other number of dimensions is an error, and so are different lengths of the axes,
where NumPy would stretch an axis of length 1.) -/
noncomputable def laguerreCompose (grid : List (List ℝ)) (f tm : NArr ℝ) : Except Err (List (List ℝ) × NArr ℝ) :=
  match grid with
  | x :: vpar :: _ =>
    let vc := centres vpar
    match f.shape, tm.shape with
    | [nx, nv, m], [nt, k] =>
      if m < 2 ∨ k < 1 then .error .indexError
      else if nt ≠ nx ∨ (centres x).length ≠ nx ∨ vc.length ≠ nv then .error .valueError
      else .ok ([x, vpar, vpar], NArr.ofFn [nx, nv, nv, 1] (composedAt f tm vc))
    | _, _ => .error .valueError
  | _ => .error .indexError

/-! ## transform_frame.py -/

/-- transform_frame.py:45-48: `ext_u`, the velocity at the `nx` nodes: zeros, the cell values added to the left and the
right node of each cell, the inner nodes halved. -/
noncomputable def nodeVelocity (u : Nat → ℝ) (nx i : Nat) : ℝ :=
  let right := if i + 1 < nx then u i else 0
  let left := if 1 ≤ i then u (i - 1) else 0
  if 1 ≤ i ∧ i + 1 < nx then (right + left) / 2 else right + left

/-- `np.meshgrid(*grid, indexing="ij")`, entry `d`: new arrays of the full shape. -/
def meshEntry (grid : List (List ℝ)) (d : Nat) : NArr ℝ :=
  NArr.ofFn (grid.map List.length) fun idx => do (← grid[d]?)[← idx[d]?]?

/-- transform_frame.py:43-52, one pass of the loop: `out_grid[c_dim + v_idx][i, ...] += ext_u[i]`. -/
noncomputable def shifted (a : NArr ℝ) (ext : Nat → ℝ) : NArr ℝ :=
  NArr.ofFn a.shape fun idx => do some ((← a.get? idx) + ext (← idx[0]?))

/-- transform_frame.py:35-94 `transform_frame(in_f, in_u, c_dim)`: grid and values.  The grid is one-dimensional in each
direction, so that `in_f_grid[0].shape[1]` fails in the branches for more than one configuration space dimension
(unless there is no velocity dimension); (Simplification: the velocity
has one value for each cell.) -/
noncomputable def transformFrame (grid : List (List ℝ)) (values u : NArr ℝ) (cdim : Nat) :
    Except Err (List (NArr ℝ) × NArr ℝ) :=
  let vdim := grid.length - cdim
  let out := (List.range grid.length).map (meshEntry grid)
  if cdim = 1 then
    match grid, u.shape with
    | x :: _, [n, k] =>
      if vdim = 0 then .ok (out, values)
      else if k < vdim then .error .indexError
      else if n + 1 ≠ x.length then .error .valueError
      else .ok ((List.range grid.length).map fun d =>
          if d = 0 then meshEntry grid 0
          else shifted (meshEntry grid d) (nodeVelocity (fun i => (u.get? [i, d - 1]).getD 0) x.length), values)
    | _, _ => .error .valueError
  else if vdim = 0 then .ok (out, values)
  else .error .indexError

/-! ## accumulate_current.py -/

/-- accumulate_current.py:35-42: the factor.  A dataset has no attribute `mass` or `charge`. -/
def currentFactor (qbym : Bool) : Except Err ℝ :=
  if qbym then .error .attributeError else .ok (-1)

/-- accumulate_current.py:13-45 `accumulate_current(data, qbym)`: the values. -/
noncomputable def accumulateCurrent (values : NArr ℝ) (qbym : Bool) : Except Err (NArr ℝ) := do
  let factor ← currentFactor qbym
  return values.map1 (factor * ·)

/-! ## rotation_matrix.py -/

/-- rotation_matrix.py:16-17: `vector / np.abs(vector)`, element by element. -/
noncomputable def direction (v : Nat → ℝ) (c : Nat) : ℝ := v c / |v c|

/-- rotation_matrix.py:6-32 `rotation_matrix`: the entry in row `r` and column `c`. -/
noncomputable def rotationMatrix (v : Nat → ℝ) (r c : Nat) : ℝ :=
  let k := direction v
  let norm2 := Real.sqrt (k 1 * k 1 + k 2 * k 2)
  let norm3 := Real.sqrt ((k 1 * k 1 + k 2 * k 2) * (k 1 * k 1 + k 2 * k 2) + k 0 * k 0 * k 1 * k 1
    + k 0 * k 0 * k 2 * k 2)
  match r, c with
  | 0, c => k c
  | 1, 0 => 0
  | 1, 1 => -k 2 / norm2
  | 1, _ => k 1 / norm2
  | _, 0 => (k 1 * k 1 + k 2 * k 2) / norm3
  | _, 1 => -k 0 * k 1 / norm3
  | _, _ => -k 0 * k 2 / norm3

/-! ## The commands -/

/-- commands/laguerre_compose.py:16-29 and commands/transform_frame.py:18-32: for each pair of an active dataset with
tag `dist` and one with tag `other`, `f` computes the new content of the first.  With `--tag` a new dataset is filled
and dropped.  (Simplification: both lists of datasets are made before the first pair is treated; the loop changes no
tag and no status.) -/
def pairCmd {F : Type} (f : GData F → GData F → Except Err (GData F)) (dist other : Tag) (tag : Option Tag)
    (s : Space F) : Except Err (Space F) := do
  let a ← s.toList (some dist) false true .none
  let b ← s.toList (some other) false true .none
  (List.zip (a.map Prod.snd) (b.map Prod.snd)).foldlM (init := s) fun s ids =>
    match s.heap[ids.1]?, s.heap[ids.2]? with
    | some d, some e => do
      let r ← f d e
      match tag with
      | some (_ :: _) => .ok s
      | _ => .ok (s.update ids.1 fun d => { r with tag := d.tag, status := d.status })
    | _, _ => .ok s

/-- commands/current.py:18-33: for each active dataset the "current" is put into a new dataset, the source is
deactivated. -/
noncomputable def currentCmd (qbym : Bool) (use : Option Tag) (tag label : List Char) (s : Space ℝ) :
    Except Err (Space ℝ) :=
  Space.iterate id use false true .none (fun s _ i =>
    match s.heap[i]? with
    | some d => match d.grid, d.values with
      | some g, some v => do
        let r ← accumulateCurrent v qbym
        let out ← (GData.new tag label d.ctx).push g r
        .ok ((s.update i GData.deactivate).addNew out)
      | _, _ => .error .typeError
    | none => .ok s) s

end Pgkyl.Kinetic
