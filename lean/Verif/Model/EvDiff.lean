import Verif.Model.Integrate
import Verif.Model.CompOps
import Verif.Model.DataSpace
/-! # Derivatives: the operators `grad`, `grad2`, `div`, `curl` and `scale_comp` of the `ev` command -/

namespace Pgkyl

/-! ### `np.gradient(f, z, edge_order=2, axis=ax)` (library) -/

namespace NArr
variable {F : Type} [Add F] [Sub F] [Mul F] [Div F] [Zero F] [IntCast F]

/-- The difference quotient of one line of `n` values: `z` are the coordinates, `f` the values, `i` the position.  Inside, the
values to the left, at and to the right of `i`; at the ends the three values nearest to the end.  When all distances are
equal NumPy uses simpler coefficients.  (`-x` is written `0 - x`.) -/
def slopeAt [DecidableEq F] (z f : Nat → F) (n i : Nat) : F :=
  let dx (j : Nat) : F := z (j + 1) - z j
  let two : F := ((2 : Int) : F)
  if ∀ j < n - 1, dx j = dx 0 then
    if i = 0 then
      ((0 - ((3 : Int) : F) / two) / dx 0) * f 0 + (two / dx 0) * f 1 + ((0 - ((1 : Int) : F) / two) / dx 0) * f 2
    else if i = n - 1 then
      ((((1 : Int) : F) / two) / dx 0) * f (n - 3) + ((0 - two) / dx 0) * f (n - 2) + ((((3 : Int) : F) / two) / dx 0) * f (n - 1)
    else (f (i + 1) - f (i - 1)) / (two * dx 0)
  else
    if i = 0 then
      ((0 - (two * dx 0 + dx 1)) / (dx 0 * (dx 0 + dx 1))) * f 0 + ((dx 0 + dx 1) / (dx 0 * dx 1)) * f 1 +
        ((0 - dx 0) / (dx 1 * (dx 0 + dx 1))) * f 2
    else if i = n - 1 then
      (dx (n - 2) / (dx (n - 3) * (dx (n - 3) + dx (n - 2)))) * f (n - 3) +
        ((0 - (dx (n - 2) + dx (n - 3))) / (dx (n - 3) * dx (n - 2))) * f (n - 2) +
        ((two * dx (n - 2) + dx (n - 3)) / (dx (n - 2) * (dx (n - 3) + dx (n - 2)))) * f (n - 1)
    else
      ((0 - dx i) / (dx (i - 1) * (dx (i - 1) + dx i))) * f (i - 1) +
        ((dx i - dx (i - 1)) / (dx (i - 1) * dx i)) * f i +
        (dx (i - 1) / (dx i * (dx (i - 1) + dx i))) * f (i + 1)

/-- `np.gradient(v, z, edge_order=2, axis=ax)`: the coordinates must form a list of the length of the axis, which must have
at least three entries. -/
def gradient [DecidableEq F] (v z : NArr F) (ax : Nat) : Except Err (NArr F) :=
  match v.shape[ax]? with
  | none => .error .indexError
  | some n =>
    if z.shape.length ≠ 1 ∨ z.data.length ≠ n ∨ n < 3 then .error .valueError
    else .ok (ofFn v.shape fun idx =>
      some (slopeAt (fun j => z.data.getD j 0) (fun j => (v.get? (idx.set ax j)).getD 0) n (idx.getD ax 0)))

/-- `out[..., lo:hi] = val`.  (Simplification: no broadcasting of the value.) -/
def assignComps {α : Type} (out : NArr α) (lo hi : Nat) (val : NArr α) : Except Err (NArr α) :=
  if val.shape ≠ out.shape.dropLast ++ [min hi (out.shape.getLastD 0) - lo] ∨ out.shape = [] then .error .valueError
  else .ok (ofFn out.shape fun idx =>
    if lo ≤ idx.getLastD 0 ∧ idx.getLastD 0 < hi then val.get? (idx.dropLast ++ [idx.getLastD 0 - lo]) else out.get? idx)

/-- `out[..., k] *= x` with `k ≥ 0`. -/
def scaleComp {α : Type} [Mul α] (out : NArr α) (k : Nat) (x : α) : NArr α :=
  ofFn out.shape fun idx => if idx.getLast? = some k then (out.get? idx).map (· * x) else out.get? idx

end NArr

namespace EvCmd
variable {F : Type} [Add F] [Sub F] [Mul F] [Div F] [Zero F] [IntCast F] [DecidableEq F]

/-- ev_cmd.py:175 (and 204, 283, 302, …): `0.5 * (z[1:] + z[:-1])`, the centres of the cells.  (Simplification: an array with
several axes, whose use as coordinates is an error in `np.gradient`, is passed on unchanged.) -/
def centres (z : NArr F) : NArr F :=
  if z.shape.length ≠ 1 then z
  else NArr.ofList (List.zipWith (fun a b => (((1 : Int) : F) / ((2 : Int) : F)) * (a + b)) z.data.tail z.data.dropLast)

/-- One step of the loops ev_cmd.py:174-179 and 203-208: the derivatives along axis `d` are the components
`cnt*nc, …, (cnt+1)*nc - 1`. -/
def gradStep (grid : List (NArr F)) (v : NArr F) (nc : Nat) (out : NArr F) (cd : Nat × Nat) : Except Err (NArr F) := do
  let z ← pyGet grid cd.2
  let g ← NArr.gradient v (centres z) cd.2
  NArr.assignComps out (cd.1 * nc) ((cd.1 + 1) * nc) g

/-- ev_cmd.py:166-180 `grad`, and the common part of `grad2`, for the axes `axes`.  (0-d arrays have no last axis.) -/
def gradAxes (grid : List (NArr F)) (v : NArr F) (axes : List Nat) : Except Err (NArr F) :=
  match v.shape.getLast? with
  | none => .error .indexError
  | some nc => (axes.zipIdx.map fun p => (p.2, p.1)).foldlM (gradStep grid v nc)
      (NArr.zeros (v.shape.dropLast ++ [nc * axes.length]))

/-- ev_cmd.py:166-180 `grad`. -/
def grad : Func F
  | [some grid], [.arr v] => do return (some grid, .arr (← gradAxes grid v (List.range (v.shape.length - 1))))
  | _, _ => .error .typeError

/-- ev_cmd.py:185-195: the axes named by the first operand. -/
def gradRange (fn : Fns F) : EvVal F → Except Err (List Int)
  | .str s =>
    if ':' ∈ s then match splitOn ':' s with
      | a :: b :: _ => do
        let lo ← intOrErr a
        let up ← intOrErr b
        return (List.range (up - lo).toNat).map fun k : Nat => lo + (k : Int)
      | _ => .error .indexError
    else (splitOn ',' s).mapM intOrErr
  | .arr a => do
    let lo ← toInt fn (.arr a)
    let up ← toInt fn (.arr (a.map1 (· + ((1 : Int) : F))))
    return (List.range (up - lo).toNat).map fun k : Nat => lo + (k : Int)
  | .tuple _ => .error .typeError

/-- ev_cmd.py:183-209 `grad2`.  (Simplification: negative axis numbers are rejected.) -/
def grad2 (fn : Fns F) : Func F
  | [_, some grid], [ax, .arr v] => do
    let axes ← natAxes (← gradRange fn ax)
    return (some grid, .arr (← gradAxes grid v axes))
  | _, _ => .error .typeError

/-- The derivative of component `c` along axis `d`: `np.gradient(values[..., c], zc, edge_order=2, axis=d)`. -/
def compSlope (grid : List (NArr F)) (v : NArr F) (c d : Nat) : Except Err (NArr F) := do
  let z ← pyGet grid d
  NArr.gradient (← v.compFlat c) (centres z) d

/-- One step of the loop ev_cmd.py:282-287. -/
def divStep (grid : List (NArr F)) (v : NArr F) (out : NArr F) (d : Nat) : Except Err (NArr F) := do
  let g ← compSlope grid v d d
  out.assignComp 0 (← NArr.zip2 (· + ·) (← out.compFlat 0) g)

/-- ev_cmd.py:269-288 `divergence`.  (The warning for surplus components is not modelled.) -/
def divergence : Func F
  | [some grid], [.arr v] => do
    match v.shape.getLast? with
    | none => .error .indexError
    | some _ => do
      let out ← (List.range grid.length).foldlM (divStep grid v) (NArr.zeros (v.shape.dropLast ++ [1]))
      return (some grid, .arr out)
  | _, _ => .error .typeError

/-- ev_cmd.py:299-305: the curl on one axis. -/
def curl1 (grid : List (NArr F)) (v : NArr F) : Except Err (NArr F) := do
  let out := NArr.zeros v.shape
  let out ← out.assignComp 1 ((← compSlope grid v 2 0).map1 (0 - ·))
  out.assignComp 2 (← compSlope grid v 1 0)

/-- ev_cmd.py:307-320: the curl of two components on two axes. -/
def curl2 (grid : List (NArr F)) (v : NArr F) : Except Err (NArr F) := do
  let out := NArr.zeros (v.shape.dropLast ++ [1])
  out.assignComp 0 (← NArr.zip2 (· - ·) (← compSlope grid v 1 0) (← compSlope grid v 0 1))

/-- ev_cmd.py:329-332: the curl of three components on two axes. -/
def curl3 (grid : List (NArr F)) (v : NArr F) : Except Err (NArr F) := do
  let out := NArr.zeros v.shape
  let out ← out.assignComp 0 (← compSlope grid v 2 1)
  let out ← out.assignComp 1 ((← compSlope grid v 2 0).map1 (0 - ·))
  out.assignComp 2 (← NArr.zip2 (· - ·) (← compSlope grid v 1 0) (← compSlope grid v 0 1))

/-- ev_cmd.py:291-351 `curl`.  On three (or more) axes the array of the result is never created: `UnboundLocalError` once the
components have been counted.  (An empty grid falls into that branch as well: `IndexError`, another exception.  Warnings are
not modelled.) -/
def curl : Func F
  | [some grid], [.arr v] =>
    match v.shape.getLast? with
    | none => .error .indexError
    | some nc =>
      if grid.length = 1 then
        if nc ≠ 3 then .error .valueError
        else do return (some grid, .arr (← curl1 grid v))
      else if grid.length = 2 then
        if nc < 2 then .error .valueError
        else if nc = 2 then do return (some grid, .arr (← curl2 grid v))
        else do return (some grid, .arr (← curl3 grid v))
      else if nc < 3 then .error .valueError
      else .error .unboundLocal
  | _, _ => .error .typeError

/-- ev_cmd.py:371-377: the components named by the second operand, out of `nc`.  (Coordinates are an error here: there is no
axis to look them up in, so `float` need not be modelled.) -/
def scaleTargets (fn : Fns F) [LT F] [DecidableLT F] (nc : Nat) : EvVal F → Except Err (List Nat)
  | .str s => compSel (F := F) (fun _ => none) nc (some (.str s))
  | v => do return [← intPos nc (← toInt fn v)]

/-- ev_cmd.py:353-388 `scale_comp`. -/
def scaleCompCmd (fn : Fns F) [LT F] [DecidableLT F] : Func F
  | [_, _, g], [.arr ⟨_, [x]⟩, c, .arr v] =>
    match v.shape.getLast? with
    | none => .error .indexError
    | some nc => do
      let ks ← scaleTargets fn nc c
      return (g, .arr (ks.foldl (fun (w : NArr F) k => w.scaleComp k x) v))
  | _, _ => .error .typeError

/-- ev_cmd.py:390-409 `scale_zi_axis`.  (Simplification: only the result is modelled here.  The code multiplies the coordinate
array in place, so every dataset sharing it changes as well: see `Verif/Model/Sharing.lean`.) -/
def scaleAxis (fn : Fns F) : Func F
  | [_, _, some grid], [.arr ⟨_, [x]⟩, .arr a, .arr v] => do
    let i ← toInt fn (.arr a)
    let z ← pyGet grid i
    let j := if i < 0 then (grid.length : Int) + i else i
    return (some (grid.set j.toNat (z.map1 (· * x))), .arr v)
  | _, _ => .error .typeError

end EvCmd

end Pgkyl
