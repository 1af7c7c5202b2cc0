import Verif.Model.EvCmd
/-! # Integration: `ev_cmd.integrate` and `tools/calculus.py` -/

namespace Pgkyl
namespace EvCmd
variable {F : Type} [Add F] [Sub F] [Mul F] [Div F] [Zero F] [IntCast F]

/-- Axes as positions.  (Simplification: negative axis numbers are rejected here.) -/
def natAxes (l : List Int) : Except Err (List Nat) :=
  l.mapM fun i => if i < 0 then .error .indexError else .ok i.toNat

/-- `sorted(axis)`. -/
def sortAsc (l : List Nat) : List Nat := l.mergeSort (· ≤ ·)

/-- `sorted(axis, reverse=True)`. -/
def sortDesc (l : List Nat) : List Nat := l.mergeSort (fun a b => b ≤ a)

/-- ev_cmd.py:238-243: the cell widths of every grid axis, given the extents of the values.
(Simplification: 1-D coordinate arrays.) -/
def dzAll (grid : List (NArr F)) (shape : List Nat) : Except Err (List (List F)) :=
  (grid.zipIdx).mapM fun (g, d) => do dzOf g.data (← pyGet shape d)

/-- ev_cmd.py:246-249: the loop contracting the axes, last axis first. -/
def contractAll (dz : List (List F)) (axes : List Nat) (v : NArr F) : Except Err (NArr F) :=
  (sortDesc axes).foldlM (fun (v : NArr F) (ax : Nat) => do contract v ax (← pyGet dz ax)) v

/-- ev_cmd.py:250-260: the loop putting the axes back with length 1; with `avg` every step divides by
the length of the axis. -/
def restoreAll (avg : Bool) (grid0 : List (NArr F)) (shape0 : List Nat) (axes : List Nat)
    (gv : List (NArr F) × NArr F) : Except Err (List (NArr F) × NArr F) :=
  (sortAsc axes).foldlM (fun (gv : List (NArr F) × NArr F) ax =>
    if gv.1.length ≤ ax ∨ gv.2.shape.length < ax then .error .indexError
    else do
      let g := gv.1.set ax (NArr.ofList [0])
      let v := expandDims gv.2 ax
      if avg then do
        let coord ← pyGet grid0 ax
        let n ← pyGet shape0 ax
        let ln ← axisLength coord.data n
        return (g, v.map1 (· / ln))
      else return (g, v)) gv

/-- ev_cmd.py:212-262 `integrate`, and 265-266 `average` (`avg = true`). -/
def integrate (fn : Fns F) (avg : Bool) : Func F
  | [_, some grid], [ax, .arr v] => do
    let axes ← natAxes (← axesOf fn grid.length ax)
    let dz ← dzAll grid v.shape
    let w ← contractAll dz axes v
    let (g, w) ← restoreAll avg grid v.shape axes (grid, w)
    return (some g, .arr w)
  | _, _ => .error .typeError

end EvCmd

namespace Calculus
variable {F : Type} [Add F] [Sub F] [Mul F] [Div F] [Zero F] [IntCast F]
open EvCmd

/-- The `axis` argument of `integrate`, calculus.py:13. -/
inductive AxisArg where
  | none
  | int (i : Int)
  | tuple (l : List Int)
  | str (s : List Char)
  | other

/-- calculus.py:34-60: the axes meant.  A text `a:b` always fails (`range` of strings). -/
def axesOf (numDims : Nat) : AxisArg → Except Err (List Int)
  | .none => .ok ((List.range numDims).map fun (i : Nat) => (i : Int))
  | .int i => .ok [i]
  | .tuple l => .ok l
  | .str s =>
    let conv (p : List Char) : Except Err Int := match pyInt p with
      | some i => .ok i
      | .none => .error .valueError
    if 1 < (splitOn ',' s).length then (splitOn ',' s).mapM conv
    else if (splitOn ':' s).length = 2 then .error .typeError
    else do return [← conv s]
  | .other => .error .typeError

/-- calculus.py:63-69: cell widths; a collapsed axis (one node) has none. -/
def dzAll (grid : List (NArr F)) (shape : List Nat) : Except Err (List (List F)) :=
  (grid.zipIdx).mapM fun (g, d) => do
    let n ← pyGet shape d
    if 1 < g.data.length then dzOf g.data n else return widths g.data

/-- `values.mean(axis=ax)`. -/
def meanAxis (values : NArr F) (ax : Nat) : Except Err (NArr F) :=
  match values.shape[ax]? with
  | none => .error .indexError
  | some n => .ok (NArr.ofFn (values.shape.eraseIdx ax) fun idx =>
      some (((List.range n).filterMap fun i => values.get? (insertAt ax i idx)).foldl (· + ·) 0
        / (((n : Nat) : Int) : F)))

/-- calculus.py:73-80: the loop over the axes, last first. -/
def contractAll (grid : List (NArr F)) (dz : List (List F)) (axes : List Nat) (v : NArr F) :
    Except Err (NArr F) :=
  (sortDesc axes).foldlM (fun (v : NArr F) (ax : Nat) => do
    let g ← pyGet grid ax
    if 1 < g.data.length then do contract v ax (← pyGet dz ax) else meanAxis v ax) v

/-- calculus.py:82-85: the loop putting the axes back; the coordinate becomes the mean of the nodes. -/
def restoreAll (axes : List Nat) (gv : List (NArr F) × NArr F) : Except Err (List (NArr F) × NArr F) :=
  (sortAsc axes).foldlM (fun (gv : List (NArr F) × NArr F) ax =>
    if gv.1.length ≤ ax ∨ gv.2.shape.length < ax then .error .indexError
    else do
      let g ← pyGet gv.1 ax
      let m := g.data.foldl (· + ·) 0 / (((g.data.length : Nat) : Int) : F)
      return (gv.1.set ax (NArr.ofList [m]), expandDims gv.2 ax)) gv

variable [Min F] [Max F]

/-- calculus.py:13-91 `integrate(data, axis, overwrite)`: grid and values, and the dataset afterwards. -/
def integrate (data : GData F) (axis : AxisArg) (overwrite : Bool) :
    Except Err (List (NArr F) × NArr F × GData F) :=
  match data.grid, data.values with
  | some grid, some v => do
    let axes ← natAxes (← axesOf data.numDims axis)
    let dz ← dzAll grid v.shape
    let w ← contractAll grid dz axes v
    let (g, w) ← restoreAll axes (grid, w)
    let d' ← if overwrite then data.push g w else .ok data
    return (g, w, d')
  | _, _ => .error .typeError

end Calculus
end Pgkyl
