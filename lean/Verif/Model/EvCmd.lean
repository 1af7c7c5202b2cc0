import Verif.Model.NumOps
import Verif.Model.Select
/-! # Model of `src/postgkyl/commands/ev_cmd.py`: the operators of the `ev` command -/

namespace Pgkyl

/-- A value on the stack: an array, a text such as `0:2` (ev.py:63-67), or a tuple of integers
(ev.py:58-62; other results of `eval` are not modelled). -/
inductive EvVal (F : Type) where
  | arr (a : NArr F)
  | str (s : List Char)
  | tuple (l : List Int)

/-- The grid that goes with it; `None` for constants. -/
abbrev EvGrid (F : Type) := Option (List (NArr F))

/-- The elementwise functions that are library code. -/
structure Fns (F : Type) where
  sqrt : F → F
  sin : F → F
  cos : F → F
  tan : F → F
  abs : F → F
  log : F → F
  log10 : F → F
  exp : F → F
  pow : F → F → F
  fmin : F → F → F
  fmax : F → F → F
  /-- `int(x)`: truncation; `none` for infinities and NaN -/
  toInt : F → Option Int

namespace EvCmd
variable {F : Type} [Add F] [Sub F] [Mul F] [Div F] [Zero F] [IntCast F] [Min F] [Max F]

/-- ev_cmd.py:6-19 `_get_grid`. -/
def getGrid (g0 g1 : EvGrid F) : EvGrid F :=
  match g0, g1 with
  | some a, some b => if b.length < a.length then some a else some b
  | some a, none => some a
  | none, some b => some b
  | none, none => none

/-- An operator: from the list of grids and of values (top of the stack first) to grid and value. -/
abbrev Func (F : Type) := List (EvGrid F) → List (EvVal F) → Except Err (EvGrid F × EvVal F)

/-- Elementwise operators of one argument, ev_cmd.py:70-109, 145-154. -/
def unary (f : F → F) : Func F
  | [g], [.arr a] => .ok (g, .arr (a.map1 f))
  | _, _ => .error .typeError

/-- ev_cmd.py:22-31 `add` and `subtract`, 117-131 `minimum2` and `maximum2`, 52-55 `dot` up to the sum:
a broadcast operation of `in_values[0]` and `in_values[1]`. -/
def binary (f : F → F → F) : Func F
  | [g0, g1], [.arr a, .arr b] => do return (getGrid g0 g1, .arr (← NArr.zip2 f a b))
  | _, _ => .error .typeError

/-- ev_cmd.py:36-48 and 60-66: the products and quotients of arrays with different numbers of axes
are formed on the transposed arrays.  `a` is `in_values[1]`. -/
def transposed (f : F → F → F) (a b : NArr F) : Except Err (NArr F) :=
  if a.shape = b.shape ∨ a.shape.length = 0 ∨ b.shape.length = 0 then NArr.zip2 f a b
  else do return (← NArr.zip2 f a.transpose b.transpose).transpose

/-- ev_cmd.py:34-49 `mult`, 58-67 `divide`. -/
def multLike (f : F → F → F) : Func F
  | [g0, g1], [.arr v0, .arr v1] => do return (getGrid g0 g1, .arr (← transposed f v1 v0))
  | _, _ => .error .typeError

/-- ev_cmd.py:52-55 `dot`. -/
def dot : Func F
  | [g0, g1], [.arr v0, .arr v1] => do
    return (getGrid g0 g1, .arr (← (← NArr.zip2 (· * ·) v1 v0).sumLast))
  | _, _ => .error .typeError

/-- ev_cmd.py:139-142 `power`: the grid of the base. -/
def power (f : F → F → F) : Func F
  | [_, g1], [.arr v0, .arr v1] => do return (g1, .arr (← NArr.zip2 f v1 v0))
  | _, _ => .error .typeError

/-- ev_cmd.py:112-114, 123-125 `minimum`, `maximum` (NaNs are not modelled), 134-136 `mean`: a
1-element array on an empty grid. -/
def reduce (f : List F → Option F) : Func F
  | [_], [.arr a] => match f a.data with
    | some x => .ok (some [], .arr (NArr.ofList [x]))
    | none => .error .valueError
  | _, _ => .error .typeError

/-- `np.mean` -/
def meanOf (l : List F) : Option F :=
  if l = [] then none else some (l.foldl (· + ·) 0 / (((l.length : Nat) : Int) : F))

/-- `int(x)` of a 0-d array or scalar. -/
def toInt (fn : Fns F) (v : EvVal F) : Except Err Int :=
  match v with
  | .arr ⟨_, [x]⟩ => match fn.toInt x with
    | some i => .ok i
    | none => .error .valueError
  | _ => .error .typeError

/-- `list[i]` with a Python integer. -/
def pyGet {α : Type} (l : List α) (i : Int) : Except Err α :=
  let j := if i < 0 then (l.length : Int) + i else i
  if j < 0 then .error .indexError
  else match l[j.toNat]? with
    | some x => .ok x
    | none => .error .indexError

/-- The length of the axis with the given nodes when the values have `n` entries along it:
ev_cmd.py:159-162 and 254-257. -/
def axisLength (nodes : List F) (n : Nat) : Except Err F := do
  let last ← pyGet nodes (-1)
  let first ← pyGet nodes 0
  if nodes.length = n then do
    let second ← pyGet nodes 1
    return (last - first) + (second - first)
  else return last - first

/-- ev_cmd.py:157-163 `length`.  (Simplification: 1-D coordinate arrays.) -/
def length (fn : Fns F) : Func F
  | [_, some g], [ax, .arr v] => do
    let i ← toInt fn ax
    let coord ← pyGet g i
    let n ← pyGet v.shape i
    return (some [], .arr (NArr.scalar (← axisLength coord.data n)))
  | _, _ => .error .typeError

/-- ev_cmd.py:216-233: the axes named by the second operand.  `a:b` always fails: `range` is called
with strings. -/
def axesOf (fn : Fns F) (numDims : Nat) : EvVal F → Except Err (List Int)
  | .arr a => do return [← toInt fn (.arr a)]
  | .tuple l => .ok l
  | .str s =>
    if 1 < (splitOn ',' s).length then (splitOn ',' s).mapM fun p => match pyInt p with
      | some i => .ok i
      | none => .error .valueError
    else if (splitOn ':' s).length = 2 then .error .typeError
    else if s = "all".toList then .ok ((List.range numDims).map fun (i : Nat) => (i : Int))
    else .error .typeError

/-- `coord[1:] - coord[:-1]`. -/
def widths (x : List F) : List F := List.zipWith (· - ·) x.tail x.dropLast

/-- ev_cmd.py:239-243: cell widths; when the grid is nodal the last width is repeated.  (`dz[-1][-1]`
fails for a single node.) -/
def dzOf (x : List F) (n : Nat) : Except Err (List F) :=
  if x.length = n then do return widths x ++ [← pyGet (widths x) (-1)]
  else .ok (widths x)

/-- Insert `x` at position `ax`. -/
def insertAt {α : Type} (ax : Nat) (x : α) (l : List α) : List α := l.take ax ++ x :: l.drop ax

/-- ev_cmd.py:246-249: `np.dot(np.moveaxis(values, ax, -1), dz)`: contracts axis `ax` with `dz`. -/
def contract (values : NArr F) (ax : Nat) (dz : List F) : Except Err (NArr F) :=
  match values.shape[ax]? with
  | none => .error .indexError
  | some n =>
    if dz.length ≠ n then .error .valueError
    else .ok (NArr.ofFn (values.shape.eraseIdx ax) fun idx =>
      some (((List.range n).filterMap fun i => do
        let v ← values.get? (insertAt ax i idx)
        let w ← dz[i]?
        return v * w).foldl (· + ·) 0))

/-- `np.expand_dims(values, ax)`. -/
def expandDims (values : NArr F) (ax : Nat) : NArr F := ⟨insertAt ax 1 values.shape, values.data⟩

end EvCmd

end Pgkyl
