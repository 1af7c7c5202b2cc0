import Verif.Spec.Select
/-! # Specification: selections on mapped grids -/

namespace Pgkyl.Spec
variable {F : Type}

/-- On an axis with `n` cells the selection by index denotes the cells `lo, ..., hi - 1`; `first` is the number of nodes along
the first axis. -/
inductive IndexDenotes (first n : Nat) : Option (IdxArg F) → Nat → Nat → Prop
  /-- no selection: the whole axis -/
  | all : IndexDenotes first n none 0 n
  /-- an integer -/
  | index (i : Nat) (h : i < n) : IndexDenotes first n (some (.int i)) i (i + 1)
  /-- the string `'i'` -/
  | indexStr (i : Nat) (h : i < n) : IndexDenotes first n (some (.str (dec i))) i (i + 1)
  /-- the string `'a:b'` -/
  | range (a b : Nat) (h : a < b) (hb : b ≤ n) : IndexDenotes first n (some (.str (dec a ++ ':' :: dec b))) a b
  /-- the string `':b'` -/
  | upto (b : Nat) (h : 0 < b) (hb : b ≤ n) : IndexDenotes first n (some (.str (':' :: dec b))) 0 b
  /-- the string `'a:'`, on an axis with no more cells than there are nodes along the first one -/
  | from (a : Nat) (h : a < n) (hf : n ≤ first) : IndexDenotes first n (some (.str (dec a ++ [':']))) a n

/-- One axis of a mapped dataset (`n` cells, `m` nodes) together with a selection on it. -/
structure MapAxis (F : Type) where
  n : Nat
  m : Nat
  z : Option (IdxArg F)
  lo : Nat
  hi : Nat

/-- The values live in the cells or on the nodes, and the selection denotes the cells `lo .. hi-1`. -/
def MapAxis.OK (first : Nat) (a : MapAxis F) : Prop :=
  (a.m = a.n + 1 ∨ a.m = a.n) ∧ IndexDenotes first a.n a.z a.lo a.hi ∧ a.lo < a.hi

/-- The number of nodes of the selected cells: one more than cells, or one for each value on the nodes. -/
def MapAxis.nodesOut (a : MapAxis F) : Nat := if a.m = a.n then a.hi - a.lo else a.hi - a.lo + 1

/-- The dataset has a mapped grid: one array of node coordinates per axis, each with all axes. -/
structure HasMap (data : GData F) (axes : List (MapAxis F)) (grids : List (NArr F)) (nc : Nat) (values : NArr F) : Prop where
  grid : data.grid = some grids
  count : grids.length = axes.length
  nodes : ∀ g ∈ grids, g.WF ∧ g.shape = axes.map (·.m)
  vals : data.values = some values
  wf : values.WF
  shape : values.shape = axes.map (·.n) ++ [nc]
  dims : data.numDims = axes.length
  two : 2 ≤ axes.length
  six : axes.length ≤ 6

/-- `out` is the block of `src` with the given shape and lower corner. -/
def IsWindow (src out : NArr F) (lo shape : List Nat) : Prop :=
  out.WF ∧ out.shape = shape ∧ ∀ idx, inRange shape idx = true → out.get? idx = src.get? (List.zipWith (· + ·) idx lo)

end Pgkyl.Spec
