import Verif.Model.GkNodes
import Verif.Spec.Gk
import Verif.Spec.Field
/-! # Specification: the nodes of a gyrokinetic grid in the R-Z plane -/

namespace Pgkyl.Spec
open Gk (Str NodeSet)

section
variable {F : Type}

/-- The nodes file of a grid with `cells` nodes along one, two or three directions: three numbers at each node. -/
structure NodesOf (v : NArr F) (cells : List Nat) (p : List Nat → Nat → F) : Prop where
  field : IsField v cells 3 p
  many : ∀ n ∈ cells, 2 ≤ n
  low : 1 ≤ cells.length
  high : cells.length ≤ 3

/-- Whether the nodes are given by Cartesian coordinates: geometry 3 (a mapping given by the user), or not stated. -/
def CartesianNodes (c : Ctx F) (m : Bool) : Prop :=
  (m = true ∧ (Dict.get? c.other "geometry_type" = none ∨ Dict.get? c.other "geometry_type" = some "3")) ∨
  (m = false ∧ ∃ k : Nat, k ≠ 3 ∧ Dict.get? c.other "geometry_type" = some (String.ofList (dec k)))

/-- The directions of the drawing: the second of three directions is left out. -/
def planeOf : List Nat → List Nat
  | [a, _, c] => [a, c]
  | l => l

/-- The node that is drawn: in three dimensions the first one along the second direction. -/
def planeNode (cells j : List Nat) : List Nat :=
  match cells, j with
  | [_, _, _], [i, k] => [i, 0, k]
  | _, j => j

/-- The distance from the axis. -/
def majorRadius [Add F] [Mul F] (sqrt : F → F) (cartesian : Bool) (p : Nat → F) : F :=
  if cartesian then sqrt (p 0 * p 0 + p 1 * p 1) else p 0

/-- The vertical position. -/
def elevation (cartesian : Bool) (p : Nat → F) : F := if cartesian then p 2 else p 1

/-- The array has this shape and these entries. -/
def HasEntries (a : NArr F) (shape : List Nat) (g : List Nat → F) : Prop :=
  a.WF ∧ a.shape = shape ∧ ∀ j, inRange shape j = true → a.get? j = some (g j)

/-- The dataset with R and Z of every node of block `b`. -/
def NodesSet [Add F] [Mul F] (sqrt : F → F) (several : Bool) (b : Nat) (ctx : Ctx F) (m : Bool) (cells : List Nat)
    (p : List Nat → Nat → F) (s : NodeSet F) : Prop :=
  s.tag = "nodes".toList ++ (if several then "_b".toList ++ dec b else []) ∧ s.ctx = ctx ∧
  HasEntries s.first (planeOf cells) (fun j => majorRadius sqrt m (p (planeNode cells j))) ∧
  HasEntries s.second (planeOf cells) (fun j => elevation m (p (planeNode cells j)))

/-- The dataset with the lines through the nodes of block `b`: line `i` of the first array is the list of the points
`(R, Z)` of the nodes `(i, 0), (i, 1), ...`, line `j` of the second one that of the nodes `(0, j), (1, j), ...`. -/
def EdgesSet [Add F] [Mul F] (sqrt : F → F) (several : Bool) (b : Nat) (ctx : Ctx F) (m : Bool) (cells : List Nat)
    (p : List Nat → Nat → F) (s : NodeSet F) : Prop :=
  s.tag = "edges".toList ++ (if several then "_b".toList ++ dec b else []) ∧ s.ctx = ctx ∧
  ∃ k l, planeOf cells = [k, l] ∧ s.first.shape = [k, l, 2] ∧ s.second.shape = [l, k, 2] ∧ ∀ i < k, ∀ j < l,
    s.first.get? [i, j, 0] = some (majorRadius sqrt m (p (planeNode cells [i, j]))) ∧
    s.first.get? [i, j, 1] = some (elevation m (p (planeNode cells [i, j]))) ∧
    s.second.get? [j, i, 0] = some (majorRadius sqrt m (p (planeNode cells [i, j]))) ∧
    s.second.get? [j, i, 1] = some (elevation m (p (planeNode cells [i, j])))

end
end Pgkyl.Spec
