import Verif.Spec.DgCommands
/-! # Specification: distribution functions from data with Jacobians -/

namespace Pgkyl.Spec

/-- The number of configuration space directions of gyrokinetic data with 2, 3, 4 or 5 directions. -/
def configDims (dims : Nat) : Nat := [1, 1, 2, 3].getD (dims - 2) 0

/-- The files of a simulation: its name, `_b` and the number of the block if there are several, and the given end. -/
def simFile (name : List Char) (block : Option Int) (rest : List Char) : List Char :=
  name ++ (match block with | some b => "_b".toList ++ pyStr b | none => []) ++ '-' :: rest

section
variable {F : Type} [_root_.Field F]

/-- What the files of one frame hold: the distribution times the Jacobians of velocity and configuration space (`jf`), the
Jacobian of velocity space, one number `jv c` per cell, and the inverse of the Jacobian of configuration space (`ji`) on the
configuration space part of the same mesh. -/
structure DistfCase (F : Type) where
  jf : DgCase F
  jv : List Nat → F
  ji : DgCase F

/-- The three datasets hold the three parts, to be evaluated at the given points per cell. -/
structure DistfCase.Stored (c : DistfCase F) (interp : Option Nat) (jf jv ji : GData F) : Prop where
  data : c.jf.Fits (some 1) (some "gkhyb") interp jf
  velocity : ∃ g, HoldsField jv g c.jf.cells 1 fun i _ => c.jv i
  config : c.ji.Fits (some 1) (some "ms") interp ji
  dims : c.ji.cells.length = configDims c.jf.cells.length
  sameMesh : c.ji.axes = c.jf.axes.take (configDims c.jf.cells.length)

/-- The refined cell `idx` lies in this cell. -/
def DistfCase.cellOf (c : DistfCase F) (idx : List Nat) : List Nat :=
  List.zipWith (· / ·) idx (perCell "gkhybrid" c.jf.cells.length c.jf.points)

/-- The distribution function at the midpoint `z` of the refined cell `idx`: the data, divided by the Jacobian of velocity
space and multiplied by the inverse of that of configuration space at the same position. -/
def DistfCase.f (c : DistfCase F) (idx : List Nat) : F :=
  c.jf.value 0 (c.cellOf idx) (midPt c.jf.fine idx) / c.jv (c.cellOf idx) *
    c.ji.value 0 ((c.cellOf idx).take c.ji.cells.length) ((midPt c.jf.fine idx).take c.ji.cells.length)

/-- The refined cells. -/
def DistfCase.fineCells (c : DistfCase F) : List Nat :=
  List.zipWith (· * ·) c.jf.cells (perCell "gkhybrid" c.jf.cells.length c.jf.points)

/-- Nodes for given cell centres: between two neighbouring centres their midpoint, and the first and the last centre in the
middle of their cells. -/
structure NodesFor (c nodes : List F) : Prop where
  count : nodes.length = c.length + 1
  inner : ∀ (i : Nat) (a b : F), c[i]? = some a → c[i + 1]? = some b → nodes[i + 1]? = some ((a + b) / 2)
  first : ∀ x l r : F, c[0]? = some x → nodes[0]? = some l → nodes[1]? = some r → x = (l + r) / 2
  last : ∀ x l r : F, c[c.length - 1]? = some x → nodes[c.length - 1]? = some l → nodes[c.length]? = some r → x = (l + r) / 2

/-- The values of field `d` of the data `m` on the first line of refined cells along axis `d`. -/
def DgCase.lineValues (m : DgCase F) (d n : Nat) : List F :=
  (List.range n).map fun i => m.value d (((List.replicate m.cells.length 0).set d i).map (· / m.points))
    (midPt m.fine ((List.replicate m.cells.length 0).set d i))

/-- The grid `g'` is the grid `g` with new nodes for the configuration space directions: those for the values of the mapping
`m` as cell centres. -/
def IsMapped (m : DgCase F) (g g' : List (NArr F)) : Prop :=
  g'.length = g.length ∧ (∀ d, m.cells.length ≤ d → g'[d]? = g[d]?) ∧
    ∀ d n, m.cells[d]? = some n → ∃ nodes, g'[d]? = some (NArr.ofList nodes) ∧ NodesFor (m.lineValues d (n * m.points)) nodes

end

end Pgkyl.Spec
