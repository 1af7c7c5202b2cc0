import Mathlib.Algebra.BigOperators.Group.Finset.Basic
import Mathlib.Algebra.Field.Basic
import Verif.Spec.Field
import Verif.Model.Dg
/-! # Specification: fields given by an expansion in every cell of a uniform mesh -/

namespace Pgkyl.Spec
open Pgkyl.Dg (Poly)

/-- A uniform axis: `cells` cells of size `dx` starting at `lo`. -/
structure Axis (F : Type) where
  lo : F
  dx : F
  cells : Nat

section axes
variable {F : Type} [_root_.Field F]

/-- Position of node `j`. -/
def Axis.node (a : Axis F) (j : Nat) : F := a.lo + (j : F) * a.dx

/-- Midpoint of cell `k`. -/
def Axis.mid (a : Axis F) (k : Nat) : F := (a.node k + a.node (k + 1)) / 2

/-- The same interval with every cell split into `n` equal ones. -/
def Axis.refine (a : Axis F) (n : Nat) : Axis F := ⟨a.lo, a.dx / (n : F), a.cells * n⟩

/-- The coordinate in [-1, 1] of the position `z` relative to cell `c`: -1 at the cell's lower node, 1
at its upper node. -/
def Axis.local (a : Axis F) (c : Nat) (z : F) : F := (z - a.mid c) / (a.dx / 2)

/-- The array lists the nodes of the axis. -/
def IsAxis (x : NArr F) (a : Axis F) : Prop :=
  x.shape = [a.cells + 1] ∧ x.data = (List.range (a.cells + 1)).map a.node

/-- The value at local coordinates `ξ` of the function with coefficients `coef` in the basis `fns`. -/
def expand (fns : List Poly) (coef : Nat → F) (ξ : List F) : F :=
  ∑ k ∈ Finset.range fns.length, coef k * ((fns.getD k []).eval ξ)

/-- Local coordinates of the point `z` in cell `c`. -/
def localPt : List (Axis F) → List Nat → List F → List F
  | a :: as, c :: cs, z :: zs => a.local c z :: localPt as cs zs
  | _, _, _ => []

/-- Midpoint of a cell of the mesh. -/
def midPt : List (Axis F) → List Nat → List F
  | a :: as, k :: ks => a.mid k :: midPt as ks
  | _, _ => []

/-- The value at the position `z` of the function whose coefficients in cell `c` are `coef`. -/
def cellValue (fns : List Poly) (axes : List (Axis F)) (coef : Nat → F) (c : List Nat) (z : List F) : F :=
  expand fns coef (localPt axes c z)

end axes

/-- The points per cell along each axis when `n` are asked for: one more along the parallel velocity
of the hybrid bases.  For "gkhybrid" data with 1, 1, 2, 3 configuration dimensions (2 to 5 dimensions
in total) that is the axis after the configuration space; for "hybrid" the last one. -/
def perCell (basis : String) (dims n : Nat) : List Nat :=
  (List.range dims).map fun d =>
    let vpar : Option Nat :=
      if dims < 2 then none
      else if basis = "gkhybrid" then some ([1, 1, 2, 3].getD (dims - 2) 0)
      else if basis = "hybrid" then some (dims - 1)
      else none
    if vpar = some d then n + 1 else n

/-- The refined mesh. -/
def refineAll {F : Type} [_root_.Field F] (axes : List (Axis F)) (ns : List Nat) : List (Axis F) :=
  List.zipWith Axis.refine axes ns

/-- The grid lists the nodes of the axes. -/
def IsMesh {F : Type} [_root_.Field F] (grid : List (NArr F)) (axes : List (Axis F)) : Prop :=
  List.Forall₂ IsAxis grid axes

/-- A dataset of `m` numbers per cell, component `c` in cell `i` being `f i c`, on a uniform mesh. -/
structure OnMesh {F : Type} [_root_.Field F] (src : Dg.Source F) (cells : List Nat) (m : Nat)
    (f : List Nat → Nat → F) (axes : List (Axis F)) : Prop where
  values : IsField src.values cells m f
  dims : src.numDims = cells.length
  grid : IsMesh src.grid axes
  cells_eq : axes.map (·.cells) = cells
  dx : ∀ a ∈ axes, a.dx ≠ 0
  pos : 1 ≤ cells.length
  uniform : src.gridType = "uniform"

/-- Computational coordinates: cell `k` is the interval from `k` to `k + 1`. -/
def unitAxes {F : Type} [_root_.Field F] (cells : List Nat) : List (Axis F) := cells.map fun c => ⟨0, 1, c⟩

/-- Position of a node of the mesh. -/
def nodePt {F : Type} [_root_.Field F] (axes : List (Axis F)) (idx : List Nat) : List F :=
  List.zipWith Axis.node axes idx

/-- Node `idx` of the mesh with every cell split into `n` lies in (or on the boundary of) cell `cell`. -/
def NodeOf (n : Nat) (cell idx : List Nat) : Prop :=
  List.Forall₂ (fun c k => c * n ≤ k ∧ k ≤ (c + 1) * n) cell idx

/-- All lists of `d` exponents up to `p`. -/
def exponents : Nat → Nat → List (List Nat)
  | 0, _ => [[]]
  | d + 1, p => (List.range (p + 1)).flatMap fun e => (exponents d p).map (e :: ·)

/-- The superlinear degree of a monomial: the sum of the exponents larger than 1. -/
def superlinear (e : List Nat) : Nat := (e.filter (1 < ·)).sum

/-- The dimension of the serendipity space of order `p`: the number of monomials with superlinear degree at
most `p` (and exponents at most `p`). -/
def serendipityDim (d p : Nat) : Nat := (exponents d p).countP fun e => superlinear e ≤ p

end Pgkyl.Spec
