import Mathlib.Algebra.Field.Defs
import Verif.Spec.Select
/-! # Specification of loading part of a uniform field from an ADIOS file -/

namespace Pgkyl.Spec

/-- One direction of a uniform field with a selection on it: bounds, number of cells, the selection, and the cells
`lo .. hi-1` it stands for. -/
structure UniAxis (F : Type) where
  lower : F
  upper : F
  cells : Nat
  z : Option (IdxArg F)
  lo : Nat
  hi : Nat

namespace UniAxis
variable {F : Type} [_root_.Field F]

/-- The `i`-th of the equally spaced nodes. -/
def node (a : UniAxis F) (i : Nat) : F := a.lower + (i : F) * ((a.upper - a.lower) / (a.cells : F))

/-- All nodes. -/
def nodes (a : UniAxis F) : List F := (List.range (a.cells + 1)).map a.node

/-- The nodes bounding the selected cells. -/
def partNodes (a : UniAxis F) : List F := (List.range (a.hi - a.lo + 1)).map fun i => a.node (a.lo + i)

/-- A direction with cells and increasing nodes; the selection denotes the cells `lo .. hi-1`. -/
def OK [LinearOrder F] (a : UniAxis F) : Prop :=
  0 < a.cells ∧ a.lower < a.upper ∧ Denotes a.nodes a.cells a.z a.lo a.hi

/-- The selection is not of the form `'a:'` or `':'`. -/
def Closed (z : Option (IdxArg F)) : Prop := (∀ k : Nat, z ≠ some (.str (dec k ++ [':']))) ∧ z ≠ some (.str [':'])

end UniAxis
end Pgkyl.Spec
