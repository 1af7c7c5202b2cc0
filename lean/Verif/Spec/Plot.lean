import Mathlib.Algebra.Field.Defs
import Mathlib.Algebra.BigOperators.Group.List.Basic
import Verif.Model.NArr
/-! # Specification of what a plot shows -/

namespace Pgkyl.Spec

/-- `r` rows of `c` panels hold `n` panels, the last row not empty. -/
def Room (n r c : Nat) : Prop := n ≤ r * c ∧ 1 ≤ r ∧ (r - 1) * c < n

/-- One direction of a dataset: its nodes and the number of values along it. -/
structure PlotAxis (F : Type) where
  nodes : List F
  n : Nat

section
variable {F : Type} [_root_.Field F]

/-- The position of value `i`: the centre of its cell, or its node for values living on the nodes. -/
def PlotAxis.IsPos (a : PlotAxis F) (i : Nat) (x : F) : Prop :=
  (a.nodes.length = a.n ∧ a.nodes[i]? = some x) ∨
    (a.nodes.length = a.n + 1 ∧ ∃ l r, a.nodes[i]? = some l ∧ a.nodes[i + 1]? = some r ∧ x = (l + r) / 2)

/-- There is a node for every value, or one more. -/
def PlotAxis.OK (a : PlotAxis F) : Prop := 1 ≤ a.n ∧ (a.nodes.length = a.n ∨ a.nodes.length = a.n + 1)

end

/-- The full index of the value at the given index along the directions of more than one value: 0 along the others. -/
def fullIndex : List Nat → List Nat → List Nat
  | [], _ => []
  | n :: ns, idx => if 1 < n then idx.headD 0 :: fullIndex ns idx.tail else 0 :: fullIndex ns idx

/-- A dataset with the given directions and `nc` components. -/
structure IsDataset {F : Type} (axes : List (PlotAxis F)) (nc : Nat) (values : NArr F) : Prop where
  wf : values.WF
  shape : values.shape = axes.map (·.n) ++ [nc]

end Pgkyl.Spec
