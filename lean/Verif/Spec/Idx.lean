import Mathlib.Order.Basic
import Mathlib.Data.List.Basic
/-! # Specification of coordinate and index lookup (independent of the model) -/

namespace Pgkyl.Spec

variable {F : Type} [LinearOrder F]

/-- Cell `i` of the axis with the given nodes contains the coordinate `c`: the coordinate lies in
`(nodes[i], nodes[i+1]]`, where the first cell also takes everything below and the last cell
everything above. -/
def IsCellOf (nodes : List F) (c : F) (i : Nat) : Prop :=
  ∃ lo hi, nodes[i]? = some lo ∧ nodes[i + 1]? = some hi ∧
    (lo < c ∨ i = 0) ∧ (c ≤ hi ∨ i + 2 = nodes.length)

/-- Node `i` is the first node not below `c` (`i = nodes.length` if all nodes are below). -/
def IsFirstNodeFrom (nodes : List F) (c : F) (i : Nat) : Prop :=
  i ≤ nodes.length ∧ (∀ j x, j < i → nodes[j]? = some x → x < c) ∧
    (∀ x, nodes[i]? = some x → c ≤ x)

/-- A strictly increasing axis. -/
def Increasing (nodes : List F) : Prop := nodes.Pairwise (· < ·)

/-- Decimal numeral of a natural number. -/
def dec (n : Nat) : List Char := Nat.toDigits 10 n

end Pgkyl.Spec
