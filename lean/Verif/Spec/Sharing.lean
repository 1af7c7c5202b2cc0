import Verif.Model.Sharing
import Mathlib.Algebra.Group.Basic
import Mathlib.Algebra.BigOperators.Group.List.Basic
/-! # Specification: where a dataset comes from and how its coordinates were scaled -/

namespace Pgkyl.Spec
open Sharing

variable {F : Type}

/-- The effect of a command on the list of origins and the number of loading commands so far. -/
def originStep (o : List Nat × Nat) : Op F → List Nat × Nat
  | .load _ => (o.1 ++ [o.2], o.2 + 1)
  | .derive s => (o.1 ++ [o.1.getD s 0], o.2)
  | .scale s _ _ true => (o.1 ++ [o.1.getD s 0], o.2)
  | .scale _ _ _ false => o

/-- The datasets of a session in the order of their creation, each with the number of the loading command it goes back to
(the first dataset loaded is 0, the next one 1, …). -/
def origins (ops : List (Op F)) : List Nat := (ops.foldl originStep ([], 0)).1

/-- The grids loaded, in order. -/
def loadedGrids (ops : List (Op F)) : List (List (NArr F)) := ops.filterMap fun
  | .load g => some g
  | _ => none

/-- The factors by which axis `i` was scaled, for the datasets `s` with `p s`. -/
def factors (p : Nat → Bool) (i : Nat) (ops : List (Op F)) : List F := ops.filterMap fun
  | .scale s j c _ => if p s ∧ j = i then some c else none
  | _ => none

/-- The array `z` with every number multiplied by `c`. -/
def times [Mul F] (z : NArr F) (c : F) : NArr F := ⟨z.shape, z.data.map (· * c)⟩

end Pgkyl.Spec
