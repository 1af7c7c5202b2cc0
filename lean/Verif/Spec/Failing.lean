import Verif.Model.Failing
/-!
# Specification for C160: all or nothing
-/

namespace Pgkyl.Spec
open Failing

/-- The call did all of its work, or it raised and the dataset is as it was. -/
def AllOrNothing {F : Type} (d : GData F) (o : Outcome F) : Prop := ∀ e, o.error = some e → o.state = d

/-- The model with the state after a failure is the model without it. -/
def Agrees {F α : Type} (r : Except Err α) (after : α → GData F) (o : Outcome F) : Prop :=
  (∀ a, r = .ok a → o = ⟨after a, none⟩) ∧ ∀ e, r = .error e → o.error = some e

/-- There are at least `n` arrays of coordinates, and each has a node. -/
structure HasNodes {F : Type} (g : List (NArr F)) (n : Nat) : Prop where
  count : n ≤ g.length
  node : ∀ a ∈ g, a.data ≠ []

end Pgkyl.Spec
