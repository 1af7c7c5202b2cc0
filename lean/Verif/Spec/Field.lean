import Verif.Model.NumOps
/-! # Specification: arrays as fields of components -/

namespace Pgkyl.Spec
variable {F : Type}

/-- The array `a` holds `m` components in each cell; component `c` in cell `i` is `f i c`. -/
structure IsField (a : NArr F) (cells : List Nat) (m : Nat) (f : List Nat → Nat → F) : Prop where
  wf : a.WF
  shape : a.shape = cells ++ [m]
  get : ∀ i, inRange cells i = true → ∀ c < m, a.get? (i ++ [c]) = some (f i c)

/-- The result is an array holding `m` components in each cell, component `c` in cell `i` being `f i c`. -/
def Gives (x : Except Err (NArr F)) (cells : List Nat) (m : Nat) (f : List Nat → Nat → F) : Prop :=
  ∃ r, x = .ok r ∧ IsField r cells m f

/-- No axis of length 1 follows a longer (or empty) one. -/
def LeadingOnes (cells : List Nat) : Prop := ∃ (k : Nat) (rest : List Nat), cells = List.replicate k 1 ++ rest ∧ 1 ∉ rest

end Pgkyl.Spec
