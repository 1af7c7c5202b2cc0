import Verif.Spec.EvDiff
/-! # Specification: derivatives of the velocity on a uniform grid -/

namespace Pgkyl.Spec

section
variable {F : Type} [_root_.Field F]

/-- Component `c` of the velocity: component `c + 1` of the data (a momentum) over component 0 (the density). -/
def flowAt (f : List Nat → Nat → F) (c : Nat) (idx : List Nat) : F := f idx (c + 1) / f idx 0

/-- `D c ax idx` are the derivatives along direction `ax` of component `c` of the velocity, in the cells of a grid with
`cells` cells of widths `h`. -/
def AreSlopes (h : List F) (cells : List Nat) (f : List Nat → Nat → F) (D : Nat → Nat → List Nat → F) : Prop :=
  ∀ c < 3, ∀ ax < 3, ∀ idx, inRange cells idx = true →
    ParabolaSlope (fun j => (j : F) * h.getD ax 0) (fun j => flowAt f c (idx.set ax j)) (cells.getD ax 0) (idx.getD ax 0) (D c ax idx)

/-- The square of the vorticity. -/
def vorticitySquare (D : Nat → Nat → List Nat → F) (idx : List Nat) : F :=
  (D 2 1 idx - D 1 2 idx) ^ 2 + (D 0 2 idx - D 2 0 idx) ^ 2 + (D 1 0 idx - D 0 1 idx) ^ 2

end
end Pgkyl.Spec
