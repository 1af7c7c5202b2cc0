import Verif.Model.NArr
import Mathlib.Analysis.SpecialFunctions.Exp
/-! # Specification: growth rates -/

namespace Pgkyl.Spec

/-- The data are the exponential `a exp(2 b x)`. -/
def Exponential (a b : ℝ) (xs ys : List ℝ) : Prop := ys = xs.map fun x => a * Real.exp (2 * b * x)

/-- A fitting routine that recovers an exponential from two or more of its points at increasing abscissae, whatever the
initial guess. -/
def Recovers (fit : List ℝ → List ℝ → Option (ℝ × ℝ) → Except Err (ℝ × ℝ)) : Prop :=
  ∀ a b xs ys p0, a ≠ 0 → b ≠ 0 → 2 ≤ xs.length → xs.Pairwise (· < ·) → Exponential a b xs ys →
    fit xs ys p0 = .ok (a, b)

/-- Kinetic energy of cells of volume `dv` with the given density and momentum: `½ |p|² / ρ` each. -/
noncomputable def kineticEnergy (dv : ℝ) (cells : List (ℝ × ℝ × ℝ × ℝ)) : ℝ :=
  (cells.map fun c => (c.2.1 ^ 2 + c.2.2.1 ^ 2 + c.2.2.2 ^ 2) / (2 * c.1) * dv).sum

end Pgkyl.Spec
