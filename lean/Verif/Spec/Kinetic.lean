import Verif.Spec.Moments
import Mathlib.Analysis.SpecialFunctions.Exp
import Mathlib.MeasureTheory.Integral.Bochner.Set
import Mathlib.MeasureTheory.Measure.Lebesgue.Basic
import Mathlib.Analysis.Real.Pi.Bounds
/-! # Specification: distribution functions, frames of reference -/

namespace Pgkyl.Spec
open MeasureTheory Set

/-- A Gaussian of temperature over mass `T` times a polynomial of degree one in the perpendicular energy: the first two
terms of the Laguerre expansion. -/
def TwoLaguerreTerms (T : ℝ) (g : ℝ → ℝ) : Prop :=
  ∃ a b : ℝ, ∀ v, g v = (a + b * v ^ 2) * Real.exp (-v ^ 2 / (2 * T))

/-- The integral of `g` over the perpendicular velocity plane. -/
noncomputable def perpDensity (g : ℝ → ℝ) : ℝ := ∫ v in Ioi (0:ℝ), g v * (2 * Real.pi * v)

/-- The integral of `v²/2 g` over the perpendicular velocity plane. -/
noncomputable def perpEnergy (g : ℝ → ℝ) : ℝ := ∫ v in Ioi (0:ℝ), v ^ 2 / 2 * g v * (2 * Real.pi * v)

/-- The centre of cell `l` of a list of nodes. -/
def IsCentre (nodes : List ℝ) (l : Nat) (c : ℝ) : Prop :=
  ∃ a b, nodes[l]? = some a ∧ nodes[l + 1]? = some b ∧ c = (a + b) / 2

/-- The velocity at node `i` of `n` cells: of the only cell at the ends, the mean of the two neighbours inside. -/
def IsNodeVelocity (n : Nat) (u : Nat → ℝ) (i : Nat) (w : ℝ) : Prop :=
  (i = 0 → w = u 0) ∧ (i = n → w = u (n - 1)) ∧ (0 < i → i < n → w = (u (i - 1) + u i) / 2)

/-- The three rows are an orthonormal system. -/
def Orthonormal (R : Nat → Nat → ℝ) : Prop :=
  (∀ r < 3, dot (R r) (R r) = 1) ∧ ∀ r < 3, ∀ s < 3, r ≠ s → dot (R r) (R s) = 0

end Pgkyl.Spec
