import Mathlib.MeasureTheory.Integral.IntervalIntegral.Basic
/-! # Specification: integrals over the reference cube -/

namespace Pgkyl.Spec

/-- The (iterated) integral of a function of `d` variables over the cube [-1, 1]^d. -/
noncomputable def cubeInt : Nat → (List ℝ → ℝ) → ℝ
  | 0, g => g []
  | d + 1, g => ∫ x in (-1 : ℝ)..1, cubeInt d fun xs => g (x :: xs)

end Pgkyl.Spec
