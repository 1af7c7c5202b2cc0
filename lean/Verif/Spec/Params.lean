import Verif.Spec.Moments
import Verif.Model.Params
/-! # Specification: plasma parameters -/

namespace Pgkyl.Spec
open Params

/-- The dataset knows the quantity `key` to be `x`: its metadata say so, or they hold the key without a usable value
(`None` or 0) and the caller's default is `x`. -/
def Knows (d : Input) (key : String) (default x : ℝ) : Prop :=
  ∃ ctx v, d = .gdata ctx v ∧
    (Dict.get? ctx key = some (some x) ∧ x ≠ 0 ∨
      (Dict.get? ctx key = some none ∨ Dict.get? ctx key = some (some 0)) ∧ x = default)

/-- The length of a vector. -/
noncomputable def norm (b : Nat → ℝ) : ℝ := Real.sqrt (dot b b)

/-- The fluid data of a species of particles with mass `M`, number density `n`, flow velocity `u` and temperature
`T`. -/
noncomputable def fluid (gamma M : ℝ) (n T : List Nat → ℝ) (u : List Nat → Nat → ℝ) : List Nat → Nat → ℝ :=
  fun i => fiveMoment gamma (M * n i) (u i) (n i * T i)

/-- Alfvén speed. -/
noncomputable def alfven (mu m n : ℝ) (B : Nat → ℝ) : ℝ := norm B / Real.sqrt (mu * (m * n))
/-- Cyclotron frequency. -/
noncomputable def cyclotron (m q : ℝ) (B : Nat → ℝ) : ℝ := |q| * norm B / m
/-- Plasma frequency. -/
noncomputable def plasmaFreq (eps m q n : ℝ) : ℝ := Real.sqrt (n * q ^ 2 / (eps * m))
/-- Speed of light. -/
noncomputable def lightSpeed (eps mu : ℝ) : ℝ := 1 / Real.sqrt (eps * mu)
/-- Thermal speed, with or without the factor √2. -/
noncomputable def thermal (sqrt2 : Bool) (m T : ℝ) : ℝ := Real.sqrt (if sqrt2 then 2 * T / m else T / m)
/-- Debye length. -/
noncomputable def debye (eps q n T : ℝ) : ℝ := Real.sqrt (eps * T / (n * q ^ 2))
/-- Larmor radius. -/
noncomputable def larmor (m q T : ℝ) (B : Nat → ℝ) : ℝ := thermal true m T / cyclotron m q B
/-- Plasma beta: thermal over magnetic pressure. -/
noncomputable def beta (mu n T : ℝ) (B : Nat → ℝ) : ℝ := n * T / (dot B B / (2 * mu))

end Pgkyl.Spec
