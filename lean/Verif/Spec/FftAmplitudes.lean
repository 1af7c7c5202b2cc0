import Verif.Spec.FftCommand
import Mathlib.Analysis.Complex.Norm
/-! # Specification: the datasets that `fft` makes without `--psd` -/

namespace Pgkyl.Spec

/-- Real numbers, stored where complex numbers are possible. -/
noncomputable def reals (g : List ℝ) : NArr ℂ := NArr.ofList (g.map fun (x : ℝ) => (x : ℂ))

/-- The dataset holds real or complex data at points: the grid (real), the numbers of values in each direction, the values and
the number of components. -/
structure HoldsPointsC (d : GData ℂ) (grid : List (List ℝ)) (dims : List Nat) (values : NArr ℂ) (nc : Nat) : Prop where
  hgrid : d.grid = some (grid.map reals)
  hvalues : d.values = some values
  points : PointData grid dims
  shape : values.shape = dims ++ [nc]
  wf : values.WF
  directions : proper grid ≠ []
  three : (proper grid).length ≤ 3

/-- The amplitudes `a c k` of the plane waves with the frequencies `freq` make up the values, and no frequency is larger than
what the spacing of the points resolves; the first one is zero. -/
structure IsSpectrumC (grid : List (List ℝ)) (dims : List Nat) (values : NArr ℂ) (nc : Nat) (freq : List (List ℝ))
    (a : Nat → List Nat → ℂ) : Prop where
  lengths : freq.map List.length = (proper grid).map List.length
  band : List.Forall₂ (fun f g => f.getD 0 1 = 0 ∧ ∀ q ∈ f, |q * (g.getD 1 0 - g.getD 0 0)| ≤ 1 / 2) freq (proper grid)
  sum : ∀ c < nc, ∀ j, inRange ((proper grid).map List.length) j = true →
    ∃ x, values.get? (fullIndex dims j ++ [c]) = some x ∧
      x * (((proper grid).map List.length).prod : ℕ) =
        ((indices ((proper grid).map List.length)).map fun k => a c k * gridWave freq (proper grid) k j).sum

/-- A dataset that holds the amplitudes of all modes: the frequencies as its grid and the amplitudes as its values. -/
def HoldsAmplitudes (grid : List (List ℝ)) (dims : List Nat) (values : NArr ℂ) (nc : Nat) (r : GData ℂ) : Prop :=
  ∃ freq a, IsSpectrumC grid dims values nc freq a ∧ r.grid = some (freq.map reals) ∧
    ∃ p, r.values = some p ∧ p.WF ∧ p.shape = (proper grid).map List.length ++ [nc] ∧
      ∀ k c, inRange ((proper grid).map List.length) k = true → c < nc → p.get? (k ++ [c]) = some (a c k)

end Pgkyl.Spec
