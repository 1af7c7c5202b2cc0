import Verif.Model.NArr
import Mathlib.Analysis.SpecialFunctions.Trigonometric.Basic
import Mathlib.Analysis.Real.Sqrt
import Mathlib.Data.Finset.Basic
/-!
# Spectra, independently of the code
-/

namespace Pgkyl.Spec

/-- The plane wave of frequency `f` at `x`: `exp(2 π i f x)`. -/
noncomputable def wave (f x : ℝ) : ℂ := Complex.exp (2 * Real.pi * (f * x) * Complex.I)

/-- Equally spaced points. -/
def EquallySpaced (g : List ℝ) : Prop :=
  ∃ x0 dx : ℝ, dx ≠ 0 ∧ ∀ (i : Nat) (x : ℝ), g[i]? = some x → x = x0 + i * dx

/-- Data given at points: every direction is either collapsed (one value) or has as many equally spaced
points as values. -/
def PointData (grid : List (List ℝ)) (dims : List Nat) : Prop :=
  List.Forall₂ (fun g n => (g.length ≤ 2 ∧ n = 1) ∨ (2 < g.length ∧ n = g.length ∧ EquallySpaced g))
    grid dims

/-- The directions that are not collapsed. -/
def proper (grid : List (List ℝ)) : List (List ℝ) := grid.filter fun g => decide (2 < g.length)

/-- The plane wave whose frequency in direction `d` is entry `k_d` of `freq_d`, at the point whose
coordinate in direction `d` is entry `j_d` of `grid_d`, measured from the first point. -/
noncomputable def gridWave : List (List ℝ) → List (List ℝ) → List Nat → List Nat → ℂ
  | f :: fs, g :: gs, k :: ks, j :: js =>
    wave (f.getD k 0) (g.getD j 0 - g.getD 0 0) * gridWave fs gs ks js
  | _, _, _, _ => 1

end Pgkyl.Spec

namespace Pgkyl.Spec

/-- Wave number `kp` belongs to bin `b` of `n` bins of width `dk` centred at `dk, 2 dk, …`; the last
bin has no upper limit. -/
def InBin (n : Nat) (dk : ℝ) (b : Nat) (kp : ℝ) : Prop :=
  ((b : ℝ) + 1 / 2) * dk ≤ kp ∧ (kp < ((b : ℝ) + 3 / 2) * dk ∨ b + 1 = n)

/-- The length of the wave vector whose component in direction `d` is entry `k_d` of `freq_d`. -/
noncomputable def waveLength (freq : List (List ℝ)) (k : List Nat) : ℝ :=
  Real.sqrt ((List.zipWith (fun (f : List ℝ) (i : Nat) => (f.getD i 0) ^ 2) freq k).sum)

open Classical in
/-- The modes of a spectrum of the given shape whose wave number lies in bin `b`. -/
noncomputable def modesIn (shape : List Nat) (freq : List (List ℝ)) (n : Nat) (dk : ℝ) (b : Nat) :
    Finset (List Nat) :=
  (indices shape).toFinset.filter fun k => InBin n dk b (waveLength freq k)

end Pgkyl.Spec
