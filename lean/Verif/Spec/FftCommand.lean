import Verif.Model.DataSpace
import Verif.Spec.Spectral
import Verif.Spec.Plot
/-! # Specification: the datasets that `fft --psd` makes -/

namespace Pgkyl.Spec

/-- The dataset holds data at points: the grid, the numbers of values in each direction, the values and the number of
components. -/
structure HoldsPoints (d : GData ℝ) (grid : List (List ℝ)) (dims : List Nat) (values : NArr ℝ) (nc : Nat) : Prop where
  hgrid : d.grid = some (grid.map NArr.ofList)
  hvalues : d.values = some values
  points : PointData grid dims
  shape : values.shape = dims ++ [nc]
  wf : values.WF
  directions : proper grid ≠ []
  three : (proper grid).length ≤ 3

/-- The amplitudes `a c k` of the plane waves with the frequencies `freq` make up the values. -/
def IsSpectrum (grid : List (List ℝ)) (dims : List Nat) (values : NArr ℝ) (nc : Nat) (freq : List (List ℝ))
    (a : Nat → List Nat → ℂ) : Prop :=
  freq.map List.length = (proper grid).map List.length ∧
  ∀ c < nc, ∀ j, inRange ((proper grid).map List.length) j = true →
    ∃ x, values.get? (fullIndex dims j ++ [c]) = some x ∧
      (x : ℂ) * (((proper grid).map List.length).prod : ℕ) =
        ((indices ((proper grid).map List.length)).map fun k => a c k * gridWave freq (proper grid) k j).sum

/-- An active dataset that holds the power of the modes in the first halves of the frequencies: the frequencies as its grid
(with a single 0 behind them if there are two directions) and the squared magnitudes of the amplitudes as its values. -/
def HoldsPower (grid : List (List ℝ)) (dims : List Nat) (values : NArr ℝ) (nc : Nat) (r : GData ℝ) : Prop :=
  ∃ freq a, IsSpectrum grid dims values nc freq a ∧
    r.grid = some ((freq.map fun f => NArr.ofList (f.take (f.length / 2))) ++
      if (proper grid).length = 2 then [⟨[], [0]⟩] else []) ∧
    ∃ p, r.values = some p ∧ p.WF ∧ p.shape = ((proper grid).map fun g => g.length / 2) ++ [nc] ∧
      ∀ k c, inRange ((proper grid).map fun g => g.length / 2) k = true → c < nc → p.get? (k ++ [c]) = some (‖a c k‖ ^ 2)

/-- The store `s'` is the store `s` with each of the datasets `ids` replaced by `after` and behind it, for each of them in
turn, the datasets made from it, each listed under its own tag. -/
def ChangesAndAdds {F : Type} (s : Space F) (ids : List Nat) (after : Nat → GData F) (made : Nat → List (GData F))
    (s' : Space F) : Prop :=
  s'.heap = (s.heap.mapIdx fun j d => if j ∈ ids then after j else d) ++ ids.flatMap made ∧
    ∀ t, (s'.lookup t).getD [] = (s.lookup t).getD [] ++
      (((ids.flatMap made).zipIdx s.heap.length).filter fun p => p.1.tag = t).map (·.2)

end Pgkyl.Spec

namespace Pgkyl.Spec

/-- The dataset holds data at points in two or three directions, with at least four ascending points in each of them. -/
structure HoldsShellData (d : GData ℝ) (grid : List (List ℝ)) (dims : List Nat) (values : NArr ℝ) (nc : Nat) : Prop
    extends HoldsPoints d grid dims values nc where
  two : 2 ≤ (proper grid).length
  long : ∀ g ∈ proper grid, 4 ≤ g.length
  ascending : ∀ g ∈ proper grid, g.getD 0 0 < g.getD 1 0

/-- A dataset that holds the isotropic spectrum: the wave numbers `dk`, `2 dk`, … as its only axis, `dk` being the largest of the
lowest non-zero frequencies of the directions, as many as the integer part of the length of the vector of the numbers of points,
and in each bin after the first one the mean of the squared magnitudes of the amplitudes of the modes whose wave number lies in
that bin, if there are any. -/
def HoldsShells (grid : List (List ℝ)) (dims : List Nat) (values : NArr ℝ) (nc : Nat) (r : GData ℝ) : Prop :=
  ∃ freq a dk centres p, IsSpectrum grid dims values nc freq a ∧
    0 < dk ∧ (∃ f ∈ freq, f.getD 1 0 = dk) ∧ (∀ f ∈ freq, f.getD 1 0 ≤ dk) ∧
    r.grid = some [NArr.ofList centres] ∧ r.values = some p ∧ p.WF ∧ p.shape = [centres.length, nc] ∧
    centres.length = Nat.sqrt (((proper grid).map fun g => g.length ^ 2).sum) ∧
    (∀ b : Nat, b < centres.length → centres[b]? = some (((b : ℝ) + 1) * dk)) ∧
    ∀ b c, 1 ≤ b → b < centres.length → c < nc →
      (modesIn ((proper grid).map fun g => g.length / 2) freq centres.length dk b).Nonempty →
      p.get? [b, c] = some
        ((∑ k ∈ modesIn ((proper grid).map fun g => g.length / 2) freq centres.length dk b, ‖a c k‖ ^ 2)
          / ((modesIn ((proper grid).map fun g => g.length / 2) freq centres.length dk b).card : ℝ))

end Pgkyl.Spec
