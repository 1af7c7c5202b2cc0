import Verif.Model.DataSpace
import Mathlib.Analysis.SpecialFunctions.Exp
/-! # Specification: the datasets that `growth` makes -/

namespace Pgkyl.Spec

/-- The dataset is a time series: the times `t`, at least two, and `y` as its first component. -/
def IsSeries (d : GData ℝ) (t y : List ℝ) : Prop :=
  2 ≤ t.length ∧ 2 ≤ y.length ∧ d.grid = some [NArr.ofList t] ∧ ∃ v nc, d.values = some v ∧ v.shape = [y.length, nc] ∧
    ∀ (i : Nat) (x : ℝ), y[i]? = some x → v.get? [i, 0] = some x

/-- An active dataset with the tag `growth` and the label `Fit`: between each two times the value of `a exp(2 b t)` in the
middle. -/
def HoldsFit (t : List ℝ) (a b : ℝ) (r : GData ℝ) : Prop :=
  r.tag = "growth".toList ∧ r.getLabel = "Fit".toList ∧ r.status = true ∧ r.grid = some [NArr.ofList t] ∧
    ∃ v, r.values = some v ∧ v.shape = [t.length - 1, 1] ∧
      ∀ (i : Nat) (x y : ℝ), t[i]? = some x → t[i + 1]? = some y → v.get? [i, 0] = some (a * Real.exp (2 * b * ((x + y) / 2)))

/-- An active dataset with the tag and label given that holds one number, at the position 0. -/
def HoldsRate (T : Tag) (label : List Char) (b : ℝ) (r : GData ℝ) : Prop :=
  r.tag = T ∧ (label ≠ [] → r.getLabel = label) ∧ r.status = true ∧ r.grid = some [NArr.ofList [0]] ∧
    r.values = some ⟨[1, 1], [b]⟩

/-- What is made from a series whose best fit is `a exp(2 b t)`: with `dataset` the fitted curve, then with a tag the
rate. -/
def IsMade (dataset : Bool) (tag : Option Tag) (label : List Char) (t : List ℝ) (a b : ℝ) (made : List (GData ℝ)) : Prop :=
  ∃ fitted rates, made = fitted ++ rates ∧
    (if dataset then ∃ r, fitted = [r] ∧ HoldsFit t a b r else fitted = []) ∧
    (match tag with
      | some (c :: cs) => ∃ r, rates = [r] ∧ HoldsRate (c :: cs) label b r
      | _ => rates = [])

/-- The store `s'` is the store `s` and behind it, for each of the datasets `ids` in turn, the datasets made from it, each
listed under its own tag. -/
def AddsMade {F : Type} (s : Space F) (ids : List Nat) (made : Nat → List (GData F)) (s' : Space F) : Prop :=
  s'.heap = s.heap ++ ids.flatMap made ∧
    ∀ t, (s'.lookup t).getD [] = (s.lookup t).getD [] ++
      (((ids.flatMap made).zipIdx s.heap.length).filter fun p => p.1.tag = t).map (·.2)

end Pgkyl.Spec
