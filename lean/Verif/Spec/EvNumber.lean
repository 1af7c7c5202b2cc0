import Verif.Spec.EvCommand
/-! # Specification of the operators of `ev` that give one number per dataset -/

namespace Pgkyl.Spec

variable {F : Type}

/-- `max`, `min` and `mean`. -/
inductive Summary where
  | max | min | mean

/-- How it is written. -/
def Summary.text : Summary → List Char
  | .max => "max".toList
  | .min => "min".toList
  | .mean => "mean".toList

/-- `x` is the largest, smallest or mean value of `f` on the indices of the shape `sh`. -/
def Summary.Is [_root_.Field F] [LE F] (sh : List Nat) (f : List Nat → F) (x : F) : Summary → Prop
  | .max => (∃ idx, inRange sh idx = true ∧ f idx = x) ∧ ∀ idx, inRange sh idx = true → f idx ≤ x
  | .min => (∃ idx, inRange sh idx = true ∧ f idx = x) ∧ ∀ idx, inRange sh idx = true → x ≤ f idx
  | .mean => x = ((indices sh).map f).sum / (sh.prod : F)

/-- Two datasets hold the same: the same grid and the same values. -/
def SameField (d e : GData F) : Prop := d.grid = e.grid ∧ d.values = e.values

end Pgkyl.Spec
