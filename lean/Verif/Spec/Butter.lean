import Verif.Model.Spectral
import Mathlib.Algebra.BigOperators.Group.Finset.Basic
import Mathlib.Algebra.Field.Basic
/-! # Specification: digital filters -/

namespace Pgkyl.Spec

/-- Sample number `n` of a signal that is zero before the first sample. -/
def sample {F : Type} [Zero F] (x : List F) (n : Int) : F := if n < 0 then 0 else (x[n.toNat]?).getD 0

/-- The signal `y` answers the signal `x` by the difference equation with the coefficients `b` and `a`:
`Σ_k a[k] y[n-k] = Σ_k b[k] x[n-k]` at every sample `n`. -/
def Answers {F : Type} [_root_.Field F] (b a x y : List F) : Prop :=
  y.length = x.length ∧ ∀ n < x.length,
    ∑ k ∈ Finset.range a.length, sample a k * sample y ((n : Int) - k) =
      ∑ k ∈ Finset.range b.length, sample b k * sample x ((n : Int) - k)

end Pgkyl.Spec
