import Verif.Model.Contour
import Verif.Spec.Animate
/-! # Specification: quantiles and equally spaced levels -/

namespace Pgkyl.Spec

/-- `x` is the quantile `p` of the numbers `l`: in ascending order, numbered from 0 to `n - 1`, the value at position `p (n - 1)`, on the
straight line between neighbours. -/
def IsQuantile (l : List ℝ) (p x : ℝ) : Prop :=
  ∃ s : List ℝ, s.Perm l ∧ s.Pairwise (· ≤ ·) ∧ ∃ (k : Nat) (a b : ℝ), s[k]? = some a ∧
    (s[k + 1]? = some b ∨ (k + 1 = s.length ∧ b = a)) ∧ (k : ℝ) ≤ p * (s.length - 1) ∧ p * (s.length - 1) ≤ k + 1 ∧
    x = a + (p * (s.length - 1) - k) * (b - a)

/-- `n` equally spaced numbers from `lo` to `hi`, both included. -/
def Spaced {F : Type} [_root_.Field F] (lo hi : F) (n : Nat) (l : List F) : Prop :=
  l.length = n ∧ ∀ i < n, l[i]? = some (lo + (i : F) * ((hi - lo) / ((n : F) - 1)))

end Pgkyl.Spec
