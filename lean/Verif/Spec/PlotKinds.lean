import Mathlib.Algebra.Field.Defs
import Mathlib.Data.Nat.Cast.Defs
/-! # Specification of labels, arrows, line-outs and colours of a plot -/

namespace Pgkyl.Spec

/-- The numbers of the directions with more than one value. -/
def directionsShown (cells : List Nat) : List Nat := (cells.zipIdx.filter fun p => decide (1 < p.1)).map (·.2)

/-- What direction `d` is called: `$z_0$`, `$z_1$`, ... -/
def directionName (d : Nat) : List Char := "$z_".toList ++ Nat.toDigits 10 d ++ ['$']

/-- What a label says: the text shows the function `f` of the coordinate called `name`; numbers are written by `fmt`. -/
inductive Reads {F : Type} [Add F] [Mul F] (fmt : F → List Char) (name : List Char) : List Char → (F → F) → Prop
  | plain : Reads fmt name name fun x => x
  | shifted (s : F) : Reads fmt name (name ++ " + ".toList ++ fmt s) fun x => x + s
  | scaled (k : F) : Reads fmt name (name ++ " $\\times$ ".toList ++ fmt k) fun x => x * k
  | both (s k : F) : Reads fmt name ("(".toList ++ name ++ " + ".toList ++ fmt s ++ ") $\\times$ ".toList ++ fmt k)
      fun x => (x + s) * k

/-- The nodes are equally spaced, at distance `h`. -/
def Equidistant {F : Type} [_root_.Field F] (nodes : List F) (h : F) : Prop :=
  h ≠ 0 ∧ ∃ a : F, ∀ i, i < nodes.length → nodes[i]? = some (a + (i : F) * h)

/-- The shade, between 0 and 1, that a colour bar from `lo` to `hi` shows at `y`. -/
def barShade {F : Type} [_root_.Field F] (lo hi y : F) : F := (y - lo) / (hi - lo)

end Pgkyl.Spec
