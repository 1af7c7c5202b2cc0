import Verif.Model.OptionTable
import Verif.Model.Contour
/-!
# Model of the limits on the command line of `plot` and `animate`

`src/postgkyl/commands/plot.py:58-66, 146-157` and `src/postgkyl/commands/animate.py:136-144, 185-196`.  Reading a decimal number
(`toFloat`) is a parameter.
-/

namespace Pgkyl
namespace Plot
open Options (Text valueOf)

variable {F : Type}

/-- plot.py:146-149 (and, with the same lines, 150-157 and animate.py:185-196): `--xlim` replaces `--xmin` and `--xmax`; an empty text
counts as not given.  The first number is read before the second part is looked for. -/
def limOption (toFloat : Text → Option F) (lim : Option Text) (given : Option F × Option F) : Except Err (Option F × Option F) :=
  match lim with
  | none => .ok given
  | some [] => .ok given
  | some (c :: t) =>
    match splitOn ',' (c :: t) with
    | [] => .error .indexError
    | [a] => do
      let _ ← asFloat toFloat a
      .error .indexError
    | a :: b :: _ => do
      let lo ← asFloat toFloat a
      let hi ← asFloat toFloat b
      return (some lo, some hi)

/-- plot.py:58-62 `type=click.FLOAT` -/
def floatOption (toFloat : Text → Option F) (t : Option Text) : Except Err (Option F) :=
  match t with
  | none => .ok none
  | some t => do
    let x ← asFloat toFloat t
    return some x

/-- The three options of an axis. -/
structure AxisKeys where
  min : Text
  max : Text
  lim : Text

/-- plot.py:58-66: the names of the options of the three axes. -/
def xKeys : AxisKeys := ⟨"xmin".toList, "xmax".toList, "xlim".toList⟩
def yKeys : AxisKeys := ⟨"ymin".toList, "ymax".toList, "ylim".toList⟩
def zKeys : AxisKeys := ⟨"zmin".toList, "zmax".toList, "zlim".toList⟩

/-- plot.py:58-66, 146-157: the limits of one axis, from the options of the command. -/
def axisLimits (toFloat : Text → Option F) (k : AxisKeys) (given : List (Text × Text)) : Except Err (Option F × Option F) := do
  let lo ← floatOption toFloat (valueOf given k.min)
  let hi ← floatOption toFloat (valueOf given k.max)
  limOption toFloat (valueOf given k.lim) (lo, hi)

/-- plot.py:58-66, 146-157: the limits of the axes x, y and z. -/
def allLimits (toFloat : Text → Option F) (given : List (Text × Text)) :
    Except Err ((Option F × Option F) × (Option F × Option F) × (Option F × Option F)) := do
  let x ← axisLimits toFloat xKeys given
  let y ← axisLimits toFloat yKeys given
  let z ← axisLimits toFloat zKeys given
  return (x, y, z)

/-- plot.py:58-73, 146-203: the colour range of all drawings of a `plot` command; `o` has the other options. -/
noncomputable def commandRange (toFloat : Text → Option ℝ) (given : List (Text × Text)) (o : RangeOpts) (datasets : List (List ℝ)) :
    Except Err (Option ℝ × Option ℝ) := do
  let l ← allLimits toFloat given
  plotRange { o with zmin := l.2.2.1, zmax := l.2.2.2 } datasets

end Plot
end Pgkyl
