import Verif.Model.Inputs
/-!
# Model of what `get_magB` and `accumulate_current` accept

`src/postgkyl/tools/params.py:17-23` and `src/postgkyl/tools/accumulate_current.py`, with their arguments.
-/

namespace Pgkyl.Inp
variable {F : Type}

/-- params.py:17-23 `get_magB`: the grid found by the parser is handed to `mag_sq` in a pair. -/
def getMagB [Min F] [Max F] [Add F] [Mul F] [Zero F] (sqrt : F → F) (field : Input F) : Except Err (PyGrid F × NArr F) := do
  let (g, v) ← parse field
  let b ← (← need v).comps 3 6
  let m ← value (magSq "0:3".toList (.pair g (some b)))
  return (g, m.map1 sqrt)

/-- accumulate_current.py:34-39: the factor; none of the arguments has the attributes `mass` and `charge`.  `negOne` is the literal
`-1.0`. -/
def currentFactor (negOne : F) (qbym : Bool) : Except Err F :=
  if qbym then .error .attributeError else .ok negOne

/-- accumulate_current.py:13-44 `accumulate_current` without `overwrite`: grid and values.  `None` times a number is a
TypeError. -/
def accumulateCurrent [Mul F] (negOne : F) (qbym : Bool) (x : Input F) : Except Err (PyGrid F × NArr F) := do
  let (g, v) ← parse x
  let f ← currentFactor negOne qbym
  let w ← need v
  return (g, w.map1 (f * ·))

end Pgkyl.Inp
