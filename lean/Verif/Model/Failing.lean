import Verif.Model.Inputs
import Verif.Model.Integrate
import Verif.Model.Select
/-!
# Model of what a call that raises leaves behind

The other modules give a call that raises the value `.error e`.  Here the state of the dataset at the moment the exception
leaves the call is kept as well.
-/

namespace Pgkyl.Failing
open Inp
variable {F : Type}

/-- How a call ended: the dataset it was to store into, as it is afterwards, and the exception if there was one. -/
structure Outcome (F : Type) where
  state : GData F
  error : Option Err

/-- gdata.py:280-285 `set_values`: line 281 stores the values; the shape of a 0-d array has no last entry, which line 284
finds out after line 283 has stored the number of cells. -/
def setValues (d : GData F) (v : NArr F) : Outcome F :=
  match d.setValues v with
  | .ok d' => ⟨d', none⟩
  | .error e => ⟨{ d with values := some v, ctx := { d.ctx with cells := some v.shape.dropLast } }, some e⟩

variable [Min F] [Max F]

/-- gdata.py:262-270 `set_grid`: line 263 stores the grid, lines 266-268 may raise, and lines 269-270 store the bounds. -/
def setGrid (d : GData F) (g : List (NArr F)) : Outcome F :=
  match d.setGrid g with
  | .ok d' => ⟨d', none⟩
  | .error e => ⟨{ d with grid := some g }, some e⟩

/-- gdata.py:289-292 `push`: values, then grid. -/
def push (d : GData F) (g : List (NArr F)) (v : NArr F) : Outcome F :=
  match (setValues d v).error with
  | some _ => setValues d v
  | none => setGrid (setValues d v).state g

/-- select.py:13-97 `select(data, ..., overwrite=True)`: lines 31-92 only read the dataset, line 95 pushes. -/
def select [LT F] [DecidableLT F] (pf : List Char → Option F) (d : GData F) (comp : Option (IdxArg F))
    (zs : List (Option (IdxArg F))) : Outcome F :=
  match Pgkyl.select pf d comp zs false with
  | .error e => ⟨d, some e⟩
  | .ok r => push d r.1 r.2.1

/-- `push` with one of the grids a diagnostic may have: `()` has no entries, and `None` none that can be looked up (here also if
there are no axes), gdata.py:263-267. -/
def pushGrid (o : GData F) (g : PyGrid F) (r : NArr F) : Outcome F :=
  match g with
  | .list g => push o g r
  | .empty => push o [] r
  | .none =>
    match (setValues o r).error with
    | some _ => setValues o r
    | Option.none => ⟨{ (setValues o r).state with grid := Option.none }, some .typeError⟩

section
variable [Add F] [Sub F] [Mul F] [Div F] [Zero F] [IntCast F]

/-- calculus.py:13-91 `integrate(data, axis, overwrite=True)`: lines 31-85 work on copies, line 88 pushes. -/
def integrate (d : GData F) (axis : Calculus.AxisArg) : Outcome F :=
  match Calculus.integrate d axis false with
  | .error e => ⟨d, some e⟩
  | .ok r => push d r.1 r.2.1

/-- A diagnostic of prim_vars.py, or `mag_sq`, with a dataset for the output: the `push` comes last. -/
def diagnostic (sqrt : F → F) (t : Tool F) (x : Input F) (o : GData F) : Outcome F :=
  match t.run sqrt x none with
  | .error e => ⟨o, some e⟩
  | .ok r => pushGrid o r.1 r.2.1

end
end Pgkyl.Failing
