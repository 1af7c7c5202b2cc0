import Verif.Model.PlotPanels
/-!
# Model of one picture of an animation

`src/postgkyl/commands/animate.py`, the function `_update`: the title, and the calls of `output/plot.py` for the datasets of a frame.
Printing a number is a parameter.
-/

namespace Pgkyl
namespace Anim
open Plot

section
variable {F : Type} [Zero F] [DecidableEq F]

/-- The metadata of a dataset that a title is made of. -/
structure Stamp (F : Type) where
  frame : Option Int := none
  time : Option F := none

/-- animate.py:30-32: `f"{title} frame: {frame:d} "`, unless the frame is missing or zero (which is falsy). -/
def frameText (frame : Option Int) : List Char :=
  match frame with
  | some n => if n = 0 then [] else " frame: ".toList ++ pyStr n ++ [' ']
  | none => []

/-- animate.py:33-35: `f"{title} time: {time:.4e}"`, unless the time is missing or zero.  `fmt` prints a number as `:.4e` does. -/
def timeText (fmt : F → List Char) (time : Option F) : List Char :=
  match time with
  | some t => if t = 0 then [] else " time: ".toList ++ fmt t
  | none => []

/-- animate.py:28-36: the title of a dataset. -/
def titleOf (fmt : F → List Char) (notitle : Bool) (s : Stamp F) : List Char :=
  if notitle then [] else frameText s.frame ++ timeText fmt s.time

/-- The options of the command that concern panels and captions. -/
structure Call (F : Type) where
  squeeze : Bool := false
  /-- `--streamline` or `--quiver`. -/
  vectors : Bool := false
  /-- The data are two-dimensional, drawn in colours, and `--colorbar` is on. -/
  bars : Bool := false
  /-- `--nsubplotrow` -/
  rows : Option Nat := none
  /-- `--nsubplotcol` -/
  cols : Option Nat := none
  /-- `--title` -/
  title : List Char := []
  notitle : Bool := false
  /-- The labels of the axes: those of the options, or those made from the numbers of the coordinates. -/
  xlabel : List Char := []
  ylabel : List Char := []
  xlim : Option F × Option F := (none, none)
  ylim : Option F × Option F := (none, none)
  one : Bool := true

/-- animate.py:38-52, plot.py:60-83: the arguments of `plot` for the panels.  The numbers of rows and columns are handed over under the
names `nSubplotRow` and `nSubplotCol` (animate.py:95-98), which `plot` does not have. -/
def callOpts (c : Call F) (first : Bool) : Opts := { squeeze := c.squeeze, vectors := c.vectors, colorbar := c.bars && first }

/-- animate.py:28-52: the captions handed to `plot`; the title is replaced. -/
def callCaptions (fmt : F → List Char) (c : Call F) (s : Stamp F) : Captions F :=
  { title := titleOf fmt c.notitle s, xlabel := c.xlabel, ylabel := c.ylabel, xlim := c.xlim, ylim := c.ylim, one := c.one }

/-- animate.py:27-52: the calls of `plot` for the datasets of a frame, given by their metadata and numbers of components; only the first
one has a colour bar. -/
def frameCalls (fmt : F → List Char) (c : Call F) : List (Stamp F × Nat) → List (Opts × Captions F × Nat)
  | [] => []
  | (s, n) :: rest => (callOpts c true, callCaptions fmt c s, n) ::
      rest.map fun e => (callOpts c false, callCaptions fmt c e.1, e.2)

/-- animate.py:10-54 `_update`: the figure is cleared and the datasets of the frame are drawn.  Without datasets `im` is unbound. -/
def drawFrame (fmt : F → List Char) (c : Call F) (ds : List (Stamp F × Nat)) : Except Err (Figure F) :=
  if ds = [] then .error .unboundLocal else plotFigures (frameCalls fmt c ds) {}

end
end Anim
end Pgkyl
