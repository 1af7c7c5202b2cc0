import Verif.Model.Plot
import Verif.Model.Py
import Verif.Model.Write
/-!
# Model of the panels of a figure

`src/postgkyl/output/plot.py`: captions, labels and limits of the panels.  Fonts, positions, legends boxes and scales are not
modelled.  A figure is the list of its axes in the order of `fig.axes`; the axes of a colour bar come last.
-/

namespace Pgkyl
namespace Plot

variable {F : Type}

/-- What can be seen of one axes: its captions, whether it is switched off, the labels of what was drawn in it, the limits that
were set by hand (`none` where matplotlib chooses), and whether it is a colour bar. -/
structure Panel (F : Type) where
  xlabel : List Char := []
  ylabel : List Char := []
  title : List Char := []
  off : Bool := false
  drawn : List (List Char) := []
  xlim : Option F × Option F := (none, none)
  ylim : Option F × Option F := (none, none)
  bar : Bool := false

/-- A figure: its own captions and its axes. -/
structure Figure (F : Type) where
  title : List Char := []
  xlabel : List Char := []
  ylabel : List Char := []
  panels : List (Panel F) := []

/-- The arguments of `plot` that decide on captions, labels and limits; `xlabel` and `ylabel` are those of `axisLabels`, an absent
text is empty. `one` stands for `num_dims == 1`, `cuts` for `lineouts is not None`. -/
structure Captions (F : Type) where
  title : List Char := []
  xlabel : List Char := []
  ylabel : List Char := []
  titles : List Char := []
  xlabels : List Char := []
  ylabels : List Char := []
  labelPrefix : List Char := []
  xlim : Option F × Option F := (none, none)
  ylim : Option F × Option F := (none, none)
  one : Bool := true
  cuts : Bool := false
  relax : Bool := false

/-- plot.py:312-326: entry `k` of a list separated by commas. -/
def entry (list : List Char) (k : Nat) : List Char :=
  if list = [] then []
  else if k < (splitOn ',' list).length then ((splitOn ',' list)[k]?).getD [] else []

/-- plot.py:299-333 for axes `k` of a new figure with `n` panels in use. -/
def newPanel (d : Captions F) (n k : Nat) : Panel F :=
  { xlabel := entry d.xlabels k, ylabel := entry d.ylabels k, title := entry d.titles k, off := decide (n ≤ k) }

/-- plot.py:257-335: the axes to draw into. -/
def newAxes (o : Opts) (d : Captions F) (nc : Nat) (fig : Figure F) : Except Err (Figure F) :=
  if fig.panels ≠ [] then
    if o.squeeze = false ∧ panelsWanted o nc > fig.panels.length then .error .valueError else .ok fig
  else if o.squeeze then
    .ok { fig with panels := [{ xlabel := d.xlabel, ylabel := d.ylabel, title := d.title }] }
  else do
    let (r, c) ← layout o.rows o.cols (panelsWanted o nc)
    return { title := if d.title = [] then fig.title else d.title, xlabel := if d.xlabel = [] then fig.xlabel else d.xlabel,
             ylabel := if d.ylabel = [] then fig.ylabel else d.ylabel,
             panels := (List.range (r * c)).map (newPanel d (panelsWanted o nc)) }

/-- plot.py:340: the label of a component. -/
def compLabel (pre : List Char) (several : Bool) (comp : Nat) : List Char :=
  if several then strip '_' (pre ++ "_c".toList ++ Nat.toDigits 10 comp) else pre

/-- `set_xlim(lo, hi)`: a `None` leaves the side as it is. -/
def setLim (new old : Option F × Option F) : Option F × Option F := (new.1.orElse fun _ => old.1, new.2.orElse fun _ => old.2)

/-- plot.py:511-514 in one axes; `last` says that they are the last ones made. -/
def autoPanel (last : Bool) (p : Panel F) : Panel F :=
  { p with xlim := if p.bar then p.xlim else (none, none), ylim := if last then (none, none) else p.ylim }

/-- plot.py:511-514 `plt.autoscale` acts on the current axes, which are the last ones made; the panels of a figure share the axis
along x (plot.py:293-297). -/
def autoscale (d : Captions F) (ps : List (Panel F)) : List (Panel F) :=
  if d.one = true ∧ d.relax = false then ps.mapIdx fun i p => autoPanel (decide (i + 1 = ps.length)) p else ps

/-- plot.py:515-520 in one axes; `here` says that the component is drawn there. The axis along y is shared for two-dimensional
data (plot.py:293-297). Limits of a colour bar are left out. -/
def limitPanel (d : Captions F) (here : Bool) (p : Panel F) : Panel F :=
  if p.bar then p else
    { p with xlim := setLim d.xlim p.xlim,
             ylim := if here = true ∨ (d.one = false ∧ d.cuts = false) then setLim d.ylim p.ylim else p.ylim }

/-- plot.py:515-520: the limits given, in panel `k`. -/
def setLimits (d : Captions F) (k : Nat) (ps : List (Panel F)) : List (Panel F) :=
  ps.mapIdx fun i p => limitPanel d (decide (i = k)) p

/-- plot.py:339. -/
def panelIndex (o : Opts) (comp : Nat) : Nat := if o.squeeze then 0 else comp + o.startAxes

/-- plot.py:342-484: the component is drawn, with its label. -/
def addLabel (l : List Char) (p : Panel F) : Panel F := { p with drawn := p.drawn ++ [l] }

/-- plot.py:337-524: one component. `axes` is the number of axes before the loop. -/
def drawComp (o : Opts) (d : Captions F) (several : Bool) (axes : Nat) (ps : List (Panel F)) (comp : Nat) :
    Except Err (List (Panel F)) :=
  if panelIndex o comp < axes then
    .ok (setLimits d (panelIndex o comp) (autoscale d
      (ps.modify (panelIndex o comp) (addLabel (compLabel d.labelPrefix several comp)) ++
        (if o.colorbar then [{ bar := true }] else []))))
  else .error .indexError

/-- plot.py:337-524: all components. -/
def drawComps (o : Opts) (d : Captions F) (several : Bool) (axes : Nat) : List (Panel F) → List Nat → Except Err (List (Panel F))
  | ps, [] => .ok ps
  | ps, c :: cs => do drawComps o d several axes (← drawComp o d several axes ps c) cs

/-- plot.py:257-527: one call of `plot` on a figure, for a dataset with `nc` components. -/
def plotFigure (o : Opts) (d : Captions F) (nc : Nat) (fig : Figure F) : Except Err (Figure F) := do
  let fig ← newAxes o d nc fig
  let ps ← drawComps o d (decide ((idxComps o nc).length > 1)) fig.panels.length fig.panels (idxComps o nc)
  return { fig with panels := ps }

/-- The calls of `plot` on one figure one after the other: options, captions and number of components of each. -/
def plotFigures : List (Opts × Captions F × Nat) → Figure F → Except Err (Figure F)
  | [], fig => .ok fig
  | (o, d, nc) :: rest, fig => do plotFigures rest (← plotFigure o d nc fig)

end Plot
end Pgkyl
