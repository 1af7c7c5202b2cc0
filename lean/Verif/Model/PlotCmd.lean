import Verif.Model.DataSpace
import Verif.Model.Text
/-!
# Model of the `plot` command: figures, legend labels and saved pictures

`src/postgkyl/commands/plot.py:105-302`.  A figure is the list of what has been drawn into it; what a drawing looks like is
the subject of `Verif.Model.Plot` and `Verif.Model.PlotKinds`, and errors of drawing are left out here.  `plt.savefig`
writes the current figure (the one used last); a file written again is overwritten.  Matplotlib adds `.png` to a file name
without extension, which is left out.
-/

namespace Pgkyl
namespace PlotCmd

abbrev Text := List Char

/-- The options of `plot` that matter here; texts that are empty are not set (falsy).  `batch` is the prefix of batch
mode (pgkyl.py:109-114). -/
structure Opts where
  figure : Option Text := none
  subplots : Bool := false
  multiblock : Bool := false
  save : Bool := false
  saveas : Option Text := none
  saveframes : Option Text := none
  legend : Option Text := none
  forceLegend : Bool := false
  batch : Option Text := none

/-- Where to draw: a new figure, the figure of that number, or the figure numbered as the dataset. -/
inductive Where where
  | fresh
  | number (n : Int)
  | dataset
deriving DecidableEq

/-- commands/plot.py:141-143, 159-166 and 227-235, and output/plot.py:243-254: the figure option.  A text that is not a number
is a ValueError (raised when the first dataset is drawn; here also if there is none). -/
def whereTo (o : Opts) : Except Err Where :=
  if o.multiblock then .ok (.number 0)
  else match o.figure with
  | none => if o.subplots then .ok (.number 0) else .ok .fresh
  | some t =>
    if t = "dataset".toList ∨ t = "set".toList ∨ t = "s".toList then .ok .dataset
    else match pyInt t with
      | some n => .ok (.number n)
      | none => .error .valueError

/-- One drawing: the dataset and its legend label. -/
abbrev Drawing := Nat × Text

/-- The figures by number, the current one, the name under which to save, and the files written. -/
structure State where
  figs : List (Int × List Drawing) := []
  current : Option Int := none
  name : Text := []
  files : List (Text × List Drawing) := []

/-- `plt.figure()`: the next number. -/
def nextNumber (figs : List (Int × List Drawing)) : Int :=
  match figs with
  | [] => 1
  | f :: fs => (fs.foldl (fun m g => max m g.1) f.1) + 1

/-- The entry of a key in an association list. -/
def find? {κ ν : Type} [DecidableEq κ] (k : κ) : List (κ × ν) → Option ν
  | [] => none
  | e :: es => if e.1 = k then some e.2 else find? k es

/-- Set the entry of a key. -/
def put {κ ν : Type} [DecidableEq κ] (k : κ) (v : ν) : List (κ × ν) → List (κ × ν)
  | [] => [(k, v)]
  | e :: es => if e.1 = k then (k, v) :: es else e :: put k v es

/-- Draw into figure `n`, which becomes the current one. -/
def draw (n : Int) (d : Drawing) (st : State) : State :=
  { st with figs := put n ((find? n st.figs).getD [] ++ [d]) st.figs, current := some n }

/-- `plt.savefig(name)`; without a figure an empty one is made. -/
def savefig (name : Text) (st : State) : State :=
  { st with files := put name ((st.current.bind fun n => find? n st.figs).getD []) st.files }

/-- commands/plot.py:210-214: the labels of the option `--legend`. -/
def legendLabels (o : Opts) : Option (List Text) :=
  match o.legend with
  | some (c :: cs) => some ((splitOn ',' (c :: cs)).map Text.strip)
  | _ => none

/-- commands/plot.py:237-245: the legend label of a dataset; `n` is the number of datasets. -/
def labelFor (o : Opts) (n i : Nat) (own : Text) : Text :=
  match (legendLabels o).bind fun ls => ls[i]? with
  | some l => l
  | none => if 1 < n ∨ o.forceLegend then own else []

/-- `kwargs["save"] or kwargs["saveas"]` -/
def saving (o : Opts) : Bool :=
  o.save || (match o.saveas with
    | some (_ :: _) => true
    | _ => false)

/-- commands/plot.py:252-265: the name for saving.  For a dataset without a file the code reads an entry of the context
that is never set: KeyError. -/
def nextName (o : Opts) (cur file : Text) : Except Err Text :=
  match o.saveas with
  | some (c :: cs) => .ok (c :: cs)
  | _ =>
    match file with
    | [] => .error .keyError
    | f :: fs => .ok ((if cur ≠ [] then cur ++ ['_'] else []) ++ (splitOn '.' (f :: fs)).headD [])

/-- `f"{prefix:s}_{i:d}.png"` -/
def frameName (p : Text) (i : Nat) : Text := p ++ '_' :: Nat.toDigits 10 i ++ ".png".toList

/-- commands/plot.py:252-271: naming and saving one dataset; `own` tells whether every dataset has its own figure. -/
def saveOne (o : Opts) (own : Bool) (file : Text) (st : State) : Except Err State :=
  if saving o then do
    let name ← nextName o st.name file
    return if own then { savefig name st with name := [] } else { st with name := name }
  else .ok st

/-- commands/plot.py:273-277 and 279-285: saving with a prefix. -/
def saveFrame (p : Option Text) (i : Nat) (st : State) : State :=
  match p with
  | some p => { savefig (frameName p i) st with name := frameName p i }
  | none => st

/-- commands/plot.py:273: an empty prefix is falsy. -/
def framePrefix (o : Opts) : Option Text := o.saveframes.filter (· ≠ [])

/-- The number of the figure for dataset `i` of its tag (commands/plot.py:227-234). -/
def figureFor (w : Where) (i : Nat) (figs : List (Int × List Drawing)) : Int :=
  match w with
  | .fresh => nextNumber figs
  | .number n => n
  | .dataset => (i : Int)

/-- commands/plot.py:226-287: one dataset, which is number `i` of its tag and object `id`. -/
def plotOne (o : Opts) (w : Where) (n i id : Nat) (own file : Text) (st : State) : Except Err State := do
  let st := draw (figureFor w i st.figs) (id, labelFor o n i own) st
  let st ← saveOne o (decide (w = .fresh)) file st
  return saveFrame o.batch i (saveFrame (framePrefix o) i st)

variable {F : Type}

/-- commands/plot.py:226-287: the body of the loop. -/
def plotBody (o : Opts) (w : Where) (n : Nat) (s : Space F) (st : State) (i id : Nat) : Except Err State :=
  match s.heap[id]? with
  | some d => plotOne o w n i id d.getLabel d.fileName st
  | none => .error .fail

/-- commands/plot.py:290-293: the last picture. -/
def finish (o : Opts) (st : State) : State := if saving o then savefig st.name st else st

/-- commands/plot.py:105-302: figures and files after the command. -/
def plotCmd (o : Opts) (use : Option Tag) (s : Space F) : Except Err State := do
  let w ← whereTo o
  let n ← s.getNumDatasets none true
  let st ← Space.iterate (σ := State) (fun _ => s) use true true .none (plotBody o w n s) {}
  return finish o st

end PlotCmd
end Pgkyl
