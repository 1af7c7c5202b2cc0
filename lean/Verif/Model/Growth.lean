import Verif.Model.Fit
import Verif.Model.DataSpace
/-!
# Model of `commands/growth.py`

Numbers are real; `scipy.optimize.curve_fit` is a parameter (see `Model/Fit`).
-/

namespace Pgkyl.Growth
open Fit

/-- growth.py:13-20: the options.  The text of `--guess` is already split into its two numbers; `--instantaneous` only draws a
picture and is not modelled. -/
structure Opts where
  guess : Option (ℝ × ℝ) := none
  minN : Option Nat := none
  dataset : Bool := false
  dir : Option Int := none
  tag : Option Tag := none
  label : List Char := []

/-- commands/growth.py:34-46: the number of rates.  `num_dims` counts the axes of the values, components included, so the
directions matter for one-dimensional data only. -/
def numRates (o : Opts) (shape : List Nat) : Except Err Nat :=
  match shape with
  | [n, nc] => .ok (if o.dir = some 0 then nc else if o.dir = some 1 then n else 1)
  | [] | [_] => .error .typeError
  | _ => .ok 1

/-- `values[...]` along one axis. -/
def entries (v : NArr ℝ) (n : Nat) (idx : Nat → List Nat) : Except Err (List ℝ) :=
  (List.range n).mapM fun i => match v.get? (idx i) with
    | some x => .ok x
    | none => .error .indexError

/-- commands/growth.py:55-64: the ordinates of fit `k`.  (Simplifications: without a direction only one-dimensional data; with
one, at most two-dimensional data; at least two points, as `squeeze` drops an axis with one.) -/
def ordinates (o : Opts) (v : NArr ℝ) (k : Nat) : Except Err (List ℝ) :=
  if o.dir = some 0 then
    match v.shape with
    | [_, _] => .error .indexError
    | [n0, _, _] => entries v n0 fun i => [i, k, 0]
    | _ => .error .fail
  else if o.dir = some 1 then
    match v.shape with
    | [_, _] => .error .indexError
    | [_, n1, _] => entries v n1 fun i => [k, i, 0]
    | _ => .error .fail
  else
    match v.shape with
    | [n, _] => entries v n fun i => [i, 0]
    | _ => .error .fail

/-- commands/growth.py:55-57: the abscissae: the grid along the first axis, along the second one with `--dir 1`. -/
def abscissae (o : Opts) (g : List (NArr ℝ)) : Except Err (List ℝ) :=
  match g with
  | [] => .error .indexError
  | t :: rest =>
    if o.dir = some 1 then
      match rest with
      | [] => .error .indexError
      | u :: _ => .ok u.data
    else .ok t.data

/-- commands/growth.py:48-66: the fit with number `k`: scale and rate. -/
noncomputable def oneFit (fit : Fitter) (o : Opts) (g : List (NArr ℝ)) (v : NArr ℝ) (k : Nat) : Except Err (ℝ × ℝ) := do
  let x ← abscissae o g
  let y ← ordinates o v k
  return (← fitGrowth fit x y o.minN o.guess).1

/-- commands/growth.py:70: the middle points of the time intervals. -/
noncomputable def midpoints (t : List ℝ) : List ℝ := List.zipWith (fun a b => 1 / 2 * (a + b)) t.dropLast t.tail

/-- commands/growth.py:68-74: the dataset with the fitted exponential. -/
noncomputable def fitSet (d : GData ℝ) (t : NArr ℝ) (p : ℝ × ℝ) : Except Err (GData ℝ) :=
  (GData.new "growth".toList "Fit".toList d.ctx).push [t]
    ⟨[(midpoints t.data).length, 1], (midpoints t.data).map fun x => exp2 x p.1 p.2⟩

/-- commands/growth.py:92-100: the dataset with the rates, over their numbers. -/
def rateSet (d : GData ℝ) (tag : Tag) (label : List Char) (rates : List ℝ) : Except Err (GData ℝ) :=
  (GData.new tag label d.ctx).push [NArr.ofList ((List.range rates.length).map fun (k : Nat) => (k : ℝ))] ⟨[rates.length, 1], rates⟩

/-- commands/growth.py:68-75: with `--dataset`, a dataset for every fit. -/
noncomputable def fitSets (o : Opts) (d : GData ℝ) (g : List (NArr ℝ)) (fits : List (ℝ × ℝ)) : Except Err (List (GData ℝ)) :=
  if o.dataset then
    match g with
    | [] => .error .indexError
    | t :: _ => fits.mapM (fitSet d t)
  else .ok []

/-- commands/growth.py:97-102: with `--tag`, a dataset with the rates. -/
def rateSets (o : Opts) (d : GData ℝ) (rates : List ℝ) : Except Err (List (GData ℝ)) :=
  match o.tag with
  | some (c :: cs) => (rateSet d (c :: cs) o.label rates).map fun r => [r]
  | _ => .ok []

/-- commands/growth.py:31-102: the datasets made from one dataset, in the order in which they are added. -/
noncomputable def sets (fit : Fitter) (o : Opts) (d : GData ℝ) : Except Err (List (GData ℝ)) :=
  match d.grid, d.values with
  | some g, some v => do
    let n ← numRates o v.shape
    let fits ← (List.range n).mapM (oneFit fit o g v)
    let fitted ← fitSets o d g fits
    let rates ← rateSets o d (fits.map (·.2))
    return fitted ++ rates
  | _, _ => .error .typeError

/-- commands/growth.py:22-104 `growth`. -/
noncomputable def growthCmd (fit : Fitter) (o : Opts) (use : Option Tag) (s : Space ℝ) : Except Err (Space ℝ) :=
  Space.iterate id use false true .none (fun s _ i =>
    match s.heap[i]? with
    | none => .ok s
    | some d => (sets fit o d).map fun rs => rs.foldl Space.addNew s) s

end Pgkyl.Growth
