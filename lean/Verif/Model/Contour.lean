import Verif.Model.Animate
import Verif.Model.Plot
import Verif.Model.GkylReader
/-!
# Model of the common colour range and the contour levels of `plot`

`src/postgkyl/commands/plot.py:168-208` and `src/postgkyl/output/plot.py:351-367`.  Reading a decimal number (`toFloat`) and writing one
(`fmt`) are parameters.
-/

namespace Pgkyl
namespace Plot

abbrev Str := List Char

/-! ## Levels -/

/-- What `contour` is given: a number of levels, or the levels. -/
inductive Levels (F : Type) where
  | count (n : Int)
  | values (l : List F)

section
variable {F : Type} [Add F] [Sub F] [Mul F] [Div F] [IntCast F]

/-- `float(s)`. -/
def asFloat (toFloat : Str → Option F) (s : Str) : Except Err F :=
  match toFloat s with
  | some x => .ok x
  | none => .error .valueError

/-- output/plot.py:356-362: levels from a text: `start:end:number`, or values with commas, of which empty ones are dropped.  (The values
are handed on as texts; `contour` turns them into numbers.) -/
def levelsOf (toFloat : Str → Option F) (t : Str) : Except Err (Levels F) :=
  if ':' ∈ t then
    match splitOn ':' t with
    | a :: b :: c :: _ => do
      let lo ← asFloat toFloat a
      let hi ← asFloat toFloat b
      match pyInt c with
      | none => .error .valueError
      | some n => if n < 0 then .error .valueError else return .values (GkylReader.linspace lo hi n.toNat)
    | _ => .error .indexError
  else do
    let l ← ((splitOn ',' t).filter (· ≠ [])).mapM (asFloat toFloat)
    return .values l

/-- output/plot.py:352-363: the levels; a number of zero and an empty text count as not given. -/
def contourLevels (toFloat : Str → Option F) (cnlevels : Option Int) (clevels : Option Str) : Except Err (Levels F) :=
  if cnlevels.getD 0 ≠ 0 then .ok (.count (cnlevels.getD 0 - 1))
  else if clevels.getD [] ≠ [] then levelsOf toFloat (clevels.getD [])
  else .ok (.count 10)

/-- output/plot.py:365-367: a single level has no colour bar. -/
def levelsBar (colorbar : Bool) : Levels F → Bool
  | .values [_] => false
  | _ => colorbar

end

/-! ## The colour range -/

section
open Anim (cutoffRange)

/-- commands/plot.py:178-188, one dataset: the range so far and the extreme values so far. -/
noncomputable def widenAll (zscale : ℝ) (a : Option (ℝ × ℝ) × List ℝ) (values : List ℝ) : Except Err (Option (ℝ × ℝ) × List ℝ) := do
  let r ← widen zscale a.1 values
  let lo ← minOf (values.map (· * zscale))
  let hi ← maxOf (values.map (· * zscale))
  return (r, a.2 ++ [lo, hi])

/-- The options: `--multiblock`, `--globalrange`, `--cutoffglobalrange`, `--zscale`, `--zmin`, `--zmax`. -/
structure RangeOpts where
  multiblock : Bool := false
  globalrange : Bool := false
  cutoff : Option ℝ := none
  zscale : ℝ := 1
  zmin : Option ℝ := none
  zmax : Option ℝ := none

/-- commands/plot.py:174: whether a common range is used; lines 169-171 switch it on for several blocks. -/
def RangeOpts.common (o : RangeOpts) : Prop := (o.multiblock = true ∧ o.cutoff = none) ∨ o.globalrange = true ∨ o.cutoff.getD 0 ≠ 0

/-- commands/plot.py:190-195: the range after the loop. -/
noncomputable def cutRange (cutoff : ℝ) (a : Option (ℝ × ℝ) × List ℝ) : Except Err (Option (ℝ × ℝ)) :=
  if cutoff ≠ 0 then (cutoffRange cutoff a.2).map some else .ok a.1

open Classical in
/-- commands/plot.py:168-203: `zmin` and `zmax` of every plot. -/
noncomputable def plotRange (o : RangeOpts) (datasets : List (List ℝ)) : Except Err (Option ℝ × Option ℝ) :=
  if o.common then do
    let a ← datasets.foldlM (widenAll o.zscale) (none, [])
    let r ← cutRange (o.cutoff.getD 0) a
    return (o.zmin.or (r.map (·.1)), o.zmax.or (r.map (·.2)))
  else .ok (o.zmin, o.zmax)

/-- commands/plot.py:206-208: the levels of contours of several blocks. -/
def blockLevels {F : Type} (fmt : Option F → Str) (multiblock contour : Bool) (clevels : Option Str) (z : Option F × Option F) : Option Str :=
  if multiblock ∧ contour ∧ clevels = none then some (fmt z.1 ++ ":".toList ++ fmt z.2 ++ ":10".toList) else clevels

end
end Plot
end Pgkyl
