import Verif.Model.Plot
/-!
# Model of plotting: axis labels, arrows, streamlines, line-outs and colour limits

The parts of `src/postgkyl/output/plot.py` that `Verif.Model.Plot` leaves out: the texts of the axis labels, and what is
handed to `quiver`, `streamplot`, `plot` (for line-outs) and `pcolormesh` (colour limits).  What matplotlib makes of
them is not modelled.
-/

namespace Pgkyl
namespace Plot

abbrev Text := List Char

/-! ## Axis labels -/

/-- plot.py:170: the names of the directions. -/
def axesLabels : List Text := (List.range 6).map fun d => "$z_".toList ++ Nat.toDigits 10 d ++ ['$']

/-- `np.delete(l, idx)` with `idx` the positions where the extent is at most one; entries beyond the extents stay. -/
def deleteSmall {α : Type} : List α → List Nat → List α
  | l, [] => l
  | [], _ => []
  | x :: l, n :: ns => if n ≤ 1 then deleteSmall l ns else x :: deleteSmall l ns

/-- plot.py:170-186: the names of the directions that are left. -/
def labelsLeft (grid : Nat) (cells : List Nat) : List Text :=
  if grid > (cells.filter (· ≠ 1)).length then deleteSmall axesLabels cells else axesLabels

section
variable {F : Type} [OfNat F 0] [OfNat F 1] [DecidableEq F]

/-- plot.py:211-219: the default label of the horizontal axis.  `fmt` prints a number as `:.2e` does.  `lineouts` is the
argument of that name. -/
def xLabel (fmt : F → Text) (labels : List Text) (lineouts : Option Nat) (xshift xscale : F) : Except Err Text :=
  match labels[if lineouts = some 1 then 1 else 0]? with
  | none => .error .indexError
  | some name =>
    .ok (if xshift ≠ 0 ∧ xscale ≠ 1 then '(' :: name ++ " + ".toList ++ fmt xshift ++ ") $\\times$ ".toList ++ fmt xscale
      else if xshift ≠ 0 then name ++ " + ".toList ++ fmt xshift
      else if xscale ≠ 1 then name ++ " $\\times$ ".toList ++ fmt xscale
      else name)

/-- plot.py:221-229: the default label of the vertical axis of two-dimensional data without line-outs.  The second and
third test look at the shift and scale of the horizontal axis, as the code does. -/
def yLabel (fmt : F → Text) (labels : List Text) (xshift xscale yshift yscale : F) : Except Err Text :=
  match labels[1]? with
  | none => .error .indexError
  | some name =>
    .ok (if yshift ≠ 0 ∧ yscale ≠ 1 then '(' :: name ++ " + ".toList ++ fmt yshift ++ ") $\\times$ ".toList ++ fmt yscale
      else if xshift ≠ 0 then name ++ " + ".toList ++ fmt yshift
      else if xscale ≠ 1 then name ++ " $\\times$ ".toList ++ fmt yscale
      else name)

/-- plot.py:211-230: both labels; a label given by the user is kept.  No vertical label is made for one-dimensional
data or line-outs. -/
def axisLabels (fmt : F → Text) (xlabel ylabel : Option Text) (grid : Nat) (cells : List Nat) (lineouts : Option Nat)
    (xshift xscale yshift yscale : F) : Except Err (Text × Option Text) := do
  let labels := labelsLeft grid cells
  let x ← match xlabel with
    | some t => Except.ok t
    | none => xLabel fmt labels lineouts xshift xscale
  let y ← match ylabel with
    | some t => Except.ok (some t)
    | none =>
      if (cells.filter (· ≠ 1)).length = 2 ∧ lineouts = none then
        (yLabel fmt labels xshift xscale yshift yscale).map some
      else .ok none
  return (x, y)

/-- plot.py:231-237: the label of the colour bar (`""` is falsy).  `fmt3` prints a number as `:.3e` does. -/
def colourLabel (fmt3 : F → Text) (clabel : Option Text) (zscale : F) : Option Text :=
  if zscale ≠ 1 then
    match clabel with
    | some (c :: cs) => some (c :: cs ++ " $\\times$ ".toList ++ fmt3 zscale)
    | _ => some ("$\\times$ ".toList ++ fmt3 zscale)
  else clabel

end

section
variable {F : Type} [Add F] [Mul F]

/-! ## Arrows and streamlines -/

/-- The length of `l[start::step]` for a list of length `n`. -/
def strideLen (start step n : Nat) : Nat := (n - start + step - 1) / step

/-- `l[start::step]`; a step of 0 is a ValueError. -/
def stride {α : Type} (start step : Nat) (l : List α) : Except Err (List α) :=
  if step = 0 then .error .valueError
  else .ok ((List.range (strideLen start step l.length)).filterMap fun i => l[start + step * i]?)

/-- plot.py:388-389: one entry of the strided values. -/
def strideAt (s : Scales F) (v : NArr F) (start step comp : Nat) : List Nat → Option F
  | [j, i] => (v.get? [start + step * i, start + step * j, comp]).map (place s.zshift s.zscale)
  | _ => none

/-- plot.py:388-389: `values[start::step, start::step, comp].transpose()`, shifted and scaled (`step` is not 0). -/
def strideValues (s : Scales F) (v : NArr F) (start step comp : Nat) : NArr F :=
  match v.shape with
  | [m, n, _] => NArr.ofFn [strideLen start step n, strideLen start step m] (strideAt s v start step comp)
  | _ => v

/-- plot.py:377-390: what is given to `quiver` for the pair `comp` of components: the positions along both directions
and the two matrices of vector components.  The grid is one-dimensional along each direction (lines 385-386, for
two-dimensional arrays, are left out). -/
def quiver (half : F) (s : Scales F) (p : Prep F) (comp : Nat) :
    Except Err (List F × List F × NArr F × NArr F) :=
  match p.grid with
  | gx :: gy :: _ => do
    let skip := max gx.length gy.length / 15
    let skip2 := skip / 2
    let g ← nodalGrid half p.grid p.cells
    match g with
    | x :: y :: _ => do
      let xs ← stride skip2 skip x
      let ys ← stride skip2 skip y
      return (xs.map (place s.xshift s.xscale), ys.map (place s.yshift s.yscale),
        strideValues s p.values skip2 skip (2 * comp), strideValues s p.values skip2 skip (2 * comp + 1))
    | _ => .error .indexError
  | _ => .error .indexError

/-- plot.py:396-399: the magnitude that colours the streamlines; neither shifted nor scaled. -/
def magnitude (sqrt : F → F) (v : NArr F) (comp : Nat) : NArr F :=
  NArr.ofFn v.shape.dropLast.reverse fun idx => do
    let a ← v.get? (idx.reverse ++ [2 * comp])
    let b ← v.get? (idx.reverse ++ [2 * comp + 1])
    return sqrt (a * a + b * b)

/-- plot.py:392-407: what is given to `streamplot` without a colour of the user: positions, the two matrices of vector
components, and the matrix of colours. -/
def streamline (sqrt : F → F) (half : F) (s : Scales F) (p : Prep F) (comp : Nat) :
    Except Err (List F × List F × NArr F × NArr F × NArr F) := do
  let g ← nodalGrid half p.grid p.cells
  match g with
  | x :: y :: _ => return (x.map (place s.xshift s.xscale), y.map (place s.yshift s.yscale),
      zValues s p.values (2 * comp), zValues s p.values (2 * comp + 1), magnitude sqrt p.values comp)
  | _ => .error .indexError

/-! ## Line-outs -/

/-- One line: its shade between 0 and 1, abscissae and ordinates. -/
structure LineOut (F : Type) where
  shade : F
  xs : List F
  ys : List F
deriving DecidableEq

variable [Div F] [NatCast F]

/-- plot.py:427: `line / (num_lines - 1)`; a single line is a ZeroDivisionError. -/
def shade (line numLines : Nat) : Except Err F :=
  if numLines = 1 then .error .fail else .ok ((line : F) / ((numLines - 1 : Nat) : F))

/-- plot.py:424-433: `values[tuple(idx)]` for line `k`: along the first direction for `dir` 0, else along the second. -/
def lineValues (v : NArr F) (dir k comp : Nat) : List F :=
  match v.shape with
  | [m, n, _] => (List.range (if dir = 0 then m else n)).filterMap fun i =>
      v.get? (if dir = 0 then [i, k, comp] else [k, i, comp])
  | _ => []

/-- plot.py:426-435: the lines. -/
def lineLoop (s : Scales F) (v : NArr F) (dir comp : Nat) (x : List F) (num : Nat) : Except Err (List (LineOut F)) :=
  (List.range num).mapM fun k => do
    let c ← shade (F := F) k num
    return ⟨c, x.map (place s.xshift s.xscale), (lineValues v dir k comp).map (place s.yshift s.yscale)⟩

/-- `num_lines` (plot.py:410). -/
def numLines (v : NArr F) (dir : Nat) : Nat :=
  match v.shape with
  | [m, n, _] => if dir = 0 then n else m
  | _ => 0

/-- plot.py:409-441: the lines along direction `dir` and the two ends of the colour bar. -/
def lineouts (half : F) (s : Scales F) (p : Prep F) (dir comp : Nat) :
    Except Err (List (LineOut F) × F × F) := do
  let g ← nodalGrid half p.grid p.cells
  match g with
  | g0 :: g1 :: _ => do
    let x := if dir = 0 then g0 else g1
    let b := if dir = 0 then g1 else g0
    match b.head?, b.getLast? with
    | some lo, some hi => do
      let ls ← lineLoop s p.values dir comp x (numLines p.values dir)
      return (ls, place s.yshift s.yscale lo, place s.yshift s.yscale hi)
    | _, _ => .error .indexError
  | _ => .error .indexError

end

/-! ## Colour limits -/

/-- How values are mapped to colours. -/
inductive Norm (F : Type) where
  | linear (lo hi : Option F)
  | log (lo hi : Option F)
  | symlog (threshold lo hi : F)
deriving DecidableEq

section
variable {F : Type} [LT F] [DecidableLT F] [Neg F] [OfNat F 0] [OfNat F 1000] [Div F]

/-- `abs` -/
def absOf (x : F) : F := if x < 0 then -x else x

/-- plot.py:462-478 for one component whose drawn values are `z`: the limits from now on, and the mapping to colours.
A threshold of 0 is rejected by matplotlib (`ValueError`). -/
def colours (diverging logz : Bool) (lims : Option F × Option F) (z : List F) :
    Except Err ((Option F × Option F) × Norm F) := do
  if diverging then
    let m ← maxOf (z.map absOf)
    if logz then
      if 0 < m / 1000 then return ((some (-m), some m), .symlog (m / 1000) (-m) m) else .error .valueError
    else return ((some (-m), some m), .linear (some (-m)) (some m))
  else if logz then return (lims, .log lims.1 lims.2)
  else return (lims, .linear lims.1 lims.2)

/-- plot.py:444-450: which ends of the colour bar are drawn as arrows: (lower end, upper end). -/
def extends_ (lims : Option F × Option F) : Bool × Bool := (lims.1.isSome, lims.2.isSome)

/-- plot.py:338-490: the mapping to colours and the arrows of the colour bar of each component; the limits are kept in
variables that live on from one component to the next. -/
def colourLoop (diverging logz : Bool) (lims : Option F × Option F) :
    List (List F) → Except Err (List (Norm F × (Bool × Bool)))
  | [] => .ok []
  | z :: zs => do
    let r ← colours diverging logz lims z
    return (r.2, extends_ lims) :: (← colourLoop diverging logz r.1 zs)

end
end Plot
end Pgkyl
