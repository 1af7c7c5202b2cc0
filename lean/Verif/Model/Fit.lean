import Verif.Model.NArr
import Mathlib.Analysis.SpecialFunctions.Exp
/-!
# Model of `tools/growth.py` (growth rate fits) and `tools/calc_ke_dke.py`

Numbers are real.  `scipy.optimize.curve_fit` is a parameter.
-/

namespace Pgkyl.Fit

/-- growth.py:9-25 `exp2`. -/
noncomputable def exp2 (x a b : ℝ) : ℝ := a * Real.exp (2 * b * x)

/-- What `scipy.optimize.curve_fit(exp2, x, y, p0)` does for at least two points: the parameters, or an exception;
`.fail` is the `RuntimeError` of a fit that does not converge. -/
abbrev Fitter := List ℝ → List ℝ → Option (ℝ × ℝ) → Except Err (ℝ × ℝ)

/-- Library: `scipy.optimize.curve_fit`: no data is a `ValueError`, fewer points than parameters a `TypeError`. -/
def curveFit (fit : Fitter) (xs ys : List ℝ) (p0 : Option (ℝ × ℝ)) : Except Err (ℝ × ℝ) :=
  if ys.length = 0 then .error .valueError
  else if ys.length < 2 then .error .typeError
  else fit xs ys p0

/-- growth.py:63-64 `ss_res`. -/
noncomputable def ssRes (xs ys : List ℝ) (p : ℝ × ℝ) : ℝ :=
  (List.zipWith (fun x y => (y - exp2 x p.1 p.2) ^ 2) xs ys).sum

/-- growth.py:65 `ss_tot`. -/
noncomputable def ssTot (ys : List ℝ) : ℝ :=
  (ys.map fun y => (y - ys.sum / ys.length) ^ 2).sum

/-- growth.py:66 `R2`; `none` stands for the infinity or NaN of a division by zero, greater than nothing. -/
noncomputable def rSquared (xs ys : List ℝ) (p : ℝ × ℝ) : Option ℝ :=
  if ssTot ys = 0 then none else some (1 - ssRes xs ys p / ssTot ys)

/-- `best_params`: the guess of the caller (a tuple or `None`) or an array of fitted parameters. -/
inductive Best where
  | guess (p : Option (ℝ × ℝ))
  | fitted (p : ℝ × ℝ)

/-- The initial guess handed to `curve_fit`. -/
def Best.start : Best → Option (ℝ × ℝ)
  | .guess p => p
  | .fitted p => some p

/-- growth.py:47-52: the variables of the loop. -/
structure State where
  best : Best
  r2 : ℝ
  n : Nat

/-- growth.py:67-71: the better fit is kept. -/
noncomputable def keep (s : State) (p : ℝ × ℝ) (r : Option ℝ) (n : Nat) : State :=
  match r with
  | some r => if r > s.r2 then ⟨.fitted p, r, n⟩ else s
  | none => s

/-- growth.py:63-79: what is done with the outcome of a fit of `n` points.  The message (line 75) needs
`best_params[1]`: a `TypeError` for `None`. -/
noncomputable def advance (xn yn : List ℝ) (n : Nat) (s : State) : Except Err (ℝ × ℝ) → Except Err State
  | .error .fail => .ok s
  | .error e => .error e
  | .ok p =>
    match (keep s p (rSquared xn yn p) n).best with
    | .guess none => .error .typeError
    | _ => .ok (keep s p (rSquared xn yn p) n)

/-- growth.py:59: the first `n` abscissae, scaled by the last one of all. -/
noncomputable def window (x : List ℝ) (maxX : ℝ) (n : Nat) : List ℝ := (x.take n).map (· / maxX)

/-- growth.py:58-79, one pass of the loop: the fit of the first `n` points. -/
noncomputable def step (fit : Fitter) (x y : List ℝ) (maxX : ℝ) (s : State) (n : Nat) : Except Err State :=
  advance (window x maxX n) (y.take n) n s (curveFit fit (window x maxX n) (y.take n) s.best.start)

/-- growth.py:47-83 `fit_growth(x, y, min_N=, p0=)`: the parameters, `R2` and the number of points of the best fit.  A
tuple or `None` left over in line 81 is a `TypeError`; `np.linspace` refuses a negative number of windows.
(Simplification: `min_N` is not negative.) -/
noncomputable def fitGrowth (fit : Fitter) (x y : List ℝ) (minN : Option Nat) (p0 : Option (ℝ × ℝ)) :
    Except Err ((ℝ × ℝ) × ℝ × Nat) :=
  let lo := minN.getD (x.length / 10)
  match x.getLast? with
  | none => .error .indexError
  | some maxX =>
    if x.length < lo then .error .valueError
    else do
      let s ← (List.range' lo (x.length - lo)).foldlM (step fit x y maxX) ⟨.guess p0, 0, lo⟩
      match s.best with
      | .guess _ => .error .typeError
      | .fitted p => return ((p.1, p.2 / maxX), s.r2, s.n)

/-! ## calc_ke_dke.py -/

/-- A frame: lengths of the axes of the cells, the width of the first cell along each axis and, for each cell, density
and momentum. -/
structure Frame where
  shape : List Nat
  widths : List ℝ
  cells : List (ℝ × ℝ × ℝ × ℝ)

/-- calc_ke_dke.py:52-56: `rho * (u**2 + v**2 + w**2)`. -/
noncomputable def cellEnergy (c : ℝ × ℝ × ℝ × ℝ) : ℝ :=
  let u := c.2.1 / c.1
  let v := c.2.2.1 / c.1
  let w := c.2.2.2 / c.1
  c.1 * (u ^ 2 + v ^ 2 + w ^ 2)

/-- calc_ke_dke.py:57: the entry for one frame; `np.sum(e, axis=(0, 1, 2))` needs three axes (and gives no number for
more). -/
noncomputable def frameEnergy (f : Frame) (scale : ℝ) : Except Err ℝ :=
  if f.shape.length = 3 then .ok ((f.cells.map cellEnergy).sum * scale) else .error .valueError

/-- calc_ke_dke.py:45: the name of the file of frame `c` — the name of the variable, not its value. -/
def frameName (c : Nat) : List Char := "root_file_name".toList ++ (toString c).toList ++ ".bp".toList

/-- calc_ke_dke.py:62-63, one pass: `dEk[0, r] = -(ke[0, i + 1] - ke[0, i]) / dt`, where `dEk` and `ke` are the same
array. -/
noncomputable def dkeStep (dt : ℝ) (a : List ℝ) (p : Nat × Nat) : Except Err (List ℝ) :=
  match a[p.1 + 1]?, a[p.1]? with
  | some y, some x => if p.2 < a.length then .ok (a.set p.2 (-(y - x) / dt)) else .error .indexError
  | _, _ => .error .indexError

/-- calc_ke_dke.py:34-42: `dx*dy*dz`, from the grid of the first frame. -/
noncomputable def cellSize (f : Frame) (dim : Nat) : Except Err ℝ :=
  match f.widths with
  | dx :: dy :: rest =>
    if dim = 3 then
      match rest with
      | dz :: _ => .ok (dx * dy * dz)
      | [] => .error .indexError
    else .ok (dx * dy * 1)
  | _ => .error .indexError

/-- calc_ke_dke.py:30-66 `calc_ke_dke`; `load` opens a file by name.  The two results are one array.
(Simplifications: frame numbers are not negative and the first is not after the last.) -/
noncomputable def keDke (load : List Char → Except Err Frame) (root : List Char) (init final dim : Nat)
    (vol t0 t1 : ℝ) : Except Err (List ℝ × List ℝ) := do
  let cell ← cellSize (← load (root ++ (toString init).toList ++ ".bp".toList)) dim
  let dt := (t1 - t0 + 1) / (((final - init + 1 : Nat)) : ℝ)
  let ke ← (List.range' init (final + 1 - init)).mapM fun c => do frameEnergy (← load (frameName c)) (cell * vol)
  let out ← ((List.range' init (final - 1 - init)).zipIdx).foldlM (dkeStep dt) ke
  return (out, out)

end Pgkyl.Fit
