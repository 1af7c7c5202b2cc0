import Verif.Model.Spectral
import Mathlib.Algebra.Field.Basic
/-!
# The Butterworth filter and the interactive cut-off of the FFT filter

Models the rest of `tools/filters.py`.
-/

namespace Pgkyl.Filters

section
variable {F : Type} [_root_.Field F] [DecidableEq F]

/-- `c[0] h[0] + c[1] h[1] + …`, as far as both go. -/
def weighted (c h : List F) : F := (List.zipWith (· * ·) c h).sum

/-- Library: the recursion of `scipy.signal.lfilter(b, a, data)` along a one-dimensional array,
`a[0] y[n] = b[0] x[n] + b[1] x[n-1] + … - a[1] y[n-1] - …` with zeros before the first sample; `xs` and `ys` are the samples
and results so far, the latest first. -/
def recur (b : List F) (a0 : F) (a : List F) : List F → List F → List F → List F
  | _, _, [] => []
  | xs, ys, x :: rest =>
    let y := (weighted b (x :: xs) - weighted a ys) / a0
    y :: recur b a0 a (x :: xs) (y :: ys) rest

/-- Library: `scipy.signal.lfilter(b, a, data)`; the first coefficient of `a` must not be zero (`ValueError`). -/
def lfilter (b a data : List F) : Except Err (List F) :=
  match a with
  | [] => .error .valueError
  | a0 :: a => if a0 = 0 then .error .valueError else .ok (recur b a0 a [] [] data)

/-- filters.py:60-64 `_butter_lowpass(cutoff, fs, order)`: `butter` is `scipy.signal.butter(order, Wn, btype="low",
analog=False)`, which is not modelled.  A cut-off `None` cannot be divided (`TypeError`). -/
def butterLowpass (butter : Nat → F → Except Err (List F × List F)) (cutoff : Option F) (fs : F) (order : Nat) :
    Except Err (List F × List F) :=
  let nyq := 1 / 2 * fs
  match cutoff with
  | none => .error .typeError
  | some cutoff => if nyq = 0 then .error .fail else butter order (cutoff / nyq)

/-- filters.py:67-70 `_butter_lowpass_filter`. -/
def butterLowpassFilter (butter : Nat → F → Except Err (List F × List F)) (data : List F) (cutoff : Option F) (fs : F)
    (order : Nat) : Except Err (List F) := do
  let c ← butterLowpass butter cutoff fs order
  lfilter c.1 c.2 data

/-- filters.py:73-86 `butter_filtering(data, dt, cutoff)` of a one-dimensional array. -/
def butterFiltering (butter : Nat → F → Except Err (List F × List F)) (data : List F) (dt : F := 1)
    (cutoff : Option F := none) : Except Err (List F) :=
  if dt = 0 then .error .fail else butterLowpassFilter butter data cutoff (1 / dt) 6

end

/-! ## The interactive cut-off -/

/-- The global name `ix` of filters.py: not bound yet, or the horizontal coordinate of the last click, `None` for a click
outside of the axes (filters.py:13-16 `_click_coords`). -/
abbrev Ix := Option (Option ℝ)

/-- filters.py:53-57: the cut-off is compared with the frequencies (`TypeError` if it is `None`); see `Spectral.fftFilter`. -/
noncomputable def filterAt (data : List ℝ) (dt : ℝ) (cutoff : Option ℝ) : Except Err (List ℂ) :=
  match cutoff with
  | none => .error .typeError
  | some cutoff => .ok (Spectral.fftFilter data dt cutoff)

/-- filters.py:19-57 `fft_filtering(data, dt, cutoff)` in a session where `ix` is as given.  `click` is what the user does with
the window that is shown if there is no cut-off: close it, or click, which binds `ix` and closes it.  The result, or the
error, and `ix` afterwards.  `np.fft.fftfreq` divides by zero for no data or `dt = 0`.  An unbound global is a `NameError`
(here `unboundLocal`). -/
noncomputable def fftFiltering (ix : Ix) (data : List ℝ) (dt : ℝ) (cutoff : Option ℝ) (click : Option (Option ℝ)) :
    Except Err (List ℂ) × Ix :=
  if data.length * dt = 0 then (.error .fail, ix)
  else match cutoff with
    | some c => (filterAt data dt (some c), ix)
    | none =>
      let ix := click.or ix
      match ix with
      | none => (.error .unboundLocal, ix)
      | some c => (filterAt data dt c, ix)

/-- One call of `fft_filtering`, and what the user does with the window, if there is one. -/
structure Call where
  data : List ℝ
  dt : ℝ
  cutoff : Option ℝ
  click : Option (Option ℝ)

/-- The calls of a session, one after another, whether they raise errors or not: all results. -/
noncomputable def session : Ix → List Call → List (Except Err (List ℂ))
  | _, [] => []
  | ix, c :: cs =>
    let (r, ix) := fftFiltering ix c.data c.dt c.cutoff c.click
    r :: session ix cs

end Pgkyl.Filters
