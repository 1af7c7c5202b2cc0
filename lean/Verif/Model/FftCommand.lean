import Verif.Model.Spectral
import Verif.Model.DataSpace
/-!
# Model of `commands/fft.py`

`fftCmd` is the command with `--psd`, on a store of real numbers.  Without it the values are complex numbers: `fftCmdC`, on a
store of complex numbers in which the arrays of real numbers are those with real entries.
-/

namespace Pgkyl.FftCmd
open Spectral

/-- tools/fft.py:61-66, 85-117: the grid and the values that are returned or pushed.  The integer 0 at the end of the grid list
(line 87) is an array without axes here. -/
def pushed : Out → Except Err (List (NArr ℝ) × NArr ℝ)
  | .power freq zeros v => .ok (freq.map NArr.ofList ++ List.replicate zeros (NArr.scalar 0), v)
  | .amplitudes _ _ => .error .fail

/-- commands/fft.py:26-34 for one dataset: the dataset afterwards and the datasets to add.  tools/fft.py:43 takes the axes out
of the list of the dataset itself, in either case. -/
noncomputable def effect (iso : Bool) (tag : Option Tag) (label : List Char) (d : GData ℝ) :
    Except Err (GData ℝ × List (GData ℝ)) :=
  match d.grid, d.values with
  | some g, some v => do
    let (out, g') ← fft (g.map (·.data)) v true iso
    let (f, p) ← pushed out
    let src : GData ℝ := { d with grid := some (g'.map NArr.ofList) }
    match tag with
    | some (c :: cs) => do
      let r ← (GData.new (c :: cs) label d.ctx).push f p
      return (src, [r])
    | _ => do
      let r ← src.push f p
      return (r, [])
  | _, _ => .error .typeError

/-- commands/fft.py:17-38 `fft --psd`. -/
noncomputable def fftCmd (iso : Bool) (use tag : Option Tag) (label : List Char) (s : Space ℝ) : Except Err (Space ℝ) :=
  Space.iterate id use false true .none (fun s _ i =>
    match s.heap[i]? with
    | none => .ok s
    | some d => (effect iso tag label d).map fun e => e.2.foldl Space.addNew (s.update i fun _ => e.1)) s

/-! ## Without `--psd` -/

/-- Library: NumPy orders complex numbers by their real parts, then by their imaginary parts (`np.min`, `np.max`). -/
noncomputable scoped instance : Min ℂ where
  min a b := open Classical in if a.re < b.re ∨ (a.re = b.re ∧ a.im ≤ b.im) then a else b

/-- The same for the larger one. -/
noncomputable scoped instance : Max ℂ where
  max a b := open Classical in if a.re < b.re ∨ (a.re = b.re ∧ a.im ≤ b.im) then b else a

/-- tools/fft.py:53-56 and 77-80: `ft_values[..., comp] = fftn(values[..., comp])` for every component (the last index), of real
or complex values. -/
noncomputable def transformC (values : NArr ℂ) : NArr ℂ :=
  NArr.ofFn values.shape fun idx =>
    some (dftAt values.shape.dropLast (fun j => (values.get? (j ++ [idx.getLastD 0])).getD 0) idx.dropLast)

/-- tools/fft.py:49-80 after the dummy axes are removed, without `psd`.  Four or more directions overflow the three-entry arrays
`N`, `dx` (`IndexError`); `fftn` of an array without axes is a `ValueError`. -/
noncomputable def coreC (grid : List (List ℝ)) (values : NArr ℂ) : Except Err (List (List ℝ) × NArr ℂ) :=
  if grid.length = 0 then .error .valueError
  else if 3 < grid.length then .error .indexError
  else .ok (grid.map axisFreq, transformC values)

/-- An array of real numbers in the store. -/
noncomputable def realAxis (g : List ℝ) : NArr ℂ := NArr.ofList (g.map fun (x : ℝ) => (x : ℂ))

/-- tools/fft.py:113-115 and 61-64: with `overwrite` the result is pushed, except with `iso` in two and three directions. -/
noncomputable def overwritten (iso : Bool) (dims : Nat) (f : List (NArr ℂ)) (p : NArr ℂ) (d : GData ℂ) :
    Except Err (GData ℂ) :=
  if dims = 1 ∨ iso = false then d.push f p else .ok d

/-- commands/fft.py:26-34 for one dataset, without `psd`: the dataset afterwards and the datasets to add. -/
noncomputable def effectC (iso : Bool) (tag : Option Tag) (label : List Char) (d : GData ℂ) :
    Except Err (GData ℂ × List (GData ℂ)) :=
  match d.grid, d.values with
  | some g, some v => do
    let grid := g.map fun (a : NArr ℂ) => a.data.map Complex.re
    let v' ← squeezeAxes grid v
    let (f, p) ← coreC (popAxes grid) v'
    let src : GData ℂ := { d with grid := some ((popAxes grid).map realAxis) }
    match tag with
    | some (c :: cs) => do
      let r ← (GData.new (c :: cs) label d.ctx).push (f.map realAxis) p
      return (src, [r])
    | _ => do
      let r ← overwritten iso (popAxes grid).length (f.map realAxis) p src
      return (r, [])
  | _, _ => .error .typeError

/-- commands/fft.py:17-38 `fft` without `--psd`. -/
noncomputable def fftCmdC (iso : Bool) (use tag : Option Tag) (label : List Char) (s : Space ℂ) : Except Err (Space ℂ) :=
  Space.iterate id use false true .none (fun s _ i =>
    match s.heap[i]? with
    | none => .ok s
    | some d => (effectC iso tag label d).map fun e => e.2.foldl Space.addNew (s.update i fun _ => e.1)) s

end Pgkyl.FftCmd
