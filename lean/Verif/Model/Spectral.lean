import Verif.Model.NumOps
import Mathlib.Analysis.SpecialFunctions.Trigonometric.Basic
import Mathlib.Analysis.Complex.Norm
/-!
# Fourier transforms, isotropic spectra and the FFT filter

Models `tools/fft.py`, `tools/init_polar.py`, `tools/polar_isotropic.py` and `fft_filtering` of
`tools/filters.py`.  `scipy.fft`/`numpy.fft` are library semantics: the discrete Fourier transform
by its defining sum, in exact arithmetic over `ℝ` and `ℂ`.
-/

namespace Pgkyl.Spectral

/-- `exp(2 π i t)`. -/
noncomputable def cis (t : ℝ) : ℂ := Complex.exp (2 * Real.pi * t * Complex.I)

/-- Library: `scipy.fft.fftfreq(n, d)` (also `numpy.fft.fftfreq`): the frequencies
`0, 1, …, -2, -1` over `n * d`. -/
noncomputable def fftfreq (n : Nat) (d : ℝ) : List ℝ :=
  (List.range n).map fun k =>
    if k < (n + 1) / 2 then (k : ℝ) / (n * d) else ((k : ℝ) - n) / (n * d)

/-- `Σ_d j_d k_d / n_d`. -/
noncomputable def phase : List Nat → List Nat → List Nat → ℝ
  | n :: ns, j :: js, k :: ks => (j : ℝ) * k / n + phase ns js ks
  | _, _, _ => 0

/-- Library: `scipy.fft.fftn(v)[k]` of an array of the given shape, by its defining sum
`Σ_j v[j] exp(-2 π i Σ_d j_d k_d / n_d)`; `scipy.fft.fft` is the one-dimensional case. -/
noncomputable def dftAt (shape : List Nat) (v : List Nat → ℂ) (k : List Nat) : ℂ :=
  ((indices shape).map fun j => v j * cis (-phase shape j k)).sum

/-- Library: `scipy.fft.ifftn(v)[j]`, `1/N Σ_k v[k] exp(2 π i Σ_d j_d k_d / n_d)`. -/
noncomputable def idftAt (shape : List Nat) (v : List Nat → ℂ) (j : List Nat) : ℂ :=
  ((indices shape).map fun k => v k * cis (phase shape j k)).sum / (shape.prod : ℂ)

/-- fft.py:53-56 and 77-80: `ft_values[..., comp] = fftn(values[..., comp])` for every component (the
last index). -/
noncomputable def transform (values : NArr ℝ) : NArr ℂ :=
  NArr.ofFn values.shape fun idx =>
    some (dftAt values.shape.dropLast
      (fun j => (((values.get? (j ++ [idx.getLastD 0])).getD 0 : ℝ) : ℂ)) idx.dropLast)

/-- fft.py:35-44 `[grid.pop(i) for i in idx[::-1]]` with `idx` the axes whose grid has at most two
entries.  The list is changed in place, so this is also the grid of the dataset afterwards. -/
def popAxes (grid : List (List ℝ)) : List (List ℝ) := grid.filter fun g => decide (2 < g.length)

/-- fft.py:42-46 `np.squeeze(values, tuple(idx))` for the axes removed from the grid, which must have
length 1 (`ValueError`); nothing happens if there is none. -/
def squeezeAxes {F : Type} (grid : List (List ℝ)) (values : NArr F) : Except Err (NArr F) :=
  if grid.all (fun g => decide (2 < g.length)) then .ok values
  else if (values.shape.zip grid).all fun p => decide (2 < p.2.length ∨ p.1 = 1) then
    .ok ⟨((values.shape.zip grid).filter fun p => decide (2 < p.2.length)).map (·.1)
      ++ values.shape.drop grid.length, values.data⟩
  else .error .valueError

/-- The returned grid and values: complex amplitudes, or the power `|FT|^2`.  `zeros` counts the
integers 0 appended to the grid list (fft.py:87). -/
inductive Out where
  | amplitudes (freq : List (List ℝ)) (values : NArr ℂ)
  | power (freq : List (List ℝ)) (zeros : Nat) (values : NArr ℝ)

/-- fft.py:51, 74: `grid[i][1] - grid[i][0]`. -/
noncomputable def spacing (g : List ℝ) : ℝ := (g[1]?).getD 0 - (g[0]?).getD 0

/-- fft.py:52, 75: the frequencies of one direction. -/
noncomputable def axisFreq (g : List ℝ) : List ℝ := fftfreq g.length (spacing g)

/-- fft.py:60, 85, 89: `np.abs(ft_values[:N0//2, ..., :])**2` (slices stop at the end of the axis). -/
noncomputable def psdValues (halves : List Nat) (ft : NArr ℂ) : NArr ℝ :=
  let slices := (halves.zip ft.shape).map fun p => (0, min p.1 p.2)
  (ft.slice slices).map1 fun z => ‖z‖ ^ 2

/-! ## Binning by wave number (init_polar.py, polar_isotropic.py) -/

/-- `k[1]`. -/
def second (k : List ℝ) : Except Err ℝ :=
  match k[1]? with
  | some x => .ok x
  | none => .error .indexError

/-- init_polar.py:15-22: the bin width in two dimensions.  `nkx == 1 & nky == 1` is Python's
`nkx == (1 & nky) and (1 & nky) == 1`. -/
noncomputable def binWidth2 (nkx nky : Nat) (kx ky : List ℝ) : Except Err ℝ :=
  if nkx = nky % 2 ∧ nky % 2 = 1 then .ok 0
  else if nkx = 1 then second ky
  else if nky = 1 then second kx
  else do return max (← second kx) (← second ky)

/-- init_polar.py:41-50: the bin width in three dimensions. -/
noncomputable def binWidth3 (nkx nky nkz : Nat) (kx ky kz : List ℝ) : Except Err ℝ :=
  if nkx = nky % 2 ∧ nky % 2 = nkz % 2 ∧ nkz % 2 = 1 then .ok 0
  else if nkx = 1 then do return max (← second ky) (← second kz)
  else if nky = 1 then do return max (← second kx) (← second kz)
  else if nkz = 1 then do return max (← second kx) (← second ky)
  else do return max (max (← second kx) (← second ky)) (← second kz)

/-- init_polar.py:14-22, 38-50. -/
noncomputable def binWidth (nks : List Nat) (ks : List (List ℝ)) : Except Err ℝ :=
  match nks, ks with
  | [nkx, nky], [kx, ky] => binWidth2 nkx nky kx ky
  | [nkx, nky, nkz], [kx, ky, kz] => binWidth3 nkx nky nkz kx ky kz
  | _, _ => .error .fail

/-- init_polar.py:23, 51: the wave numbers of the bins. -/
noncomputable def binCentres (n : Nat) (dkp : ℝ) : List ℝ := (List.range n).map fun (i : Nat) => ((i : ℝ) + 1) * dkp

/-- init_polar.py:24, 52: the bin limits. -/
noncomputable def binLimit (dkp : ℝ) (i : Nat) : ℝ := dkp / 2 + i * dkp

/-- init_polar.py:29, 55: `kp = np.sqrt(kxg**2 + kyg**2 (+ kzg**2))` at one mode. -/
noncomputable def waveNumber (ks : List (List ℝ)) (idx : List Nat) : ℝ :=
  Real.sqrt ((List.zipWith (fun (k : List ℝ) (i : Nat) => ((k[i]?).getD 0) ^ 2) ks idx).sum)

/-- init_polar.py:30-36, 56-62: the bin index stored for a mode with wave number `kp`: 0 unless set,
`nkpolar - 1` from the last limit on, then overwritten by the bin it lies in. -/
noncomputable def polarIndex (n : Nat) (dkp kp : ℝ) : Nat :=
  (List.range n).foldl
    (fun acc ik => if kp < binLimit dkp (ik + 1) ∧ kp ≥ binLimit dkp ik then ik else acc)
    (if kp ≥ binLimit dkp n then n - 1 else 0)

/-- init_polar.py:32-36, 58-62: the number of modes counted for a bin. -/
noncomputable def binCount (n : Nat) (dkp : ℝ) (kps : List ℝ) (ik : Nat) : Nat :=
  (if ik = n - 1 then (kps.filter fun kp => decide (kp ≥ binLimit dkp n)).length else 0)
    + (kps.filter fun kp => decide (kp < binLimit dkp (ik + 1) ∧ kp ≥ binLimit dkp ik)).length

/-- polar_isotropic.py:7-19: the power added up per bin index, divided by the count of the bin. -/
noncomputable def isotropic (n : Nat) (dkp : ℝ) (modes : List (ℝ × ℝ)) : List ℝ :=
  (List.range n).map fun b =>
    ((modes.filter fun m => decide (polarIndex n dkp m.1 = b)).map (·.2)).sum
      / binCount n dkp (modes.map (·.1)) b

/-- fft.py:94 `int(np.sqrt(np.sum(N[:] ** 2)))`. -/
def numBins (ns : List Nat) : Nat := Nat.sqrt ((ns.map (· ^ 2)).sum)

/-- fft.py:95-106: the isotropic spectrum of one component. -/
noncomputable def isoSpectrum (ns : List Nat) (freqs : List (List ℝ)) (dkp : ℝ) (power : NArr ℝ)
    (comp : Nat) : List ℝ :=
  isotropic (numBins ns) dkp ((indices (ns.map (· / 2))).filterMap fun idx =>
    (power.get? (idx ++ [comp])).map fun p => (waveNumber freqs idx, p))

/-- fft.py:49-117 after the dummy axes are removed.  `iso` only has an effect together with `psd` and
for two or three directions; four or more directions overflow the three-entry arrays `N`, `dx`
(`IndexError`).  No direction at all is not modelled (reported as an error). -/
noncomputable def core (grid : List (List ℝ)) (values : NArr ℝ) (psd iso : Bool) : Except Err Out :=
  let ns := grid.map List.length
  let freq := grid.map axisFreq
  if grid.length = 0 then .error .valueError
  else if 3 < grid.length then .error .indexError
  else if psd then
    let freq := freq.map fun f => f.take (f.length / 2)
    let power := psdValues (ns.map (· / 2)) (transform values)
    if iso ∧ 1 < grid.length then do
      let dkp ← binWidth (ns.map (· / 2)) freq
      return .power [binCentres (numBins ns) dkp] 0
        (NArr.ofFn [numBins ns, values.shape.getLastD 0] fun idx =>
          (isoSpectrum ns freq dkp power (idx.getLastD 0))[idx.headD 0]?)
    else .ok (.power freq (if grid.length = 2 then 1 else 0) power)
  else .ok (.amplitudes freq (transform values))

/-- fft.py:15-117 without `overwrite`: the result and the grid list of the dataset afterwards. -/
noncomputable def fft (grid : List (List ℝ)) (values : NArr ℝ) (psd iso : Bool) :
    Except Err (Out × List (List ℝ)) := do
  let values ← squeezeAxes grid values
  let out ← core (popAxes grid) values psd iso
  return (out, popAxes grid)

/-! ## FFT filter -/

/-- filters.py:32-57 `fft_filtering(data, dt, cutoff)` of a one-dimensional array with the cut-off
given: transform, zero above and below the cut-off, transform back. -/
noncomputable def fftFilter (data : List ℝ) (dt cutoff : ℝ) : List ℂ :=
  let n := data.length
  let freq := fftfreq n dt
  let ft (k : List Nat) : ℂ := dftAt [n] (fun j => (((data[j.headD 0]?).getD 0 : ℝ) : ℂ)) k
  let ft' (k : List Nat) : ℂ :=
    let f := (freq[k.headD 0]?).getD 0
    if f > cutoff then 0 else if f < -cutoff then 0 else ft k
  (List.range n).map fun j => idftAt [n] ft' [j]

end Pgkyl.Spectral
