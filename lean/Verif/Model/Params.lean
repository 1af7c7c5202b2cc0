import Verif.Model.Tools
import Verif.Model.Bytes
import Mathlib.Analysis.Real.Sqrt
/-!
# Model of `tools/params.py`: plasma parameters of fluid data

Numbers are real.  Only the values are modelled; the grid is that of the species (of the field for `get_magB` and
`get_omegaC`).
-/

namespace Pgkyl.Params
open Tools NArr

/-- What the functions accept: a dataset, with its metadata dictionary (only numbers and `None` occur among the keys
read here), or a pair of grid and values. -/
inductive Input where
  | gdata (ctx : Dict (Option ℝ)) (values : NArr ℝ)
  | pair (values : NArr ℝ)

/-- input_parser.py:35-53: the values. -/
def Input.values : Input → NArr ℝ
  | .gdata _ v => v
  | .pair v => v

/-- `x.ctx[key] if x.ctx[key] else default`, params.py:29, 45, 57-58, 68-70, 83-84. -/
noncomputable def setting (x : Input) (key : String) (default : ℝ) : Except Err ℝ :=
  match x with
  | .pair _ => .error .attributeError
  | .gdata ctx _ => match Dict.get? ctx key with
    | none => .error .keyError
    | some none => .ok default
    | some (some y) => if y = 0 then .ok default else .ok y

/-- params.py:17-23 `get_magB`. -/
noncomputable def getMagB (field : Input) : Except Err (NArr ℝ) := do
  let b ← field.values.comps 3 6
  return (← magSq b).map1 Real.sqrt

/-- params.py:31-35: the temperature over mass. -/
noncomputable def temperature (v : NArr ℝ) (gamma : ℝ) (nm : Option Int) (mu0 : ℝ) (mhd : Bool) :
    Except Err (NArr ℝ) :=
  if mhd then getMhdTemp v gamma mu0 else getTemp v gamma nm

/-- params.py:26-40 `get_vt`. -/
noncomputable def getVt (species : Input) (gamma : ℝ) (nm : Option Int) (mass mu0 : ℝ) (sqrt2 mhd : Bool) :
    Except Err (NArr ℝ) := do
  let m ← setting species "mass" mass
  let temp ← temperature species.values gamma nm mu0 mhd
  let out := (temp.map1 (· / m)).map1 Real.sqrt
  return if sqrt2 then out.map1 (· * Real.sqrt 2) else out

/-- params.py:43-52 `get_vA`. -/
noncomputable def getVA (species field : Input) (mu0 : ℝ) : Except Err (NArr ℝ) := do
  let mu ← setting field "mu_0" mu0
  let magB ← getMagB field
  let rho ← getDensity species.values
  div magB ((rho.map1 (mu * ·)).map1 Real.sqrt)

/-- params.py:55-63 `get_omegaC`. -/
noncomputable def getOmegaC (species field : Input) (mass charge : ℝ) : Except Err (NArr ℝ) := do
  let m ← setting species "mass" mass
  let q ← setting species "charge" charge
  return ((← getMagB field).map1 (|q| * ·)).map1 (· / m)

/-- params.py:66-77 `get_omegaP`. -/
noncomputable def getOmegaP (species field : Input) (mass charge eps0 : ℝ) : Except Err (NArr ℝ) := do
  let m ← setting species "mass" mass
  let q ← setting species "charge" charge
  let eps ← setting field "epsilon_0" eps0
  let rho ← getDensity species.values
  let qbym2 := q * q / (m * m)
  return ((rho.map1 (qbym2 * ·)).map1 (· / eps)).map1 Real.sqrt

/-- params.py:80-91 `get_d`. -/
noncomputable def getD (species field : Input) (mass charge eps0 mu0 : ℝ) : Except Err (NArr ℝ) := do
  let eps ← setting field "epsilon_0" eps0
  let mu ← setting field "mu_0" mu0
  let omegaP ← getOmegaP species field mass charge eps0
  let light := 1 / Real.sqrt (eps * mu)
  return omegaP.map1 (light / ·)

/-- params.py:94-107 `get_lambdaD`. -/
noncomputable def getLambdaD (species field : Input) (gamma : ℝ) (nm : Option Int) (mass charge eps0 mu0 : ℝ)
    (sqrt2 : Bool) : Except Err (NArr ℝ) := do
  let omegaP ← getOmegaP species field mass charge eps0
  let vt ← getVt species gamma nm mass mu0 sqrt2 false
  let out ← div vt omegaP
  return if sqrt2 then out.map1 (· / Real.sqrt 2) else out

/-- params.py:110-124 `get_rho`. -/
noncomputable def getRho (species field : Input) (gamma : ℝ) (nm : Option Int) (mass charge mu0 : ℝ)
    (sqrt2 : Bool) : Except Err (NArr ℝ) := do
  let omegaC ← getOmegaC species field mass charge
  let vt ← getVt species gamma nm mass mu0 sqrt2 false
  let out ← div vt omegaC
  return if sqrt2 then out else out.map1 (· * Real.sqrt 2)

/-- params.py:127-137 `get_beta`. -/
noncomputable def getBeta (species field : Input) (gamma : ℝ) (nm : Option Int) (mass mu0 : ℝ)
    (sqrt2 : Bool) : Except Err (NArr ℝ) := do
  let vA ← getVA species field mu0
  let vt ← getVt species gamma nm mass mu0 sqrt2 false
  let out ← div (← mul vt vt) (← mul vA vA)
  return if sqrt2 then out else out.map1 (· * 2)

end Pgkyl.Params
