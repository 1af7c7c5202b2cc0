import Verif.Model.CompOps
import Verif.Model.GData
/-!
# Model of the pointwise diagnostics in `src/postgkyl/tools`

Values are arrays of numbers with the arithmetic operations, without laws.  Python's `x**2` is `x * x`, the
literals 0.5, 2.0, 3.0 are quotients and casts of integers; the square root is a parameter.  Every function
returns the values only: all of them return the grid of (one of) the arguments unchanged, see `withOut`.
-/

namespace Pgkyl.Tools
open NArr
variable {F : Type} [Add F] [Sub F] [Mul F] [Div F] [Zero F] [IntCast F]

/-- Elementwise operations with broadcasting. -/
def add (a b : NArr F) : Except Err (NArr F) := zip2 (· + ·) a b
def sub (a b : NArr F) : Except Err (NArr F) := zip2 (· - ·) a b
def mul (a b : NArr F) : Except Err (NArr F) := zip2 (· * ·) a b
def div (a b : NArr F) : Except Err (NArr F) := zip2 (· / ·) a b

/-- A numeric literal. -/
def lit (n : Int) : F := (n : F)

/-! ## prim_vars.py -/

/-- prim_vars.py:12-20 `get_density`. -/
def getDensity (v : NArr F) : Except Err (NArr F) := v.comp 0

/-- prim_vars.py:23-32 `get_vx`, 35-44 `get_vy`, 47-56 `get_vz`: momentum component `k` (1, 2, 3) over density. -/
def getV (k : Nat) (v : NArr F) : Except Err (NArr F) := do
  let rho ← getDensity v
  div (← v.comp k) rho

/-- prim_vars.py:59-68 `get_vi`. -/
def getVi (v : NArr F) : Except Err (NArr F) := do
  let rho ← getDensity v
  div (← v.comps 1 4) rho

/-- prim_vars.py:71-149 `get_pxx` (4,1,1), `get_pxy` (5,1,2), `get_pxz` (6,1,3), `get_pyy` (7,2,2), `get_pyz` (8,2,3),
`get_pzz` (9,3,3): component `c` minus density times the velocity components `i` and `j`. -/
def getPab (c i j : Nat) (v : NArr F) : Except Err (NArr F) := do
  let rho ← getDensity v
  let a ← getV i v
  let b ← getV j v
  sub (← v.comp c) (← mul (← mul rho a) b)

/-- prim_vars.py:152-174 `get_pij`. -/
def getPij (v : NArr F) : Except Err (NArr F) := do
  let out := zeros (← v.comps 4 10).shape
  let pxx ← getPab 4 1 1 v
  let pxy ← getPab 5 1 2 v
  let pxz ← getPab 6 1 3 v
  let pyy ← getPab 7 2 2 v
  let pyz ← getPab 8 2 3 v
  let pzz ← getPab 9 3 3 v
  let out ← out.assignComp 0 pxx.squeeze
  let out ← out.assignComp 1 pxy.squeeze
  let out ← out.assignComp 2 pxz.squeeze
  let out ← out.assignComp 3 pyy.squeeze
  let out ← out.assignComp 4 pyz.squeeze
  out.assignComp 5 pzz.squeeze

/-- `vx**2 + vy**2 + vz**2` of three arrays. -/
def sq3 (x y z : NArr F) : Except Err (NArr F) := do
  add (← add (← mul x x) (← mul y y)) (← mul z z)

/-- prim_vars.py:181-190, 217-226: the number of moments, from the argument or the number of components. -/
def numMoms (v : NArr F) (arg : Option Int) : Except Err Int :=
  match arg with
  | some n => .ok n
  | none => match v.shape.getLast? with
    | none => .error .indexError
    | some n => if n = 5 then .ok 5 else if n = 10 then .ok 10 else .error .valueError

/-- `0.5 * rho * (vx**2 + vy**2 + vz**2)`, prim_vars.py:198, 236, 352. -/
def flowEnergy (v : NArr F) : Except Err (NArr F) := do
  let rho ← getDensity v
  let vx ← getV 1 v
  let vy ← getV 2 v
  let vz ← getV 3 v
  mul (rho.map1 fun r => lit 1 / lit 2 * r) (← sq3 vx vy vz)

/-- prim_vars.py:177-210 `get_p`: five moments, or else ten. -/
def getP (v : NArr F) (gamma : F) (nm : Option Int := none) : Except Err (NArr F) := do
  let n ← numMoms v nm
  if n = 5 then do
    let ke ← flowEnergy v
    return (← sub (← v.comp 4) ke).map1 fun e => (gamma - lit 1) * e
  else do
    let pxx ← getPab 4 1 1 v
    let pyy ← getPab 7 2 2 v
    let pzz ← getPab 9 3 3 v
    return (← add (← add pxx pyy) pzz).map1 (· / lit 3)

/-- prim_vars.py:213-242 `get_ke`. -/
def getKe (v : NArr F) (gamma : F) (nm : Option Int := none) : Except Err (NArr F) := do
  let n ← numMoms v nm
  if n = 5 then do
    let pr ← getP v gamma (some n)
    sub (← v.comp 4) (pr.map1 (· / (gamma - lit 1)))
  else flowEnergy v

/-- prim_vars.py:245-255 `get_temp`. -/
def getTemp (v : NArr F) (gamma : F) (nm : Option Int := none) : Except Err (NArr F) := do
  let rho ← getDensity v
  let pr ← getP v gamma nm
  div pr rho

/-- prim_vars.py:258-268 `get_sound`. -/
def getSound (sqrt : F → F) (v : NArr F) (gamma : F) (nm : Option Int := none) : Except Err (NArr F) := do
  let rho ← getDensity v
  let pr ← getP v gamma nm
  return (← div (pr.map1 (gamma * ·)) rho).map1 sqrt

/-- prim_vars.py:274-278, 388-391: the velocities, then the sound speed, then `np.sqrt(vx**2 + vy**2 + vz**2) / cs`. -/
def speedOver (sqrt : F → F) (v : NArr F) (sound : Except Err (NArr F)) : Except Err (NArr F) := do
  let vx ← getV 1 v
  let vy ← getV 2 v
  let vz ← getV 3 v
  let cs ← sound
  div ((← sq3 vx vy vz).map1 sqrt) cs

/-- prim_vars.py:271-283 `get_mach`. -/
def getMach (sqrt : F → F) (v : NArr F) (gamma : F) (nm : Option Int := none) : Except Err (NArr F) :=
  speedOver sqrt v (getSound sqrt v gamma nm)

/-- prim_vars.py:286-316 `get_mhd_Bx`, `get_mhd_By`, `get_mhd_Bz`. -/
def getMhdB (k : Nat) (v : NArr F) : Except Err (NArr F) := v.comp (5 + k)

/-- prim_vars.py:319-327 `get_mhd_Bi`. -/
def getMhdBi (v : NArr F) : Except Err (NArr F) := v.comps 5 8

/-- prim_vars.py:330-340 `get_mhd_mag_p`. -/
def getMhdMagP (v : NArr F) (mu0 : F) : Except Err (NArr F) := do
  let bx ← getMhdB 0 v
  let b_y ← getMhdB 1 v
  let bz ← getMhdB 2 v
  return ((← sq3 bx b_y bz).map1 (lit 1 / lit 2 * ·)).map1 (· / mu0)

/-- prim_vars.py:343-357 `get_mhd_p`. -/
def getMhdP (v : NArr F) (gamma mu0 : F) : Except Err (NArr F) := do
  let ke ← flowEnergy v
  let magP ← getMhdMagP v mu0
  return (← sub (← sub (← v.comp 4) ke) magP).map1 ((gamma - lit 1) * ·)

/-- prim_vars.py:360-369 `get_mhd_temp`. -/
def getMhdTemp (v : NArr F) (gamma mu0 : F) : Except Err (NArr F) := do
  let rho ← getDensity v
  let pr ← getMhdP v gamma mu0
  div pr rho

/-- prim_vars.py:372-382 `get_mhd_sound`. -/
def getMhdSound (sqrt : F → F) (v : NArr F) (gamma mu0 : F) : Except Err (NArr F) := do
  let rho ← getDensity v
  let pr ← getMhdP v gamma mu0
  return (← div (pr.map1 (gamma * ·)) rho).map1 sqrt

/-- prim_vars.py:385-396 `get_mhd_mach`. -/
def getMhdMach (sqrt : F → F) (v : NArr F) (gamma mu0 : F) : Except Err (NArr F) :=
  speedOver sqrt v (getMhdSound sqrt v gamma mu0)

/-! ## mag_sq.py -/

/-- `slice(int(s[0]), int(s[1]))` of `coords.split(":")`, mag_sq.py:32-33, parrotate.py:36-37. -/
def coordBounds (coords : List Char) : Except Err (Int × Int) :=
  match splitOn ':' coords with
  | a :: b :: _ => match pyInt a, pyInt b with
    | some i, some j => .ok (i, j)
    | _, _ => .error .valueError
  | _ => .error .indexError

/-- mag_sq.py:12-42 `mag_sq`: line 35 fails for an empty selection. -/
def magSq (v : NArr F) (coords : List Char := "0:3".toList) : Except Err (NArr F) := do
  let (i, j) ← coordBounds coords
  let w ← v.comps i j
  let _ ← w.compFlat 0
  (← mul w w).sumLast

/-! ## pressure_diagnostics.py -/

/-- pressure_diagnostics.py:52-72 `get_p_par`. -/
def getPPar (p b : NArr F) : Except Err (NArr F) := do
  let pxx ← p.comp 0
  let pxy ← p.comp 1
  let pxz ← p.comp 2
  let pyy ← p.comp 3
  let pyz ← p.comp 4
  let pzz ← p.comp 5
  let bx ← b.comp 0
  let b_y ← b.comp 1
  let bz ← b.comp 2
  let m ← magSq b
  let diag ← add (← add (← mul (← mul bx bx) pxx) (← mul (← mul b_y b_y) pyy)) (← mul (← mul bz bz) pzz)
  let off ← add (← add (← mul (← mul bx b_y) pxy) (← mul (← mul bx bz) pxz)) (← mul (← mul b_y bz) pyz)
  div (← add diag (off.map1 (lit 2 * ·))) m

/-- pressure_diagnostics.py:84-95 `get_p_perp`. -/
def getPPerp (p b : NArr F) : Except Err (NArr F) := do
  let pxx ← p.comp 0
  let pyy ← p.comp 3
  let pzz ← p.comp 5
  let pPar ← getPPar p b
  return (← sub (← add (← add pxx pyy) pzz) pPar).map1 (· / lit 2)

/-- pressure_diagnostics.py:109-148 `get_agyro(measure="swisdak")`. -/
def agyroSwisdak (sqrt : F → F) (p b : NArr F) : Except Err (NArr F) := do
  let pxx ← p.comp 0
  let pxy ← p.comp 1
  let pxz ← p.comp 2
  let pyy ← p.comp 3
  let pyz ← p.comp 4
  let pzz ← p.comp 5
  let pPar ← getPPar p b
  let i1 ← add (← add pxx pyy) pzz
  let i2 ← sub (← add (← add (← mul pxx pyy) (← mul pxx pzz)) (← mul pyy pzz))
    (← add (← add (← mul pxy pxy) (← mul pxz pxz)) (← mul pyz pyz))
  let den ← mul (← sub i1 pPar) (← add i1 (pPar.map1 (lit 3 * ·)))
  return ((← div (i2.map1 (lit 4 * ·)) den).map1 (lit 1 - ·)).map1 sqrt

/-- pressure_diagnostics.py:138-143: `p_ab - (p_par*b_a*b_b/mag_b_sq + p_perp*(delta - b_a*b_b/mag_b_sq))`. -/
def nonGyro (delta : F) (pab pPar pPerp ba bb m : NArr F) : Except Err (NArr F) := do
  let t1 ← div (← mul (← mul pPar ba) bb) m
  let t2 ← mul pPerp ((← div (← mul ba bb) m).map1 (delta - ·))
  sub pab (← add t1 t2)

/-- pressure_diagnostics.py:109-148 `get_agyro(measure="frobenius")`. -/
def agyroFrobenius (sqrt : F → F) (p b : NArr F) : Except Err (NArr F) := do
  let pxx ← p.comp 0
  let pxy ← p.comp 1
  let pxz ← p.comp 2
  let pyy ← p.comp 3
  let pyz ← p.comp 4
  let pzz ← p.comp 5
  let bx ← b.comp 0
  let b_y ← b.comp 1
  let bz ← b.comp 2
  let m ← magSq b
  let pPar ← getPPar p b
  let pPerp ← getPPerp p b
  let ixx ← nonGyro (lit 1) pxx pPar pPerp bx bx m
  let ixy ← nonGyro (lit 0) pxy pPar pPerp bx b_y m
  let ixz ← nonGyro (lit 0) pxz pPar pPerp bx bz m
  let iyy ← nonGyro (lit 1) pyy pPar pPerp b_y b_y m
  let iyz ← nonGyro (lit 0) pyz pPar pPerp b_y bz m
  let izz ← nonGyro (lit 1) pzz pPar pPerp bz bz m
  let s ← add (← mul ixx ixx) ((← mul ixy ixy).map1 (lit 2 * ·))
  let s ← add s ((← mul ixz ixz).map1 (lit 2 * ·))
  let s ← add s (← mul iyy iyy)
  let s ← add s ((← mul iyz iyz).map1 (lit 2 * ·))
  let s ← add s (← mul izz izz)
  let den ← add ((← mul pPerp pPerp).map1 (lit 2 * ·)) (← mul (pPar.map1 (lit 4 * ·)) pPerp)
  div (s.map1 sqrt) (den.map1 sqrt)

/-- pressure_diagnostics.py:109-148 `get_agyro`: the measure, turned to lower case (of ASCII letters). -/
def getAgyro (sqrt : F → F) (p b : NArr F) (measure : List Char) : Except Err (NArr F) :=
  if measure.map Char.toLower = "swisdak".toList then agyroSwisdak sqrt p b
  else if measure.map Char.toLower = "frobenius".toList then agyroFrobenius sqrt p b
  else .error .valueError

/-- pressure_diagnostics.py:75-81, 98-106, 151-157 `get_gkyl_10m_p_par`, `get_gkyl_10m_p_perp`, `get_gkyl_10m_agyro`:
`f` applied to the pressure tensor of the species and components 3:6 of the field. -/
def tenMoment (f : NArr F → NArr F → Except Err (NArr F)) (species field : NArr F) : Except Err (NArr F) := do
  let p ← getPij species
  f p (← field.comps 3 6)

/-! ## parrotate.py, perprotate.py -/

/-- parrotate.py:42-44: the value assigned to component `k`. -/
def rotComp (u r : NArr F) (k : Nat) : Except Err (NArr F) := do
  let num ← (← mul u r).sumFlat
  let den ← (← mul r r).sumFlat
  mul (← div num den) (← r.compFlat k)

/-- parrotate.py:12-54 `parrotate`.  The handler of `IndexError` ends the program. -/
def parrotate (u rotator : NArr F) (coords : List Char := "0:3".toList) : Except Err (NArr F) := do
  let (i, j) ← coordBounds coords
  let r ← rotator.comps i j
  let out := zeros u.shape
  let out ← out.assignComp 0 (← rotComp u r 0)
  let out ← out.assignComp 1 (← rotComp u r 1)
  out.assignComp 2 (← rotComp u r 2)

/-- `np.asarray((grid, values))` of a list of arrays and an array: all shapes must agree. -/
def asArray (grid : List (NArr F)) (v : NArr F) : Except Err (NArr F) :=
  match grid with
  | [] => .error .valueError
  | g :: gs =>
    if gs.all (fun h => h.shape = g.shape) ∧ (grid.length :: g.shape) = v.shape then
      .ok ⟨2 :: v.shape, (grid.flatMap fun h => h.data) ++ v.data⟩
    else .error .valueError

/-- perprotate.py:14-44 `perprotate`: line 39 subtracts the pair (grid, values) that `parrotate` returns, which NumPy
first turns into an array. -/
def perprotate (grid : List (NArr F)) (u rotator : NArr F) (coords : List Char := "0:3".toList) :
    Except Err (NArr F) := do
  let r ← parrotate u rotator coords
  sub u (← asArray grid r)

/-! ## energetics.py -/

/-- energetics.py:13-60 `energetics`; `gamma` is the default 5/3 of `get_p` and `get_ke`. -/
def energetics (elc ion field : NArr F) : Except Err (NArr F) := do
  let gamma : F := lit 5 / lit 3
  let out := zeros (← field.comps 0 7).shape
  let pre ← getP elc gamma
  let kee ← getKe elc gamma
  let pri ← getP ion gamma
  let kei ← getKe ion gamma
  let esq ← magSq field "0:3".toList
  let bsq ← magSq field "3:6".toList
  let out ← out.assignComp 0 pre.squeeze
  let out ← out.assignComp 1 kee.squeeze
  let out ← out.assignComp 2 pri.squeeze
  let out ← out.assignComp 3 kei.squeeze
  let out ← out.assignComp 4 (esq.map1 (· / lit 2)).squeeze
  let out ← out.assignComp 5 (bsq.map1 (· / lit 2)).squeeze
  let total ← add (← add (← add (← add (← add pre kee) pri) kei) (esq.map1 (· / lit 2))) (bsq.map1 (· / lit 2))
  out.assignComp 6 total.squeeze

/-! ## rel_change.py -/

/-- rel_change.py:20-23: the values assigned to component `i`; `comp` is the argument after `int(comp)`.
(Simplification: `comp` is not negative.) -/
def relComp (v0 v : NArr F) (comp : Option Nat) (i : Nat) : Except Err (NArr F) := do
  let d ← sub (← v.compFlat i) (← v0.compFlat i)
  div d (← v0.compFlat (comp.getD i))

/-- rel_change.py:4-24 `rel_change(dataset0, dataset, comp)`. -/
def relChange (v0 v : NArr F) (comp : Option Nat) : Except Err (NArr F) :=
  match v.shape.getLast? with
  | none => .error .indexError
  | some n => (List.range n).foldlM (fun out i => do out.assignComp i (← relComp v0 v comp i)) (zeros v.shape)

/-! ## Results stored in a dataset -/

variable [Min F] [Max F]

/-- The common frame of the functions: the values are computed, and stored in the dataset `out` with the grid of the
source if one is given (`if out_mom: out_mom.push(grid, out_values)`). -/
def withOut (f : NArr F → Except Err (NArr F)) (data : GData F) (out : Option (GData F)) :
    Except Err (List (NArr F) × NArr F × Option (GData F)) :=
  match data.grid, data.values with
  | some g, some v => do
    let r ← f v
    match out with
    | none => return (g, r, none)
    | some o => return (g, r, some (← o.push g r))
  | _, _ => .error .typeError

end Pgkyl.Tools
