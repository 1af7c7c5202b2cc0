import Verif.Model.Tools
/-!
# Model of what the diagnostics accept

`src/postgkyl/utils/input_parser.py` and the functions of `tools/prim_vars.py`, `tools/mag_sq.py` and
`tools/pressure_diagnostics.py` with their arguments: a dataset, an array, or a pair of a grid and an array.  Each function
calls the others with the argument it was given, which is parsed again each time.  The arithmetic is that of `Model/Tools.lean`.
-/

namespace Pgkyl.Inp
open NArr
variable {F : Type}

/-- What can stand for a grid: nothing (a dataset without data), the empty tuple, a list of arrays. -/
inductive PyGrid (F : Type) where
  | none
  | empty
  | list (g : List (NArr F))

/-- What can be given to a function: input_parser.py:12. -/
inductive Input (F : Type) where
  /-- a dataset -/
  | gdata (d : GData F)
  /-- a NumPy array -/
  | array (v : NArr F)
  /-- a tuple or list of two; `none` for values that are not a NumPy array -/
  | pair (g : PyGrid F) (v : Option (NArr F))
  /-- a tuple or list of another length -/
  | items (n : Nat)
  /-- anything else -/
  | other

/-- The grid of a dataset as `get_grid` returns it, gdata.py:255-256. -/
def gridOf (d : GData F) : PyGrid F :=
  match d.grid with
  | some g => .list g
  | Option.none => .none

/-- input_parser.py:34-53 `input_parser`: the grid and the values (`none` for a dataset without data). -/
def parse : Input F → Except Err (PyGrid F × Option (NArr F))
  | .gdata d => .ok (gridOf d, d.values)
  | .array v => .ok (.empty, some v)
  | .pair (.list g) (some v) =>
    if g.length ≠ v.shape.length ∧ g.length + 1 ≠ v.shape.length then .error .valueError else .ok (.list g, some v)
  | .pair _ _ => .error .typeError
  | .items _ => .error .typeError
  | .other => .error .typeError

/-- Indexing values: `None` has no items. -/
def need : Option (NArr F) → Except Err (NArr F)
  | some v => .ok v
  | Option.none => .error .typeError

/-- `in_values.shape`: `None` has no shape, prim_vars.py:181, 217. -/
def needShape : Option (NArr F) → Except Err (NArr F)
  | some v => .ok v
  | Option.none => .error .attributeError

/-- What the functions return: the grid, the values, and the dataset given for the output after it was filled. -/
abbrev Res (F : Type) := PyGrid F × NArr F × Option (GData F)

/-- `_, values = f(...)`. -/
def value (r : Except Err (Res F)) : Except Err (NArr F) :=
  match r with
  | .ok (_, v, _) => .ok v
  | .error e => .error e

section
variable [Min F] [Max F]

/-- gdata.py:258-263, 289-291 `push` with a grid of these kinds: looking up an axis of `()` is an IndexError, of `None` a
TypeError (here also if there are no axes). -/
def pushGrid (o : GData F) (g : PyGrid F) (r : NArr F) : Except Err (GData F) :=
  match g with
  | .list g => o.push g r
  | .empty => o.push [] r
  | .none => .error .typeError

/-- The last lines of the functions, `if out_mom: out_mom.push(grid, out_values)` and `return grid, out_values`. -/
def finish (g : PyGrid F) (out : Option (GData F)) (r : NArr F) : Except Err (Res F) :=
  match out with
  | Option.none => .ok (g, r, Option.none)
  | some o => do return (g, r, some (← pushGrid o g r))

variable [Add F] [Sub F] [Mul F] [Div F] [Zero F] [IntCast F]

/-- prim_vars.py:12-20 `get_density`. -/
def getDensity (x : Input F) (out : Option (GData F) := Option.none) : Except Err (Res F) := do
  let (g, v) ← parse x
  let r ← (← need v).comp 0
  finish g out r

/-- prim_vars.py:23-56 `get_vx`, `get_vy`, `get_vz` (1, 2, 3). -/
def getV (k : Nat) (x : Input F) (out : Option (GData F) := Option.none) : Except Err (Res F) := do
  let (g, v) ← parse x
  let rho ← value (getDensity x)
  let r ← Tools.div (← (← need v).comp k) rho
  finish g out r

/-- prim_vars.py:59-68 `get_vi`. -/
def getVi (x : Input F) (out : Option (GData F) := Option.none) : Except Err (Res F) := do
  let (g, v) ← parse x
  let rho ← value (getDensity x)
  let r ← Tools.div (← (← need v).comps 1 4) rho
  finish g out r

/-- prim_vars.py:71-149 `get_pxx` to `get_pzz`, see `Tools.getPab`.  (For equal indices the velocity is asked for once in the
code.) -/
def getPab (c i j : Nat) (x : Input F) (out : Option (GData F) := Option.none) : Except Err (Res F) := do
  let (g, v) ← parse x
  let rho ← value (getDensity x)
  let a ← value (getV i x)
  let b ← value (getV j x)
  let r ← Tools.sub (← (← need v).comp c) (← Tools.mul (← Tools.mul rho a) b)
  finish g out r

/-- prim_vars.py:152-174 `get_pij`. -/
def getPij (x : Input F) (out : Option (GData F) := Option.none) : Except Err (Res F) := do
  let (g, v) ← parse x
  let o := zeros (← (← need v).comps 4 10).shape
  let pxx ← value (getPab 4 1 1 x)
  let pxy ← value (getPab 5 1 2 x)
  let pxz ← value (getPab 6 1 3 x)
  let pyy ← value (getPab 7 2 2 x)
  let pyz ← value (getPab 8 2 3 x)
  let pzz ← value (getPab 9 3 3 x)
  let o ← o.assignComp 0 pxx.squeeze
  let o ← o.assignComp 1 pxy.squeeze
  let o ← o.assignComp 2 pxz.squeeze
  let o ← o.assignComp 3 pyy.squeeze
  let o ← o.assignComp 4 pyz.squeeze
  let o ← o.assignComp 5 pzz.squeeze
  finish g out o

/-- `0.5*rho*(vx**2 + vy**2 + vz**2)`, prim_vars.py:193-198, 232-236, 346-352. -/
def flowEnergy (x : Input F) : Except Err (NArr F) := do
  let rho ← value (getDensity x)
  let vx ← value (getV 1 x)
  let vy ← value (getV 2 x)
  let vz ← value (getV 3 x)
  Tools.mul (rho.map1 fun r => Tools.lit 1 / Tools.lit 2 * r) (← Tools.sq3 vx vy vz)

/-- prim_vars.py:192-198: the pressure of five moments. -/
def getP5 (v : NArr F) (gamma : F) (x : Input F) : Except Err (NArr F) := do
  let ke ← flowEnergy x
  return (← Tools.sub (← v.comp 4) ke).map1 fun e => (gamma - Tools.lit 1) * e

/-- prim_vars.py:200-204: the pressure of ten moments. -/
def getP10 (x : Input F) : Except Err (NArr F) := do
  let pxx ← value (getPab 4 1 1 x)
  let pyy ← value (getPab 7 2 2 x)
  let pzz ← value (getPab 9 3 3 x)
  return (← Tools.add (← Tools.add pxx pyy) pzz).map1 (· / Tools.lit 3)

/-- prim_vars.py:177-210 `get_p`. -/
def getP (gamma : F) (nm : Option Int) (x : Input F) (out : Option (GData F) := Option.none) : Except Err (Res F) := do
  let (g, v) ← parse x
  let v ← needShape v
  let n ← Tools.numMoms v nm
  let r ← if n = 5 then getP5 v gamma x else getP10 x
  finish g out r

/-- prim_vars.py:228-230: the kinetic energy of five moments. -/
def getKe5 (v : NArr F) (gamma : F) (n : Int) (x : Input F) : Except Err (NArr F) := do
  let pr ← value (getP gamma (some n) x)
  Tools.sub (← v.comp 4) (pr.map1 (· / (gamma - Tools.lit 1)))

/-- prim_vars.py:213-242 `get_ke`. -/
def getKe (gamma : F) (nm : Option Int) (x : Input F) (out : Option (GData F) := Option.none) : Except Err (Res F) := do
  let (g, v) ← parse x
  let v ← needShape v
  let n ← Tools.numMoms v nm
  let r ← if n = 5 then getKe5 v gamma n x else flowEnergy x
  finish g out r

/-- prim_vars.py:245-255 `get_temp`. -/
def getTemp (gamma : F) (nm : Option Int) (x : Input F) (out : Option (GData F) := Option.none) : Except Err (Res F) := do
  let (g, rho, _) ← getDensity x
  let pr ← value (getP gamma nm x)
  let r ← Tools.div pr rho
  finish g out r

/-- prim_vars.py:258-268 `get_sound`. -/
def getSound (sqrt : F → F) (gamma : F) (nm : Option Int) (x : Input F) (out : Option (GData F) := Option.none) : Except Err (Res F) := do
  let (g, rho, _) ← getDensity x
  let pr ← value (getP gamma nm x)
  let r ← Tools.div (pr.map1 (gamma * ·)) rho
  finish g out (r.map1 sqrt)

/-- prim_vars.py:271-283 `get_mach`. -/
def getMach (sqrt : F → F) (gamma : F) (nm : Option Int) (x : Input F) (out : Option (GData F) := Option.none) : Except Err (Res F) := do
  let (g, vx, _) ← getV 1 x
  let vy ← value (getV 2 x)
  let vz ← value (getV 3 x)
  let cs ← value (getSound sqrt gamma nm x)
  let r ← Tools.div ((← Tools.sq3 vx vy vz).map1 sqrt) cs
  finish g out r

/-- prim_vars.py:286-316 `get_mhd_Bx`, `get_mhd_By`, `get_mhd_Bz` (0, 1, 2). -/
def getMhdB (k : Nat) (x : Input F) (out : Option (GData F) := Option.none) : Except Err (Res F) := do
  let (g, v) ← parse x
  let r ← (← need v).comp (5 + k)
  finish g out r

/-- prim_vars.py:319-327 `get_mhd_Bi`. -/
def getMhdBi (x : Input F) (out : Option (GData F) := Option.none) : Except Err (Res F) := do
  let (g, v) ← parse x
  let r ← (← need v).comps 5 8
  finish g out r

/-- prim_vars.py:330-340 `get_mhd_mag_p`. -/
def getMhdMagP (mu0 : F) (x : Input F) (out : Option (GData F) := Option.none) : Except Err (Res F) := do
  let (g, bx, _) ← getMhdB 0 x
  let b_y ← value (getMhdB 1 x)
  let bz ← value (getMhdB 2 x)
  let s ← Tools.sq3 bx b_y bz
  finish g out ((s.map1 (Tools.lit 1 / Tools.lit 2 * ·)).map1 (· / mu0))

/-- prim_vars.py:343-357 `get_mhd_p`. -/
def getMhdP (gamma mu0 : F) (x : Input F) (out : Option (GData F) := Option.none) : Except Err (Res F) := do
  let (g, v) ← parse x
  let ke ← flowEnergy x
  let magP ← value (getMhdMagP mu0 x)
  let r ← Tools.sub (← Tools.sub (← (← need v).comp 4) ke) magP
  finish g out (r.map1 ((gamma - Tools.lit 1) * ·))

/-- prim_vars.py:360-369 `get_mhd_temp`. -/
def getMhdTemp (gamma mu0 : F) (x : Input F) (out : Option (GData F) := Option.none) : Except Err (Res F) := do
  let (g, rho, _) ← getDensity x
  let pr ← value (getMhdP gamma mu0 x)
  let r ← Tools.div pr rho
  finish g out r

/-- prim_vars.py:372-382 `get_mhd_sound`. -/
def getMhdSound (sqrt : F → F) (gamma mu0 : F) (x : Input F) (out : Option (GData F) := Option.none) : Except Err (Res F) := do
  let (g, rho, _) ← getDensity x
  let pr ← value (getMhdP gamma mu0 x)
  let r ← Tools.div (pr.map1 (gamma * ·)) rho
  finish g out (r.map1 sqrt)

/-- prim_vars.py:385-396 `get_mhd_mach`. -/
def getMhdMach (sqrt : F → F) (gamma mu0 : F) (x : Input F) (out : Option (GData F) := Option.none) : Except Err (Res F) := do
  let (g, vx, _) ← getV 1 x
  let vy ← value (getV 2 x)
  let vz ← value (getV 3 x)
  let cs ← value (getMhdSound sqrt gamma mu0 x)
  let r ← Tools.div ((← Tools.sq3 vx vy vz).map1 sqrt) cs
  finish g out r

/-- mag_sq.py:12-42 `mag_sq`. -/
def magSq (coords : List Char) (x : Input F) (out : Option (GData F) := Option.none) : Except Err (Res F) := do
  let (g, v) ← parse x
  let (i, j) ← Tools.coordBounds coords
  let w ← (← need v).comps i j
  let _ ← w.compFlat 0
  let r ← (← Tools.mul w w).sumLast
  finish g out r

/-- pressure_diagnostics.py:52-72 `get_p_par`: the grid is that of the field. -/
def getPPar (p_in b_in : Input F) : Except Err (PyGrid F × NArr F) := do
  let (_, p) ← parse p_in
  let (_, b) ← parse b_in
  let p ← need p
  let pxx ← p.comp 0
  let pxy ← p.comp 1
  let pxz ← p.comp 2
  let pyy ← p.comp 3
  let pyz ← p.comp 4
  let pzz ← p.comp 5
  let b ← need b
  let bx ← b.comp 0
  let b_y ← b.comp 1
  let bz ← b.comp 2
  let (g, m, _) ← magSq "0:3".toList b_in
  let diag ← Tools.add (← Tools.add (← Tools.mul (← Tools.mul bx bx) pxx) (← Tools.mul (← Tools.mul b_y b_y) pyy))
    (← Tools.mul (← Tools.mul bz bz) pzz)
  let off ← Tools.add (← Tools.add (← Tools.mul (← Tools.mul bx b_y) pxy) (← Tools.mul (← Tools.mul bx bz) pxz))
    (← Tools.mul (← Tools.mul b_y bz) pyz)
  let r ← Tools.div (← Tools.add diag (off.map1 (Tools.lit 2 * ·))) m
  return (g, r)

/-- pressure_diagnostics.py:84-95 `get_p_perp`. -/
def getPPerp (p_in b_in : Input F) : Except Err (PyGrid F × NArr F) := do
  let (_, p) ← parse p_in
  let p ← need p
  let pxx ← p.comp 0
  let pyy ← p.comp 3
  let pzz ← p.comp 5
  let (g, pPar) ← getPPar p_in b_in
  let r ← Tools.sub (← Tools.add (← Tools.add pxx pyy) pzz) pPar
  return (g, r.map1 (· / Tools.lit 2))

/-- pressure_diagnostics.py:109-148 `get_agyro`.  (Simplification: the formula is evaluated from the values of the arguments,
where the code uses the results of the calls before it.) -/
def getAgyro (sqrt : F → F) (measure : List Char) (p_in b_in : Input F) : Except Err (PyGrid F × NArr F) := do
  let (_, p) ← parse p_in
  let (_, b) ← parse b_in
  let p ← need p
  let b ← need b
  let (g, _, _) ← magSq "0:3".toList b_in
  let _ ← getPPar p_in b_in
  let _ ← getPPerp p_in b_in
  let r ← Tools.getAgyro sqrt p b measure
  return (g, r)

/-- pressure_diagnostics.py:75-81 `get_gkyl_10m_p_par` (`f` is `get_p_par`), 98-106 `get_gkyl_10m_p_perp` (`get_p_perp`),
151-157 `get_gkyl_10m_agyro`: `f` is called with pairs made of the grids and the values. -/
def tenMoment (f : Input F → Input F → Except Err (PyGrid F × NArr F)) (species field : Input F) :
    Except Err (PyGrid F × NArr F) := do
  let (pg, p, _) ← getPij species
  let (fg, fv) ← parse field
  let b ← (← need fv).comps 3 6
  f (.pair pg (some p)) (.pair fg (some b))

/-- The functions with one argument, with their options. -/
inductive Tool (F : Type) where
  | density
  | velocity (k : Nat)
  | velocities
  | stress (c i j : Nat)
  | tensor
  | pressure (gamma : F) (nm : Option Int)
  | kinetic (gamma : F) (nm : Option Int)
  | temperature (gamma : F) (nm : Option Int)
  | sound (gamma : F) (nm : Option Int)
  | mach (gamma : F) (nm : Option Int)
  | field (k : Nat)
  | fields
  | magneticPressure (mu0 : F)
  | mhdPressure (gamma mu0 : F)
  | mhdTemperature (gamma mu0 : F)
  | mhdSound (gamma mu0 : F)
  | mhdMach (gamma mu0 : F)
  | squared (coords : List Char)

/-- The function called with an argument, and maybe a dataset for the output (`out_mom`, or `output` of `mag_sq`). -/
def Tool.run (sqrt : F → F) : Tool F → Input F → Option (GData F) → Except Err (Res F)
  | .density => fun x out => getDensity x out
  | .velocity k => fun x out => getV k x out
  | .velocities => fun x out => getVi x out
  | .stress c i j => fun x out => getPab c i j x out
  | .tensor => fun x out => getPij x out
  | .pressure gamma nm => fun x out => getP gamma nm x out
  | .kinetic gamma nm => fun x out => getKe gamma nm x out
  | .temperature gamma nm => fun x out => getTemp gamma nm x out
  | .sound gamma nm => fun x out => getSound sqrt gamma nm x out
  | .mach gamma nm => fun x out => getMach sqrt gamma nm x out
  | .field k => fun x out => getMhdB k x out
  | .fields => fun x out => getMhdBi x out
  | .magneticPressure mu0 => fun x out => getMhdMagP mu0 x out
  | .mhdPressure gamma mu0 => fun x out => getMhdP gamma mu0 x out
  | .mhdTemperature gamma mu0 => fun x out => getMhdTemp gamma mu0 x out
  | .mhdSound gamma mu0 => fun x out => getMhdSound sqrt gamma mu0 x out
  | .mhdMach gamma mu0 => fun x out => getMhdMach sqrt gamma mu0 x out
  | .squared coords => fun x out => magSq coords x out

end
end Pgkyl.Inp
