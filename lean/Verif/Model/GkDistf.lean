import Verif.Model.Gk
import Verif.Model.Cli
import Verif.Model.CompOps
import Verif.Model.DgCommands
/-!
# Model of `load_gk_distf` and of the command `gk_distf`

commands/gk_distf.py.  The choice of the frames is in Model/Gk.lean.  Messages are not modelled.  Loading a file is a
parameter: `load name vel` stands for `GData(name, mapc2p_vel_name=vel)`.
-/

namespace Pgkyl.Gk
open Dg Cmd

/-- The arguments of `load_gk_distf` (gk_distf.py:74-85). -/
structure DistfArgs where
  name : Str
  species : Str
  frame : Int
  tag : Tag := "f".toList
  suffix : Str := []
  useC2pVel : Bool := false
  useMc2nu : Bool := false
  useMapc2p : Bool := false
  block : Option Int := none
  interp : Option Nat := none
  jfFile : Option Str := none
  velFile : Option Str := none
  jacobvelFile : Option Str := none
  mc2nuFile : Option Str := none
  mapc2pFile : Option Str := none
  jacobtotFile : Option Str := none

/-- gk_distf.py:88 (and 204). -/
def distfPrefix (name : Str) (block : Option Int) : Str :=
  match block with
  | some b => name ++ "_b".toList ++ pyStr b
  | none => name

/-- gk_distf.py:89 (and 205). -/
def frameInfix (suffix : Str) : Str := if suffix = [] then [] else suffix ++ ['_']

/-- gk_distf.py:91-93. -/
def DistfArgs.jf (a : DistfArgs) : Str :=
  a.jfFile.getD (distfPrefix a.name a.block ++ '-' :: a.species ++ '_' :: frameInfix a.suffix ++ pyStr a.frame ++ ".gkyl".toList)

/-- gk_distf.py:94-96. -/
def DistfArgs.vel (a : DistfArgs) : Str :=
  a.velFile.getD (distfPrefix a.name a.block ++ '-' :: a.species ++ "_mapc2p_vel.gkyl".toList)

/-- gk_distf.py:97-99. -/
def DistfArgs.jacobvel (a : DistfArgs) : Str :=
  a.jacobvelFile.getD (distfPrefix a.name a.block ++ '-' :: a.species ++ "_jacobvel.gkyl".toList)

/-- gk_distf.py:100-102. -/
def DistfArgs.mc2nu (a : DistfArgs) : Str :=
  a.mc2nuFile.getD (distfPrefix a.name a.block ++ "-mc2nu_pos_deflated.gkyl".toList)

/-- gk_distf.py:103-105. -/
def DistfArgs.mapc2p (a : DistfArgs) : Str :=
  a.mapc2pFile.getD (distfPrefix a.name a.block ++ "-mapc2p_deflated.gkyl".toList)

/-- gk_distf.py:106-108. -/
def DistfArgs.jacobtot (a : DistfArgs) : Str :=
  a.jacobtotFile.getD (distfPrefix a.name a.block ++ "-jacobtot_inv.gkyl".toList)

section
variable {F : Type} [Add F] [Sub F] [Mul F] [Div F] [Neg F] [Zero F] [One F] [IntCast F] [NatCast F]

/-- gk_distf.py:40-45 `_extract_values_along_dimension`.  (An array with fewer axes than indices is an IndexError; with
more, which does not happen, the rest would be flattened.) -/
def alongAxis (v : NArr F) (axis cdim : Nat) : Except Err (List F) :=
  if v.shape.length ≠ cdim + 1 then .error .indexError
  else match v.shape[axis]? with
    | none => .error .indexError
    | some n => (List.range n).mapM fun i =>
        match v.get? (((List.replicate (cdim + 1) 0).set axis i).set cdim axis) with
        | some x => .ok x
        | none => .error .indexError

/-- `GInterpModal(data, 1, basis, interp).interpolate(comp)` (gk_distf.py:54, 120-121). -/
def interpolated (basis : String) (interp : Option Nat) (d : GData F) (comp : Comp) : Except Err (List (NArr F) × NArr F) := do
  let src ← sourceOf d
  let o ← modalInit src (some 1) (some basis) interp
  modalInterpolate o comp

/-- gk_distf.py:58-59: one axis of the new grid. -/
def mapAxis (v : NArr F) (cdim : Nat) (grid : List (NArr F)) (d : Nat) : Except Err (List (NArr F)) := do
  let c ← alongAxis v d cdim
  let nodes ← toNodal (0 : F) (1 / ((2 : Nat) : F)) c
  if d < grid.length then return grid.set d (NArr.ofList nodes) else .error .indexError

/-- gk_distf.py:49-61 `_apply_mc2nu_grid`. -/
def applyMap (load : Str → Option Str → Except Err (GData F)) (grid : List (NArr F)) (file : Str) (interp : Option Nat) :
    Except Err (List (NArr F)) := do
  let m ← load file none
  let (_, v) ← interpolated "ms" interp m (.tuple (List.range m.numDims))
  (List.range m.numDims).foldlM (mapAxis v m.numDims) grid

/-- gk_distf.py:122-130: the product over configuration space; a number of velocity directions below zero means none. -/
def timesJacobian (fj jt : NArr F) : Except Err (NArr F) := do
  let fj := fj.squeeze
  let jt := jt.squeeze
  let vdim := fj.shape.length - jt.shape.length
  let f ← NArr.zip2 (· * ·) fj ⟨jt.shape ++ List.replicate vdim 1, jt.data⟩
  return ⟨f.shape ++ [1], f.data⟩

/-- gk_distf.py:132-146: the grid and the new entry for its type; `mc2nu` goes before `mapc2p`. -/
def distfGrid (load : Str → Option Str → Except Err (GData F)) (a : DistfArgs) (grid : List (NArr F)) :
    Except Err (List (NArr F) × Option String) :=
  if a.useMc2nu then do
    let g ← applyMap load grid a.mc2nu a.interp
    return (g, some (if a.useC2pVel then "c2p_vel + mc2nu" else "mc2nu"))
  else if a.useMapc2p then do
    let g ← applyMap load grid a.mapc2p a.interp
    return (g, some (if a.useC2pVel then "c2p_vel + mapc2p" else "mapc2p"))
  else return (grid, none)

/-- `ctx["grid_type"] = t`. -/
def setGridType (c : Ctx F) : Option String → Ctx F
  | none => c
  | some t => { c with other := Dict.set c.other "grid_type" t }

variable [Min F] [Max F]

/-- gk_distf.py:115-117: the data divided by the velocity Jacobian, in a dataset of its own. -/
def overJacobvel (jf jv : GData F) : Except Err (GData F) :=
  match jf.grid, jf.values, jv.values with
  | some g, some a, some b => do
    let q ← NArr.zip2 (· / ·) a b
    (GData.new "default".toList [] jf.ctx).push g q
  | _, _, _ => .error .typeError

/-- gk_distf.py:74-150 `load_gk_distf`. -/
def loadDistf (load : Str → Option Str → Except Err (GData F)) (a : DistfArgs) : Except Err (GData F) := do
  let jf ← load a.jf (if a.useC2pVel then some a.vel else none)
  let jv ← load a.jacobvel none
  let jt ← load a.jacobtot none
  let fj ← overJacobvel jf jv
  let (grid, v) ← interpolated "gkhyb" a.interp fj (.int 0)
  let (_, w) ← interpolated "ms" a.interp jt (.int 0)
  let f ← timesJacobian v w
  let (grid, t) ← distfGrid load a grid
  (GData.new a.tag [] (setGridType jf.ctx t)).push grid f

/-- gk_distf.py:64-70 `_resolve_optional_file_option`. -/
def optionalFile : Option Str → Bool × Option Str
  | none => (false, none)
  | some [] => (true, none)
  | some (c :: cs) => (true, some (c :: cs))

/-- gk_distf.py:221-239: the arguments for one frame. -/
def DistfArgs.at (a : DistfArgs) (vel mc2nu mapc2p : Option Str) (f : Int) : DistfArgs :=
  { a with
    frame := f
    useC2pVel := (optionalFile vel).1, velFile := (optionalFile vel).2
    useMc2nu := (optionalFile mc2nu).1, mc2nuFile := (optionalFile mc2nu).2
    useMapc2p := (optionalFile mapc2p).1, mapc2pFile := (optionalFile mapc2p).2 }

/-- gk_distf.py:204-206, 221-245: the datasets of all the frames are added, then, if there are several, the labels are made. -/
def gkDistf (load : Str → Option Str → Except Err (GData F)) (glob : Str → List Str) (spec : Str) (a : DistfArgs)
    (vel mc2nu mapc2p : Option Str) (s : Space F) : Except Err (Space F) := do
  let stem := distfPrefix a.name a.block ++ '-' :: a.species ++ '_' :: frameInfix a.suffix
  let fs ← frames spec stem (glob (stem ++ "*.gkyl".toList))
  let s ← fs.foldlM (fun s f => do return s.addNew (← loadDistf load (a.at vel mc2nu mapc2p f))) s
  if 1 < fs.length then Cli.setUniqueLabels s else return s

end
end Pgkyl.Gk
