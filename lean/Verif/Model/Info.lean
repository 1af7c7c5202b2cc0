import Verif.Model.Text
import Verif.Model.Bytes
/-!
# Model of `GData.info` (gdata.py:337-458) and of the command `info` (commands/info.py)

How numbers, positions and the values of metadata are turned into text is a parameter.
-/

namespace Pgkyl.Text

/-- How things are printed: numbers (`:e`), positions (`str` of a tuple) and the entry of a key of the metadata. -/
structure Fmt (F : Type) where
  num : F → List Char
  pos : List Nat → List Char
  entry : String → String → List Char

/-- `np.unravel_index(k, shape)`. -/
def unravel : List Nat → Nat → List Nat
  | [], _ => []
  | _ :: ns, k => k / ns.prod :: unravel ns (k % ns.prod)

section
variable {F : Type}

/-- gdata.py:321-333 `__dict_has_key_from_group__`, for one key: `key in self.ctx.keys()`. -/
def hasKey (c : Ctx F) (key : String) : Bool :=
  if key = "lower" then c.lower.isSome
  else if key = "upper" then c.upper.isSome
  else if key = "cells" then c.cells.isSome
  else if key = "num_comps" then c.numComps.isSome
  else (Dict.get? c.other key).isSome

/-- gdata.py:321-333 `__dict_has_key_from_group__`. -/
def hasGroup (c : Ctx F) (keys : List String) : Bool := keys.any (hasKey c)

/-- gdata.py:357-363 `info_groups`. -/
def gridKeys : List String := ["lower", "upper", "cells", "grid_type"]
/-- gdata.py:357-363. -/
def basisKeys : List String := ["poly_order", "basis_type", "is_modal", "num_comps"]
/-- gdata.py:357-363. -/
def buildKeys : List String := ["changeset", "builddate"]
/-- gdata.py:357-363. -/
def geometryKeys : List String := ["geometry_type", "geqdsk_sign_convention"]
/-- gdata.py:357-363: all of them. -/
def groupedKeys : List String := ["time", "frame"] ++ gridKeys ++ basisKeys ++ buildKeys ++ geometryKeys

/-- utils/gkeyll_enums.py:6-12 `gkyl_geometry_id`. -/
def geometryNames : List (List Char) :=
  ["GKYL_GEOMETRY_NONE".toList, "GKYL_GEOMETRY_TOKAMAK".toList, "GKYL_GEOMETRY_MIRROR".toList, "GKYL_GEOMETRY_MAPC2P".toList,
    "GKYL_GEOMETRY_FROMFILE".toList]

/-- One value in `np.nanargmax` or `np.nanargmin`: the best so far, with its position. -/
def nanStep (nan : F → Bool) (better : F → F → Bool) (i : Nat) (x : F) : Option (Nat × F) → Option (Nat × F)
  | none => if nan x then none else some (i, x)
  | some b => if !nan x && better x b.2 then some (i, x) else some b

/-- `np.nanargmax`/`np.nanmax` (with `better x y` for `x > y`) and `np.nanargmin`/`np.nanmin`: the first position of the best
value that is not NaN, and the value.  (Simplification: NumPy puts an infinity for NaN, so that it may return the position
of a NaN if all the other values are that infinity.) -/
def nanArg (nan : F → Bool) (better : F → F → Bool) : Nat → Option (Nat × F) → List F → Option (Nat × F)
  | _, best, [] => best
  | i, best, x :: xs => nanArg nan better (i + 1) (nanStep nan better i x best) xs

/-- `output += text` if the key is there. -/
def ifKey (fmt : Fmt F) (c : Ctx F) (key : String) (before after : List Char) : List Char :=
  match Dict.get? c.other key with
  | some v => before ++ fmt.entry key v ++ after
  | none => []

/-- gdata.py:368-380. -/
def infoHead (fmt : Fmt F) (d : GData F) : List Char :=
  ifKey fmt d.ctx "time" "├─ Time: ".toList ['\n'] ++ ifKey fmt d.ctx "frame" "├─ Frame: ".toList ['\n'] ++
    "├─ Number of components: ".toList ++ pyStr d.numComps ++ ['\n'] ++
    "├─ Number of dimensions: ".toList ++ pyStr d.numDims ++ ['\n']

/-- gdata.py:385-386 and 390-391: one dimension. -/
def infoDim (fmt : Fmt F) (mark : List Char) (d cells : Nat) (lo up : F) : List Char :=
  "│  ".toList ++ mark ++ "─ Dim ".toList ++ pyStr d ++ ": Num. cells: ".toList ++ pyStr cells ++
    "; Lower: ".toList ++ fmt.num lo ++ "; Upper: ".toList ++ fmt.num up

/-- gdata.py:385-386: dimension `d` and a line end. -/
def infoDimAt (fmt : Fmt F) (cells : List Nat) (lo up : List F) (d : Nat) : Except Err (List Char) :=
  match cells[d]?, lo[d]?, up[d]? with
  | some c, some l, some u => .ok (infoDim fmt "├".toList d c l u ++ ['\n'])
  | _, _, _ => .error .indexError

/-- gdata.py:390-391: the last dimension. -/
def infoDimLast (fmt : Fmt F) (n : Nat) (cells : List Nat) (lo up : List F) : Except Err (List Char) :=
  match cells.getLast?, lo.getLast?, up.getLast? with
  | some c, some l, some u => .ok (infoDim fmt "└".toList (n - 1) c l u)
  | _, _, _ => .error .indexError

/-- gdata.py:383-388: the dimensions but the last, if all the bounds are recorded. -/
def infoDims (fmt : Fmt F) (c : Ctx F) (n : Nat) (cells : List Nat) (lo up : List F) : Except Err (List Char) :=
  if hasKey c "lower" && hasKey c "upper" && hasKey c "cells" then do
    let l ← (List.range (n - 1)).mapM (infoDimAt fmt cells lo up)
    return l.flatten
  else .ok []

/-- gdata.py:381-392: the grid; `b` are the bounds. -/
def infoGrid (fmt : Fmt F) (d : GData F) (b : Option (List F × List F)) : Except Err (List Char) :=
  if hasGroup d.ctx gridKeys then
    match Dict.get? d.ctx.other "grid_type" with
    | none => .error .keyError
    | some t => match d.numCells, b with
      | some cells, some (lo, up) => do
        let l ← infoDims fmt d.ctx d.numDims cells lo up
        let k ← infoDimLast fmt d.numDims cells lo up
        return "├─ Grid: (".toList ++ t.toList ++ ")\n".toList ++ l ++ k
      | _, _ => .error .typeError
  else .ok []

/-- gdata.py:399-408: an extreme value. -/
def infoExtreme (fmt : Fmt F) (d : GData F) (shape : List Nat) (name : List Char) (b : Nat × F) : List Char :=
  "├─ ".toList ++ name ++ ": ".toList ++ fmt.num b.2 ++ " at ".toList ++ fmt.pos ((unravel shape b.1).take d.numDims) ++
    (if 1 < d.numComps then " component ".toList ++ pyStr ((unravel shape b.1).getLastD 0 : Nat) else [])

/-- gdata.py:394-410: the extremes. -/
def infoExtremes (fmt : Fmt F) (nan : F → Bool) (lt : F → F → Bool) (d : GData F) : Except Err (List Char) :=
  match d.values with
  | none => .ok []
  | some v => match nanArg nan (fun x y => lt y x) 0 none v.data, nanArg nan lt 0 none v.data with
    | some hi, some lo => .ok ('\n' :: infoExtreme fmt d v.shape "Maximum".toList hi ++
        '\n' :: infoExtreme fmt d v.shape "Minimum".toList lo)
    | _, _ => .error .valueError

/-- gdata.py:418-424: the basis; without the entry for modal data, a KeyError. -/
def infoBasisType (fmt : Fmt F) (c : Ctx F) : Except Err (List Char) :=
  match Dict.get? c.other "basis_type" with
  | none => .ok []
  | some t => match Dict.get? c.other "is_modal" with
    | none => .error .keyError
    | some m => .ok ("\n│  └─ Basis Type: ".toList ++ fmt.entry "basis_type" t ++ (if m = "True" then " (modal)".toList else []))

/-- gdata.py:411-425. -/
def infoBasis (fmt : Fmt F) (c : Ctx F) : Except Err (List Char) :=
  if hasGroup c basisKeys then do
    let t ← infoBasisType fmt c
    return "\n├─ DG info:".toList ++ ifKey fmt c "poly_order" "\n│  ├─ Polynomial Order: ".toList [] ++ t
  else .ok []

/-- gdata.py:427-437. -/
def infoBuild (fmt : Fmt F) (c : Ctx F) : List Char :=
  if hasGroup c buildKeys then
    "\n├─ Created with Gkeyll:".toList ++ ifKey fmt c "changeset" "\n│  ├─ Changeset: ".toList [] ++
      ifKey fmt c "builddate" "\n│  └─ Build Date: ".toList []
  else []

/-- gdata.py:441-443: the number of the geometry as an index. -/
def infoGeometryType (c : Ctx F) : Except Err (List Char) :=
  match Dict.get? c.other "geometry_type" with
  | none => .ok []
  | some g => match pyInt g.toList with
    | none => .error .typeError
    | some i => do
      let k ← listIndex 5 i
      return "\n│  ├─ Type: ".toList ++ geometryNames.getD k []

/-- gdata.py:439-449. -/
def infoGeometry (fmt : Fmt F) (c : Ctx F) : Except Err (List Char) :=
  if hasGroup c geometryKeys then do
    let t ← infoGeometryType c
    return "\n├─ Geometry info:".toList ++ t ++
      ifKey fmt c "geqdsk_sign_convention" "\n│  ├─ GEQDSK sign convention: ".toList []
  else .ok []

/-- gdata.py:452-456: everything else. -/
def infoOther (fmt : Fmt F) (c : Ctx F) : List Char :=
  c.other.flatMap fun e => if e.1 ∈ groupedKeys then [] else "\n├─ ".toList ++ e.1.toList ++ ": ".toList ++ fmt.entry e.1 e.2

variable [Min F] [Max F]

/-- gdata.py:337-458 `info`. -/
def info (fmt : Fmt F) (nan : F → Bool) (lt : F → F → Bool) (d : GData F) : Except Err (List Char) := do
  let bounds ← d.bounds
  let g ← infoGrid fmt d bounds
  let e ← infoExtremes fmt nan lt d
  let b ← infoBasis fmt d.ctx
  let y ← infoGeometry fmt d.ctx
  return infoHead fmt d ++ g ++ e ++ b ++ infoBuild fmt d.ctx ++ y ++ infoOther fmt d.ctx

/-- commands/info.py:27-34: what is printed for one dataset (two calls of `echo`). -/
def infoBody (fmt : Fmt F) (nan : F → Bool) (lt : F → F → Bool) (s : Space F) (out : List (List Char)) (i id : Nat) :
    Except Err (List (List Char)) :=
  match s.heap[id]? with
  | some d => do return out ++ [infoLine d i, (← info fmt nan lt d) ++ ['\n']]
  | none => .error .fail

/-- commands/info.py:12-38 without `--compact`. -/
def infoFull (fmt : Fmt F) (nan : F → Bool) (lt : F → F → Bool) (use : Option Tag) (all : Bool) (s : Space F) :
    Except Err (List (List Char)) :=
  Space.iterate (σ := List (List Char)) (fun _ => s) use true (!all) .none (infoBody fmt nan lt s) []

end
end Pgkyl.Text
