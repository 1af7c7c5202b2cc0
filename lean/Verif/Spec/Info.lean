import Verif.Model.Info
import Verif.Spec.Idx
/-! # Specification of what `info` prints -/

namespace Pgkyl.Spec
open Text

section
variable {F : Type}

/-- `x` is the best of the values of an array that are not NaN, and `idx` is the first place, in the order of the indices,
where it stands. -/
def IsBest (nan : F → Bool) (better : F → F → Prop) (v : NArr F) (x : F) (idx : List Nat) : Prop :=
  v.get? idx = some x ∧ nan x = false ∧
    ∀ (idx' : List Nat) (y : F), v.get? idx' = some y → nan y = false → ¬ better y x ∧ (y = x → ¬ idx' < idx)

/-- What is known of a dataset with a grid and values. -/
structure Described (d : GData F) (cells : List Nat) (nc : Nat) (lower upper : List F) (gridType : String) (v : NArr F) : Prop where
  hasCells : d.ctx.cells = some cells
  dims : 1 ≤ cells.length
  comps : d.ctx.numComps = some nc
  pos : 1 ≤ nc
  hasLower : d.ctx.lower = some lower ∧ lower.length = cells.length
  hasUpper : d.ctx.upper = some upper ∧ upper.length = cells.length
  hasType : Dict.get? d.ctx.other "grid_type" = some gridType
  values : d.values = some v
  shape : v.shape = cells ++ [nc]
  wf : v.WF

/-- The line for an entry of the metadata, if there is one. -/
def entryLine (fmt : Fmt F) (other : Dict String) (key text : String) : List (List Char) :=
  match Dict.get? other key with
  | some v => [text.toList ++ fmt.entry key v]
  | none => []

/-- The line for dimension `d`. -/
def dimLine (fmt : Fmt F) (mark : String) (cells : List Nat) (lower upper : List F) (d : Nat) : List Char :=
  "│  ".toList ++ mark.toList ++ "─ Dim ".toList ++ dec d ++ ": Num. cells: ".toList ++ dec (cells.getD d 0) ++
    "; Lower: ".toList ++ (lower[d]?.map fmt.num).getD [] ++ "; Upper: ".toList ++ (upper[d]?.map fmt.num).getD []

/-- The line for an extreme value; the component is only given when there are several. -/
def extremeLine (fmt : Fmt F) (name : String) (nc : Nat) (x : F) (cell : List Nat) (comp : Nat) : List Char :=
  "├─ ".toList ++ name.toList ++ ": ".toList ++ fmt.num x ++ " at ".toList ++ fmt.pos cell ++
    if 1 < nc then " component ".toList ++ dec comp else []

/-- The lines for the basis. -/
def basisLines (fmt : Fmt F) (other : Dict String) : List (List Char) :=
  "├─ DG info:".toList :: (entryLine fmt other "poly_order" "│  ├─ Polynomial Order: " ++
    (entryLine fmt other "basis_type" "│  └─ Basis Type: ").map fun l =>
      l ++ if Dict.get? other "is_modal" = some "True" then " (modal)".toList else [])

/-- The lines for the build, if something is known of it. -/
def buildLines (fmt : Fmt F) (other : Dict String) : List (List Char) :=
  let ls := entryLine fmt other "changeset" "│  ├─ Changeset: " ++ entryLine fmt other "builddate" "│  └─ Build Date: "
  if ls = [] then [] else "├─ Created with Gkeyll:".toList :: ls

/-- The lines for the geometry, if something is known of it; `name` is that of its type, if recorded. -/
def geometryLines (fmt : Fmt F) (other : Dict String) (name : Option (List Char)) : List (List Char) :=
  let ls := (match name with | some t => ["│  ├─ Type: ".toList ++ t] | none => []) ++
    entryLine fmt other "geqdsk_sign_convention" "│  ├─ GEQDSK sign convention: "
  if ls = [] then [] else "├─ Geometry info:".toList :: ls

/-- The keys that have their own lines (or are left out). -/
def namedKeys : List String :=
  ["time", "frame", "lower", "upper", "cells", "grid_type", "poly_order", "basis_type", "is_modal", "num_comps", "changeset",
    "builddate", "geometry_type", "geqdsk_sign_convention"]

/-- The name of the recorded type of geometry. -/
def GeometryName (other : Dict String) (name : Option (List Char)) : Prop :=
  match Dict.get? other "geometry_type" with
  | none => name = none
  | some g => ∃ k : Nat, g.toList = dec k ∧ k < 5 ∧ name =
      (["GKYL_GEOMETRY_NONE", "GKYL_GEOMETRY_TOKAMAK", "GKYL_GEOMETRY_MIRROR", "GKYL_GEOMETRY_MAPC2P",
        "GKYL_GEOMETRY_FROMFILE"][k]?).map String.toList

/-- The lines of `info`; `M` is the maximum, at component `c` of cell `p`, `m` the minimum, at component `e` of cell `q`. -/
def infoLines (fmt : Fmt F) (other : Dict String) (cells : List Nat) (nc : Nat) (lower upper : List F) (gridType : String)
    (geometry : Option (List Char)) (M : F) (p : List Nat) (c : Nat) (m : F) (q : List Nat) (e : Nat) : List (List Char) :=
  entryLine fmt other "time" "├─ Time: " ++ entryLine fmt other "frame" "├─ Frame: " ++
  ["├─ Number of components: ".toList ++ dec nc, "├─ Number of dimensions: ".toList ++ dec cells.length,
    "├─ Grid: (".toList ++ gridType.toList ++ ")".toList] ++
  (List.range (cells.length - 1)).map (dimLine fmt "├" cells lower upper) ++
  [dimLine fmt "└" cells lower upper (cells.length - 1),
    extremeLine fmt "Maximum" nc M p c, extremeLine fmt "Minimum" nc m q e] ++
  basisLines fmt other ++ buildLines fmt other ++ geometryLines fmt other geometry ++
  (other.filter fun x => x.1 ∉ namedKeys).map fun x => "├─ ".toList ++ x.1.toList ++ ": ".toList ++ fmt.entry x.1 x.2

end
end Pgkyl.Spec
