import Verif.Model.IdxParser
import Verif.Model.GkylReader
/-!
# Model of frame loading in `src/postgkyl/data/gkyl_adios_reader.py`

The ADIOS library is not modelled beyond `fh.read(name, start, count)` returning the requested block.
-/

namespace Pgkyl
namespace Adios
open GkylReader (linspace ghostBounds)

section
variable {F : Type} [LT F] [DecidableLT F]

/-- gkyl_adios_reader.py:104-113 (and 119-130 for the component): the offset and count of one parsed selection. -/
def offsetCount : Idx → Except Err (Int × Int)
  | .int i => .ok (i, 1)
  | .slice a b => .ok (a, b - a)
  | .tuple _ => .error .typeError
  | .none => .error .typeError

/-- gkyl_adios_reader.py:103-113 for one axis of extent `n`: no selection is the whole axis; `grid[d]` of a missing
grid is a TypeError. -/
def axisOC (pf : List Char → Option F) (n : Nat) (z : Option (IdxArg F)) (grid : Option (List (NArr F))) :
    Except Err (Int × Int) :=
  match z with
  | none => .ok (0, (n : Int))
  | some z =>
    match grid with
    | none => .error .typeError
    | some [] => .error .indexError
    | some (g :: _) => do offsetCount (← idxParser pf z (some g) false)

/-- gkyl_adios_reader.py:102-116: the axes.  The axes of the data come with their selections (none if there are fewer
selections). -/
def axesOC (pf : List Char → Option F) : List Nat → List (Option (IdxArg F)) → Option (List (NArr F)) →
    Except Err (List (Int × Int))
  | [], _, _ => .ok []
  | n :: ns, zs, grid => do
    let oc ← axisOC pf n (zs.headD none) grid
    let rest ← axesOC pf ns zs.tail (grid.map List.tail)
    return oc :: rest

/-- gkyl_adios_reader.py:118-131: the component. -/
def compOC (pf : List Char → Option F) (n : Nat) : Option (IdxArg F) → Except Err (Int × Int)
  | none => .ok (0, (n : Int))
  | some c => do offsetCount (← idxParser pf c none false)

/-- gkyl_adios_reader.py:97-137 `_create_offset_count`: offset and count of every axis and of the components; none if
nothing is selected.  The last extent is the number of components. -/
def createOffsetCount (pf : List Char → Option F) (numElems : List Nat) (zs : List (Option (IdxArg F)))
    (comp : Option (IdxArg F)) (grid : Option (List (NArr F))) : Except Err (Option (List (Int × Int))) := do
  let ax ← axesOC pf numElems.dropLast zs grid
  let c ← compOC pf (numElems.getLastD 0) comp
  if ((zs.take (numElems.length - 1)).any Option.isSome || comp.isSome) = true then return some (ax ++ [c])
  else return none

end

section
variable {F : Type}

/-- `fh.read(name, start=offset, count=count)` (ADIOS library): the block, or an error if it is not inside the
variable.  Without a selection the whole variable. -/
def readBlock (a : NArr F) (oc : Option (List (Int × Int))) : Except Err (NArr F) :=
  match oc with
  | none => .ok a
  | some oc =>
    if oc.length = a.shape.length ∧
        (oc.zip a.shape).all (fun p => decide (0 ≤ p.1.1 ∧ 0 < p.1.2 ∧ p.1.1 + p.1.2 ≤ (p.2 : Int))) = true then
      .ok (a.slice (oc.map fun p => (p.1.toNat, (p.1 + p.2).toNat)))
    else .error .valueError

end

section
variable {F : Type} [Add F] [Sub F] [Mul F] [Div F] [IntCast F] [LT F] [DecidableLT F]

/-- What the attributes of an ADIOS frame say, and the variable. -/
structure Frame (F : Type) where
  lower : List F
  upper : List F
  cells : List Nat
  var : NArr F

/-- gkyl_adios_reader.py:193: the uniform grid of the whole domain. -/
def uniformGrid (f : Frame F) : List (NArr F) :=
  (List.zip (List.zip f.lower f.upper) f.cells).map fun p => NArr.ofList (linspace p.1.1 p.1.2 (p.2 + 1))

/-- gkyl_adios_reader.py:199-229 for one axis of a uniform grid: bounds and cells after the restriction. -/
def restrict (lo up : F) (n : Nat) (oc : Option (Int × Int)) : F × F × Int :=
  match oc with
  | none => (lo, up, n)
  | some (o, c) =>
    let dz := (up - lo) / ((n : Int) : F)
    let lo' := lo + (o : F) * dz
    (lo', lo' + (c : F) * dz, c)

/-- gkyl_adios_reader.py:250-265 for one axis: the bounds after the adjustment to the extent `m` of the data, and the
nodes. -/
def gridAxis (b : F × F × Int) (m : Nat) : List F :=
  let g := ghostBounds b.2.2 m b.1 b.2.1
  linspace g.1 g.2 (m + 1)

/-- gkyl_adios_reader.py:173-273 `_load_frame` without a mapping: the grid and the values.  A file with a mapping and
a selection on an axis is a TypeError (`c2pLoad`). -/
def loadFrame (pf : List Char → Option F) (f : Frame F) (zs : List (Option (IdxArg F))) (comp : Option (IdxArg F)) :
    Except Err (List (List F) × NArr F) := do
  let oc ← createOffsetCount pf f.var.shape zs comp (some (uniformGrid f))
  let data ← readBlock f.var oc
  let ocs : List (Option (Int × Int)) := match oc with
    | none => f.cells.map fun _ => none
    | some l => (l.take f.cells.length).map some
  let bs := List.zipWith (fun (p : (F × F) × Nat) q => restrict p.1.1 p.1.2 p.2 q)
    (List.zip (List.zip f.lower f.upper) f.cells) ocs
  return (List.zipWith gridAxis bs data.shape, data)

/-- gkyl_adios_reader.py:232-247 with a mapping file `map` (its coefficients along the last axis): the selection is
worked out again without a grid.  The grid is one array of coefficients for each of the `dims` directions. -/
def c2pGrid (pf : List Char → Option F) (map : NArr F) (dims : Nat) (zs : List (Option (IdxArg F))) :
    Except Err (List (NArr F)) := do
  let oc ← createOffsetCount pf map.shape zs none none
  let tmp ← readBlock map oc
  let nc := tmp.shape.getLastD 0
  return (List.range dims).map fun d =>
    tmp.slice ((tmp.shape.dropLast.map fun n => (0, n)) ++ [(d * nc / dims, (d + 1) * nc / dims)])

end
end Adios
end Pgkyl
