import Verif.Model.Dg
import Verif.Model.Commands
import Verif.Model.Integrate
import Verif.Model.Select
/-!
# Model of the commands `interpolate`, `differentiate`, `integrate` and `select`

commands/interpolate.py, differentiate.py, integrate.py and the part of select.py without `--multiblock`.  The messages
and the option `compgrid` are not modelled.
-/

namespace Pgkyl.Cmd
open Dg

/-- interpolate.py:26-47 and differentiate.py:26-41: the local variable `is_modal`. -/
def optModal (b : Option String) : Option Bool :=
  if b = some "ms" ∨ b = some "mo" ∨ b = some "mt" ∨ b = some "gkhyb" ∨ b = some "pkpmhyb" then some true
  else if b = some "ns" then some false
  else none

/-- The same lines: the local variable `basis_type`, which only the nodal branch uses. -/
def optBasis (b : Option String) : Option String :=
  if b = some "ms" ∨ b = some "ns" then some "serendipity"
  else if b = some "mo" then some "maximal-order"
  else if b = some "mt" then some "tensor"
  else if b = some "gkhyb" then some "gkhybrid"
  else if b = some "pkpmhyb" then some "hybrid"
  else none

section
variable {F : Type}

/-- interpolate.py:57, differentiate.py:51 `is_modal or dat.ctx["is_modal"]`: without the entry a KeyError.  The readers
only ever store `True` (gkyl_reader.py:194, gkyl_adios_reader.py:155, 159). -/
def isModal (b : Option String) (d : GData F) : Except Err Bool :=
  if optModal b = some true then .ok true
  else match Dict.get? d.ctx.other "is_modal" with
    | none => .error .keyError
    | some s => .ok (s == "True")

/-- A number stored in the metadata, which are texts here. -/
def metaNat (d : GData F) (key : String) : Option Nat :=
  match Dict.get? d.ctx.other key with
  | none => none
  | some s => (pyInt s.toList).map Int.toNat

/-- What dg.py:224-230, 391-425 read from a dataset: gdata.py:208-236, 259-275. -/
def sourceOf (d : GData F) : Except Err (Source F) :=
  match d.grid, d.values, Dict.get? d.ctx.other "grid_type" with
  | some g, some v, some t => .ok {
      numDims := d.numDims, numComps := d.numComps, grid := g, values := v
      polyOrder := metaNat d "poly_order"
      basisType := Dict.get? d.ctx.other "basis_type"
      gridType := t
      numCdim := (metaNat d "num_cdim").getD 0
      numVdim := (metaNat d "num_vdim").getD 0 }
  | _, _, none => .error .keyError
  | _, _, _ => .error .typeError

/-- interpolate.py:49-62, differentiate.py:43-56: the interpolation object of a dataset, and whether it is the modal
one.  A missing entry `basis_type` is a KeyError.  The modal object gets the name given on the command line, the nodal one
the translated name (None: AttributeError; without an order: TypeError).  `read` is not used (in the modal case it even
ends up as the argument `periodic`). -/
def dgOf (po : Option Nat) (b : Option String) (ni : Option Nat) (d : GData F) : Except Err (Bool × Interp F) :=
  if b = none ∧ Dict.get? d.ctx.other "basis_type" = none then .error .keyError
  else do
    let modal ← isModal b d
    let src ← sourceOf d
    if modal then do
      let o ← modalInit src po b ni
      return (true, o)
    else match optBasis b, po with
      | some name, some p => do
        let o ← nodalInit src p name ni
        return (false, o)
      | none, _ => .error .attributeError
      | _, none => .error .typeError

end

section
variable {F : Type} [Add F] [Sub F] [Mul F] [Div F] [Neg F] [Zero F] [One F] [IntCast F] [NatCast F]

/-- interpolate.py:64-75: all the fields of the dataset, `int(num_comps / num_nodes)` of them. -/
def interpolateOf (h5 : Except Err (List (List F))) (po : Option Nat) (b : Option String) (ni : Option Nat) (d : GData F) :
    Except Err (List (NArr F) × NArr F) := do
  let (modal, o) ← dgOf po b ni d
  let comp := Comp.tuple (List.range (d.numComps / o.numNodes))
  if modal then modalInterpolate o comp else nodalInterpolate h5 o comp

/-- differentiate.py:58-66: the derivative of the first field only (`comp=0`). -/
def differentiateOf (po : Option Nat) (b : Option String) (ni direction : Option Nat) (d : GData F) :
    Except Err (List (NArr F) × NArr F) := do
  let (modal, o) ← dgOf po b ni d
  if modal then modalDifferentiate o direction 0 else nodalDifferentiate o direction 0

variable [Min F] [Max F]

/-- commands/interpolate.py:21-77 `interpolate`. -/
def interpolateCmd (h5 : Except Err (List (List F))) (po : Option Nat) (b : Option String) (ni : Option Nat)
    (use tag : Option Tag) (label : List Char) (s : Space F) : Except Err (Space F) :=
  pushCmd (interpolateOf h5 po b ni) use tag label s

/-- commands/differentiate.py:20-69 `differentiate`. -/
def differentiateCmd (po : Option Nat) (b : Option String) (ni direction : Option Nat) (use tag : Option Tag)
    (label : List Char) (s : Space F) : Except Err (Space F) :=
  pushCmd (differentiateOf po b ni direction) use tag label s

end

/-- commands/integrate.py:15-34 `integrate`: the axis is always a text.  (Without a tag the code calls `integrate` with
`overwrite=True`, which pushes the same result into the dataset.) -/
def integrateCmd {F : Type} [Add F] [Sub F] [Mul F] [Div F] [Zero F] [IntCast F] [Min F] [Max F] (axis : List Char)
    (use tag : Option Tag) (label : List Char) (s : Space F) : Except Err (Space F) :=
  pushCmd (fun d => do
    let (g, v, _) ← Calculus.integrate d (.str axis) false
    return (g, v)) use tag label s

/-- commands/select.py:143-161 `select` without `--multiblock`: the coordinates `z0`, …, `z5` and `comp` are texts.
(Without a tag the code calls `select` with `overwrite=True`, which pushes the same result into the dataset.) -/
def selectCmd {F : Type} [LT F] [DecidableLT F] [Min F] [Max F] (pf : List Char → Option F) (comp : Option (List Char))
    (zs : List (Option (List Char))) (use tag : Option Tag) (label : List Char) (s : Space F) : Except Err (Space F) :=
  pushCmd (fun d => do
    let (g, v, _) ← select pf d (comp.map .str) (zs.map fun z => z.map .str) false
    return (g, v)) use tag label s

end Pgkyl.Cmd
