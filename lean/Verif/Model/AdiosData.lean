import Verif.Model.Adios
import Verif.Model.AdiosDiag
import Verif.Model.GData
/-!
# Model of the datasets made from ADIOS files: `src/postgkyl/data/gkyl_adios_reader.py`

The ADIOS library is a table of attributes and a table of variables.  The library is taken to be installed (`has_adios`), and
the context to be fresh, as for every dataset the command `load` makes.
-/

namespace Pgkyl
namespace Adios
open GkylReader (ghostBounds)

/-- An ADIOS file: the three attributes every frame has, the other attributes, and the variables.  (Simplification: the
values of the other attributes are their texts.) -/
structure File (F : Type) where
  lower : List F
  upper : List F
  cells : List Nat
  attrs : Dict String
  vars : Dict (NArr F)

/-- `if a in fh.available_attributes().keys(): self.ctx[key] = ...`, gkyl_adios_reader.py:147-152, 161-166. -/
def copyAttr (attrs : Dict String) (a key : String) (c : Dict String) : Dict String :=
  match Dict.get? attrs a with
  | some v => Dict.set c key v
  | none => c

/-- gkyl_adios_reader.py:153-160: the same, and `is_modal` is set. -/
def copyModal (attrs : Dict String) (a key : String) (c : Dict String) : Dict String :=
  match Dict.get? attrs a with
  | some v => Dict.set (Dict.set c key v) "is_modal" "True"
  | none => c

section
variable {F : Type}

/-- gkyl_adios_reader.py:167-172: `shw` is the text of a value. -/
def copyVar (shw : NArr F → String) (vars : Dict (NArr F)) (a : String) (c : Dict String) : Dict String :=
  match Dict.get? vars a with
  | some v => Dict.set c a (shw v)
  | none => c

/-- gkyl_adios_reader.py:139-174 `_preload_frame`: the metadata. -/
def frameMeta (shw : NArr F → String) (f : File F) (c : Dict String) : Dict String :=
  let c := copyAttr f.attrs "changeset" "changeset" c
  let c := copyAttr f.attrs "builddate" "builddate" c
  let c := copyModal f.attrs "polyOrder" "poly_order" c
  let c := copyModal f.attrs "basisType" "basis_type" c
  let c := copyAttr f.attrs "charge" "charge" c
  let c := copyAttr f.attrs "mass" "mass" c
  let c := copyVar shw f.vars "time" c
  copyVar shw f.vars "frame" c

/-- gkyl_adios_reader.py:81-84: the names, quoted and with commas between them. -/
def nameList (vars : Dict (NArr F)) : String := String.intercalate ", " (vars.map fun p => "'" ++ p.1 ++ "'")

/-- gkyl_adios_reader.py:85-87: the names are kept for the message if the variable is missing. -/
def noteMissing (vars : Dict (NArr F)) (name : String) (c : Dict String) : Dict String :=
  match Dict.get? vars name with
  | some _ => c
  | none => Dict.set c "var_names" (nameList vars)

/-- gkyl_adios_reader.py:181-189: what is typed at the prompt, until it is the name of a variable.  Without any more input
the program ends. -/
def prompt (vars : Dict (NArr F)) : List String → Except Err (NArr F)
  | [] => .error .fail
  | a :: as =>
    match Dict.get? vars a with
    | some v => .ok v
    | none => prompt vars as

/-- gkyl_adios_reader.py:179-195: the variable and the context.  `click` is what would be typed at the prompt (none in a
script; there the message refers to a name without a value). -/
def pickVar (vars : Dict (NArr F)) (name : String) (click : Option (List String)) (c : Dict String) :
    Except Err (NArr F × Dict String) :=
  match Dict.get? vars name with
  | some v => .ok (v, c)
  | none =>
    match click with
    | none => .error .unboundLocal
    | some answers => do
      let v ← prompt vars answers
      return (v, Dict.del c "var_names")

end

section
variable {F : Type} [Add F] [Sub F] [Mul F] [Div F] [IntCast F] [LT F] [DecidableLT F]

/-- gkyl_adios_reader.py:253-261: the bounds of the axes after the adjustment to the extents of the data. -/
def adjusted (f : File F) (shape : List Nat) : List (F × F) :=
  List.zipWith (fun (p : (F × F) × Nat) m => ghostBounds p.2 m p.1.1 p.1.2) ((f.lower.zip f.upper).zip f.cells) shape

/-- What the context says about the mesh.  gkyl_adios_reader.py:314-318: the arrays of `_preload_frame`.  With a selection
lines 206-221 make new arrays, which the context does not get to know; without one (and without a mapping) lines 253-261
change the arrays in place. -/
def meshCtx (f : File F) (selected mapped : Bool) (shape : List Nat) (numComps : Nat) (other : Dict String) : Ctx F :=
  if selected || mapped then
    { cells := some f.cells, lower := some f.lower, upper := some f.upper, numComps := some numComps, other := other }
  else
    { cells := some (shape.take f.cells.length)
      lower := some ((adjusted f shape).map Prod.fst), upper := some ((adjusted f shape).map Prod.snd)
      numComps := some numComps, other := other }

/-- gkyl_adios_reader.py:234-270: the grid and its type; `grid` is the uniform grid of `loadFrame`. -/
def frameGrid (pf : List Char → Option F) (c2p : Option (NArr F)) (dims : Nat) (zs : List (Option (IdxArg F)))
    (grid : List (List F)) : Except Err (List (NArr F) × String) :=
  match c2p with
  | some m => do
    let g ← c2pGrid pf m dims zs
    return (g, "c2p")
  | none => .ok (grid.map NArr.ofList, "uniform")

/-- gdata.py:105-138 with gkyl_adios_reader.py:139-273, 310-341: `GData(file, z0=.., .., comp=.., var_name=name,
mapc2p_name=..)` for a frame.  `c2p` is the variable of the mapping file. -/
def ofFrame (pf : List Char → Option F) (shw : NArr F → String) (zs : List (Option (IdxArg F))) (comp : Option (IdxArg F))
    (name : String) (c2p : Option (NArr F)) (click : Option (List String)) (tag label : List Char) (f : File F) :
    Except Err (GData F) := do
  let c := frameMeta shw f (noteMissing f.vars name [("grid_type", "uniform")])
  let (var, c) ← pickVar f.vars name click c
  let (grid, data) ← loadFrame pf ⟨f.lower, f.upper, f.cells, var⟩ zs comp
  let (grid, gridType) ← frameGrid pf c2p f.cells.length zs grid
  let nc ← recordedComps data
  let selected := (zs.take (var.shape.length - 1)).any Option.isSome || comp.isSome
  return {
    grid := some grid, values := some data
    ctx := meshCtx f selected c2p.isSome data.shape nc (Dict.set c "grid_type" gridType)
    tag := tag, customLabel := label }

omit [Add F] [Sub F] [Mul F] [Div F] [IntCast F] [LT F] [DecidableLT F] in
/-- gkyl_adios_reader.py:291-295 `fh.read(name)`. -/
def readVar (vars : Dict (NArr F)) (n : List Char) : Except Err (NArr F) :=
  match Dict.get? vars (String.ofList n) with
  | some a => .ok a
  | none => .error .keyError

/-- The same for a history: gkyl_adios_reader.py:275-308, 334-341 (nothing is preloaded). -/
def ofHistory (tag label : List Char) (vars : Dict (NArr F)) : Except Err (GData F) := do
  let (grid, data) ← loadDiagnostic (vars.map fun p => p.1.toList) (readVar vars)
  let nc ← recordedComps data
  return { grid := some [grid], values := some data
           ctx := { numComps := some nc, other := [("grid_type", "uniform")] }, tag := tag, customLabel := label }

/-- gkyl_adios_reader.py:66-95 `is_compatible` and 321-341 `load`: a file with a variable whose name contains `TimeMesh` is
a history, any other a frame. -/
def ofFile (pf : List Char → Option F) (shw : NArr F → String) (zs : List (Option (IdxArg F))) (comp : Option (IdxArg F))
    (name : String) (c2p : Option (NArr F)) (click : Option (List String)) (tag label : List Char) (f : File F) :
    Except Err (GData F) :=
  if f.vars.any (fun p => decide ("TimeMesh".toList <:+: p.1.toList)) then ofHistory tag label f.vars
  else ofFrame pf shw zs comp name c2p click tag label f

end
end Adios
end Pgkyl
