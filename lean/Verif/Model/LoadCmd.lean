import Verif.Model.Cli
import Verif.Model.DgCommands
/-!
# Model of the command `load` on the datasets, `src/postgkyl/commands/load.py`, and of whole command lines

Also `GInterpModal.interpolateGrid` of `src/postgkyl/data/dg.py`, which `load --fv` uses.
-/

namespace Pgkyl

namespace Dg
variable {F : Type} [Add F] [Sub F] [Mul F] [Div F] [Neg F] [Zero F] [One F] [IntCast F] [NatCast F]

/-- dg.py:518-526: the grid of the mapped coordinates.  `_interpOnMesh` gets the number of points per cell itself (not one
more, as at dg.py:475) and the basis of the object. -/
def coordinateGrid (o : Interp F) (n : Nat) : Except Err (List (NArr F)) :=
  match o.src.grid.head? with
  | none => .error .indexError
  | some q0 => do
    match ← basisOf o.src.numDims (q0.shape.getLastD 0) with
    | none => .error .typeError
    | some (basis, p) =>
      let cMat ← createInterpMatrix o.src.numDims p basis n true true
      (List.range o.src.numDims).mapM fun (d : Nat) =>
        match o.src.grid[d]? with
        | none => .error .indexError
        | some q => interpOnMesh cMat q n o.basis true

/-- dg.py:517-539 `GInterpModal.interpolateGrid`: the grid.  For mapped velocities the variable `grid` is never set. -/
def interpolateGrid (o : Interp F) : Except Err (List (NArr F)) :=
  match o.numInterp with
  | none => .error .typeError
  | some n =>
    if o.src.gridType = "c2p" then coordinateGrid o n
    else if o.src.gridType = "c2p_vel" then .error .unboundLocal
    else make1Dgrids (List.replicate o.src.numDims n) o.src.grid o.src.numDims (some o.src.gridType)

end Dg

namespace Cli
open Dg Cmd

section
variable {F : Type} [Add F] [Sub F] [Mul F] [Div F] [Neg F] [Zero F] [One F] [IntCast F] [NatCast F] [Min F] [Max F]

/-- load.py:136-139 `--fv`: `GInterpModal(dat, 0, "ms").interpolateGrid(overwrite=True)`.  (Simplification: a dataset whose
values are not loaded, `--no-load`, is a TypeError here.) -/
def asFiniteVolume (d : GData F) : Except Err (GData F) := do
  let src ← sourceOf d
  let o ← modalInit src (some 0) (some "ms") none
  let grid ← interpolateGrid o
  d.setGrid grid

/-- load.py:136-139. -/
def fvStep (fv : Bool) (d : GData F) : Except Err (GData F) := if fv then asFiniteVolume d else .ok d

/-- load.py:141-142: a NameError (an UnboundLocalError is one) ends the program with a message. -/
def nameErrorFails {α : Type} : Except Err α → Except Err α
  | .error .unboundLocal => .error .fail
  | r => r

/-- load.py:130-140: one dataset is made and added.  `make var file` is `GData(file_name=file, var_name=var, …)`. -/
def loadOne (make : Str → Str → Except Err (GData F)) (fv : Bool) (s : Space F) (q : Str × Str) : Except Err (Space F) :=
  nameErrorFails do
    let d ← make q.1 q.2
    let d ← fvStep fv d
    return s.addNew d

/-- What the commands share: the datasets, and how many of the strings of the command line are loaded (pgkyl.py:115-118). -/
structure Session (F : Type) where
  data : Space F
  loaded : Nat

/-- load.py:60-152 `load`: `loc` are its own options, `glo` those of `pgkyl`. -/
def load (glob : Str → List Str) (make : Used → Str → Str → Except Err (GData F)) (glo : Given) (strs : List Str) (loc : Given)
    (fv : Bool) (st : Session F) : Except Err (Session F) :=
  match strs[st.loaded]? with
  | none => .error .indexError
  | some str => do
    let s ← (requests glob (resolveOpts loc glo) str).foldlM (loadOne (make (resolveOpts loc glo)) fv) st.data
    let s ← setUniqueLabels s
    return ⟨s, st.loaded + 1⟩

end

/-! ### Command lines -/

section
variable {S α : Type}

/-- Running the commands one after the other (click library, `MultiCommand.invoke` with `chain=True`).  `α` are the options of
a command.  A command other than `load` does whatever it does with the datasets; `loadStr` is `load` of one string.  The last
component is `in_data_strings_loaded`. -/
def runAll (run : Str → α → S → Except Err S) (loadStr : Str → α → S → Except Err S) (strs : List Str) :
    List (Str × α) → Nat → S → Except Err S
  | [], _, s => .ok s
  | c :: cs, idx, s =>
    if c.1 = "load".toList then
      match strs[idx]? with
      | none => .error .indexError
      | some f => do
        let s ← loadStr f c.2 s
        runAll run loadStr strs cs (idx + 1) s
    else do
      let s ← run c.1 c.2 s
      runAll run loadStr strs cs idx s

/-- A whole command line: first all the words are looked up, then the commands run. -/
def runLine (table : List Str) (glob : Str → List Str) (run : Str → α → S → Except Err S) (loadStr : Str → α → S → Except Err S)
    (line : List (Str × α)) (s : S) : Except Err S := do
  let r ← resolveAll table glob (line.map Prod.fst) []
  runAll run loadStr r.2 (r.1.zip (line.map Prod.snd)) 0 s

end
end Cli
end Pgkyl
