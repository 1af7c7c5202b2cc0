import Verif.Model.OptionTable
/-!
# Model of the files of a command line and the options they are loaded with

`src/postgkyl/pgkyl.py:119-133` and `src/postgkyl/commands/load.py:36-154`: what every run of the command `load` takes from the command
line.  (What it then does with the file is in `Model/LoadCmd.lean`.)
-/

namespace Pgkyl
namespace Options

/-- load.py:9-13: the name of cut `k`; number 6 is the component. -/
def cutKey (k : Nat) : Text := if k = 6 then "component".toList else 'z' :: Nat.toDigits 10 k

/-- load.py:37-49, pgkyl.py:75-84: the options that `pgkyl` and `load` share. -/
def givenOf (es : List (Text × Text)) : Cli.Given where
  cuts := fun k => valueOf es (cutKey k)
  varname := valuesOf es "varname".toList
  c2p := valueOf es "c2p".toList
  c2pVel := valueOf es "c2p_vel".toList

/-- load.py:131-139: what is handed to `GData`, for every file and variable. -/
structure Loading where
  file : Text
  used : Cli.Used
  tag : Text
  label : Option Text
  reader : Option Text
  fv : Bool
  load : Bool
  compgrid : Bool

/-- load.py:60-61, 71-139 for one call with the options `es`; `main` are the options of `pgkyl` (pgkyl.py:119-127).  The flag
`--compgrid` of `load` is not looked at (load.py:132 takes that of `pgkyl`). -/
def loadingOf (main : List (Text × Text)) (f : Text) (es : List (Text × Text)) : Loading where
  file := f
  used := Cli.resolveOpts (givenOf es) (givenOf main)
  tag := (valueOf es "tag".toList).getD "default".toList
  label := valueOf es "label".toList
  reader := valueOf es "reader".toList
  fv := (valueOf es "fv".toList).isSome
  load := decide (valueOf es "load".toList ≠ some "False".toList)
  compgrid := (valueOf main "compgrid".toList).isSome

/-- load.py:60-61, 153: each run of `load` takes the next file of the line; past the end: `IndexError`. -/
def loadings (main : List (Text × Text)) (strs : List Text) : List Call → Nat → Except Err (List Loading)
  | [], _ => .ok []
  | c :: cs, idx =>
    if c.name = "load".toList then
      match strs[idx]? with
      | none => .error .indexError
      | some f => do
        let r ← loadings main strs cs (idx + 1)
        return loadingOf main f c.given :: r
    else loadings main strs cs idx

/-- A whole command line: the loadings. -/
def lineLoads (glob : Text → List Text) (ws : List Text) : Except Err (List Loading) :=
  match parseLine cmd_cli commands glob ws with
  | .error _ => .error .fail
  | .ok r => loadings r.1 r.2.2 r.2.1 0

end Options
end Pgkyl
