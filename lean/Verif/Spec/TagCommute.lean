import Verif.Model.Commands
import Verif.Model.DgCommands
import Mathlib.Algebra.Order.Field.Basic
/-!
# The commands that replace the datasets they are applied to
-/

namespace Pgkyl.Spec
open Cmd

/-- `InPlace c use`: `c` is one of the commands, given with `--use use` and without `--tag`, that put their result in
the place of the dataset it was computed from; whatever the other options are. -/
inductive InPlace {F : Type} [_root_.Field F] [LinearOrder F] : (Space F → Except Err (Space F)) → Option Tag → Prop
  | select (pf : List Char → Option F) (comp : Option (List Char)) (zs : List (Option (List Char)))
      (use : Option Tag) (label : List Char) : InPlace (selectCmd pf comp zs use none label) use
  | integrate (axis : List Char) (use : Option Tag) (label : List Char) :
      InPlace (integrateCmd axis use none label) use
  | interpolate (h5 : Except Err (List (List F))) (order : Option Nat) (basis : Option String) (points : Option Nat)
      (use : Option Tag) (label : List Char) : InPlace (interpolateCmd h5 order basis points use none label) use
  | differentiate (order : Option Nat) (basis : Option String) (points direction : Option Nat) (use : Option Tag)
      (label : List Char) : InPlace (differentiateCmd order basis points direction use none label) use
  | magsq (use : Option Tag) (label : List Char) : InPlace (magsqCmd use none label) use
  | grid (use : Option Tag) (label : List Char) : InPlace (gridCmd use none label) use
  | euler (sqrt : F → F) (gamma : F) (quantity : String) (use : Option Tag) (label : List Char) :
      InPlace (fluidCmd (eulerVar sqrt gamma quantity) use none label) use
  | mhd (sqrt : F → F) (gamma mu0 : F) (quantity : String) (use : Option Tag) (label : List Char) :
      InPlace (fluidCmd (mhdVar sqrt gamma mu0 quantity) use none label) use
  | tenmoment (sqrt : F → F) (gamma : F) (quantity : String) (use : Option Tag) (label : List Char) :
      InPlace (fluidCmd (tenVar sqrt gamma quantity) use none label) use

end Pgkyl.Spec
