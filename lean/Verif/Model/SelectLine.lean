import Verif.Model.OptionTable
import Verif.Model.DgCommands
/-!
# Model of the command `select` from the words of the command line

`src/postgkyl/commands/select.py:10-37, 143-161` behind Click's parser.
-/

namespace Pgkyl
namespace Options
variable {F : Type}

/-- select.py:10-37, 143-161: the words behind `select`, the store before and after, and the words left for the next command.  `multi`
stands for the branch of `--multiblock` (lines 39-141, modelled in `Model/Multiblock.lean`), which sees the values of the options only. -/
def selectLine [LT F] [DecidableLT F] [Min F] [Max F] (pf : List Char → Option F)
    (multi : (Text → Option Text) → Space F → Except Err (Space F)) (ws : List Text) (s : Space F) : Except Err (Space F × List Text) :=
  match parseOpts cmd_select ws with
  | .error _ => .error .fail
  | .ok r =>
    let kwargs := valueOf r.1
    let zs := [kwargs "z0".toList, kwargs "z1".toList, kwargs "z2".toList, kwargs "z3".toList, kwargs "z4".toList, kwargs "z5".toList]
    let result :=
      if (kwargs "multiblock".toList).isSome then multi kwargs s
      else Cmd.selectCmd pf (kwargs "comp".toList) zs (kwargs "use".toList) (kwargs "tag".toList) ((kwargs "label".toList).getD []) s
    result.map fun s' => (s', r.2)

end Options
end Pgkyl
