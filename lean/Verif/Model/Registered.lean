import Verif.Model.Cli
/-! # The commands registered in `src/postgkyl/pgkyl.py` -/

namespace Pgkyl.Cli

/-- pgkyl.py:137-176: the registered commands, under the names Click gives them: the names of the functions with `-` for `_`. -/
def registered : List Str :=
  [
    "activate".toList, "agyro".toList, "mom-agyro".toList, "animate".toList, "collect".toList, "current".toList,
    "deactivate".toList, "differentiate".toList, "energetics".toList, "euler".toList, "mhd".toList, "ev".toList,
    "extractinput".toList, "fft".toList, "gk-nodes".toList, "gk-distf".toList, "grid".toList, "growth".toList, "info".toList,
    "integrate".toList, "interpolate".toList, "laguerrecompose".toList, "listoutputs".toList, "load".toList, "magsq".toList,
    "mask".toList, "gk-energy-balance".toList, "gk-particle-balance".toList, "plot".toList, "pr".toList, "relchange".toList,
    "select".toList, "style".toList, "tenmoment".toList, "trajectory".toList, "val2coord".toList, "velocity".toList,
    "write".toList, "transformframe".toList, "pkpm".toList
  ]

/-- commands/parrotate.py:18, perprotate.py:18, bparrotate.py:18, bperprotate.py:18: commands that are defined and not
registered. -/
def rotations : List Str := ["parrotate".toList, "perprotate".toList, "bparrotate".toList, "bperprotate".toList]

end Pgkyl.Cli
