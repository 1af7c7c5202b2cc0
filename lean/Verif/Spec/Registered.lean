import Verif.Model.Registered
/-! # Specification for C161: how many letters of a command are enough -/

namespace Pgkyl.Spec
open Cli

/-- The commands, each with the number of letters that are enough. -/
def enough : List (Str × Nat) :=
  [
    ("activate".toList, 2), ("agyro".toList, 2), ("animate".toList, 2), ("collect".toList, 2), ("current".toList, 2),
    ("deactivate".toList, 2), ("differentiate".toList, 2), ("energetics".toList, 2), ("euler".toList, 2), ("ev".toList, 2),
    ("extractinput".toList, 2), ("fft".toList, 1), ("gk-distf".toList, 4), ("gk-energy-balance".toList, 4),
    ("gk-nodes".toList, 4), ("gk-particle-balance".toList, 4), ("grid".toList, 3), ("growth".toList, 3), ("info".toList, 3),
    ("integrate".toList, 5), ("interpolate".toList, 5), ("laguerrecompose".toList, 2), ("listoutputs".toList, 2),
    ("load".toList, 2), ("magsq".toList, 3), ("mask".toList, 3), ("mhd".toList, 2), ("mom-agyro".toList, 2),
    ("pkpm".toList, 2), ("plot".toList, 2), ("pr".toList, 2), ("relchange".toList, 1), ("select".toList, 2),
    ("style".toList, 2), ("tenmoment".toList, 2), ("trajectory".toList, 4), ("transformframe".toList, 4),
    ("val2coord".toList, 2), ("velocity".toList, 2), ("write".toList, 1)
  ]

end Pgkyl.Spec
