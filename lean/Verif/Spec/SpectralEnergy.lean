import Verif.Spec.Spectral
/-! # Specification: energy and symmetry of a spectrum -/

namespace Pgkyl.Spec

/-- The mode with the opposite wave vector: in a direction with `n` points entry `i` stands for `i` waves and entry `n - i` for
`-i` waves. -/
def opposite (shape k : List Nat) : List Nat := List.zipWith (fun n i => (n - i) % n) shape k

end Pgkyl.Spec
