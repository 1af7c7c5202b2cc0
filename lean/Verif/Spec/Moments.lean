import Mathlib.Algebra.Field.Defs
/-! # Specification: conserved variables of the fluid models, vectors and tensors -/

namespace Pgkyl.Spec
variable {F : Type} [_root_.Field F]

/-- The scalar product of two vectors with components 0, 1, 2. -/
def dot (u r : Nat → F) : F := u 0 * r 0 + u 1 * r 1 + u 2 * r 2

/-- The five-moment (Euler) state with density `rho`, velocity `u` and pressure `p`: density, momentum, total energy. -/
def fiveMoment (gamma rho : F) (u : Nat → F) (p : F) : Nat → F
  | 0 => rho
  | 1 => rho * u 0
  | 2 => rho * u 1
  | 3 => rho * u 2
  | _ => p / (gamma - 1) + 1 / 2 * rho * dot u u

/-- The ten-moment state with density `rho`, velocity `u` and pressure tensor `P` (xx, xy, xz, yy, yz, zz):
density, momentum, `P_ab + rho u_a u_b`. -/
def tenMoments (rho : F) (u P : Nat → F) : Nat → F
  | 0 => rho
  | 1 => rho * u 0
  | 2 => rho * u 1
  | 3 => rho * u 2
  | 4 => P 0 + rho * u 0 * u 0
  | 5 => P 1 + rho * u 0 * u 1
  | 6 => P 2 + rho * u 0 * u 2
  | 7 => P 3 + rho * u 1 * u 1
  | 8 => P 4 + rho * u 1 * u 2
  | _ => P 5 + rho * u 2 * u 2

/-- The ideal MHD state: density, momentum, total energy, magnetic field. -/
def mhdState (gamma mu0 rho : F) (u : Nat → F) (p : F) (B : Nat → F) : Nat → F
  | 0 => rho
  | 1 => rho * u 0
  | 2 => rho * u 1
  | 3 => rho * u 2
  | 4 => p / (gamma - 1) + 1 / 2 * rho * dot u u + 1 / 2 * dot B B / mu0
  | c + 5 => B c

/-- The tensor `pPerp (1 - b b / b²) + pPar b b / b²` (xx, xy, xz, yy, yz, zz). -/
def gyrotropic (pPar pPerp : F) (b : Nat → F) : Nat → F :=
  let e := fun (delta x y : F) => pPerp * (delta - x * y / dot b b) + pPar * (x * y / dot b b)
  fun
  | 0 => e 1 (b 0) (b 0)
  | 1 => e 0 (b 0) (b 1)
  | 2 => e 0 (b 0) (b 2)
  | 3 => e 1 (b 1) (b 1)
  | 4 => e 0 (b 1) (b 2)
  | _ => e 1 (b 2) (b 2)

end Pgkyl.Spec
