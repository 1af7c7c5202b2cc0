import Verif.Spec.DgCommands
import Verif.Spec.Cube
/-! # Specification: the integral of an expansion over its mesh -/

namespace Pgkyl.Spec

/-- The integral of field `j` of the expansion over the whole mesh: the sum, over the cells, of the integral over the cell, which
is the integral over the reference cube times half the cell width along every axis. -/
noncomputable def DgCase.integral (q : DgCase ℝ) (j : Nat) : ℝ :=
  ((indices q.cells).map fun c => (q.axes.map fun a => a.dx / 2).prod *
    cubeInt q.cells.length fun ξ => expand q.fns (fun k => q.f c (j * q.fns.length + k)) ξ).sum

end Pgkyl.Spec
