import Verif.Spec.GkDistf
/-! # Specification: distribution functions on mapped velocity grids -/

namespace Pgkyl.Spec
open Pgkyl.Dg (Poly)

/-- A mapping of the velocity directions: `coef d c k` is coefficient `k` of direction `d` in cell `c` along it. -/
structure VelMapping (F : Type) where
  fns : List Poly
  coef : Nat → Nat → Nat → F

section
variable {F : Type} [_root_.Field F]

/-- The functions are those of the basis on a line, of order 1, 2, 3 or 4. -/
def VelMapping.OK (m : VelMapping F) : Prop :=
  ∃ p, 1 ≤ p ∧ p ≤ 4 ∧ m.fns.length = p + 1 ∧ Dg.interpFns 1 p "serendipity" true = .ok m.fns

/-- The velocity along direction `d` at the position `t`, counted in cells from the lower end, of cell `c`. -/
def VelMapping.at (m : VelMapping F) (d c : Nat) (t : F) : F := expand m.fns (m.coef d c) [2 * (t - (c : F)) - 1]

/-- The three datasets hold the three parts, where the grid of the data has the coefficients of the mapping in place of the
axes of velocity space. -/
structure DistfCase.StoredVel (c : DistfCase F) (m : VelMapping F) (interp : Option Nat) (jf jv ji : GData F) : Prop where
  data : ∃ g, HoldsField jf g c.jf.cells c.jf.m c.jf.f ∧ g.length = c.jf.cells.length ∧
    (∀ d < configDims c.jf.cells.length, ∀ a, c.jf.axes[d]? = some a → ∃ x, g[d]? = some x ∧ IsAxis x a) ∧
    ∀ d n, c.jf.cells[configDims c.jf.cells.length + d]? = some n → 1 ≤ n ∧ ∃ x, g[configDims c.jf.cells.length + d]? = some x ∧
      IsField x [n] m.fns.length fun i k => m.coef d (i.headD 0) k
  gridType : Dict.get? jf.ctx.other "grid_type" = some "c2p_vel"
  cdim : Dict.get? jf.ctx.other "num_cdim" = some (String.ofList (dec (configDims c.jf.cells.length)))
  vdim : Dict.get? jf.ctx.other "num_vdim" = some (String.ofList (dec (c.jf.cells.length - configDims c.jf.cells.length)))
  mapping : m.OK
  cells_eq : c.jf.axes.map (·.cells) = c.jf.cells
  dx : ∀ a ∈ c.jf.axes, a.dx ≠ 0
  pos : 1 ≤ c.jf.cells.length
  chosen : c.jf.Chosen (some 1) (some "gkhyb") interp jf
  supported : c.jf.Supported
  velocity : ∃ g, HoldsField jv g c.jf.cells 1 fun i _ => c.jv i
  config : c.ji.Fits (some 1) (some "ms") interp ji
  dims : c.ji.cells.length = configDims c.jf.cells.length
  sameMesh : c.ji.axes = c.jf.axes.take (configDims c.jf.cells.length)

/-- The grid: refined axes of configuration space, and for each velocity direction the nodes of the refined cells, each at the
velocity that the mapping has at the node, in a cell to which the node belongs. -/
def DistfCase.VelMesh (c : DistfCase F) (m : VelMapping F) (g : List (NArr F)) : Prop :=
  g.length = c.jf.cells.length ∧
  (∀ d < configDims c.jf.cells.length, ∀ a, c.jf.fine[d]? = some a → ∃ x, g[d]? = some x ∧ IsAxis x a) ∧
  ∀ d n k, c.jf.cells[configDims c.jf.cells.length + d]? = some n →
    (perCell "gkhybrid" c.jf.cells.length c.jf.points)[configDims c.jf.cells.length + d]? = some k →
    ∃ x, g[configDims c.jf.cells.length + d]? = some x ∧ x.shape = [n * k + 1] ∧
      ∀ i < n * k + 1, ∃ cell < n, cell * k ≤ i ∧ i ≤ (cell + 1) * k ∧ x.get? [i] = some (m.at d cell ((i : F) / (k : F)))

end

end Pgkyl.Spec
