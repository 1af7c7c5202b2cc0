import Verif.Spec.DgCommands
import Mathlib.Algebra.Order.Field.Basic
/-! # Specification: selecting part of the cells of an expansion -/

namespace Pgkyl.Spec

variable {F : Type} [_root_.Field F]

/-- The cells `lo, …, hi - 1` of the axis. -/
def Axis.window (a : Axis F) (lo hi : Nat) : Axis F := ⟨a.node lo, a.dx, hi - lo⟩

/-- The nodes of the axis. -/
def Axis.nodes (a : Axis F) : List F := (List.range (a.cells + 1)).map a.node

/-- One axis of a mesh, the part `lo, …, hi - 1` of its cells, and two arguments of `select`: `before` is used on the stored
data, `after` on the interpolated data. -/
structure Portion (F : Type) where
  axis : Axis F
  before : Option (IdxArg F)
  after : Option (IdxArg F)
  lo : Nat
  hi : Nat

/-- `before` asks for the cells `lo, …, hi - 1`, and `after` asks for the refined cells that these are split into, when each
is split into `n`. -/
structure Portion.OK [LinearOrder F] (p : Portion F) (n : Nat) : Prop where
  dx : 0 < p.axis.dx
  some : p.lo < p.hi
  before : Denotes p.axis.nodes p.axis.cells p.before p.lo p.hi
  after : Denotes (p.axis.refine n).nodes (p.axis.refine n).cells p.after (p.lo * n) (p.hi * n)

/-- The part of the expansion. -/
def DgCase.part (q : DgCase F) (ps : List (Portion F)) : DgCase F :=
  { q with
    cells := ps.map fun p => p.hi - p.lo
    axes := ps.map fun p => p.axis.window p.lo p.hi
    f := fun i k => q.f (List.zipWith (· + ·) i (ps.map (·.lo))) k }

end Pgkyl.Spec
