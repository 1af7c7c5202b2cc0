import Verif.Spec.GkylFormat
import Verif.Spec.Field
/-! # Specification: files with mapped grids -/

namespace Pgkyl.Spec

/-- The file stores a field, in one range or in several. -/
inductive StoresField (x : Field) : Bytes → Prop
  | one {data : NArr Word} (hd : IsData x.realType data) (hs : data.shape = x.shape) : StoresField x (fieldFile x data)
  | many {rgs : List Range} (h : ∀ r ∈ rgs, r.OK x) (hn : rgs.length < 2 ^ 63) : StoresField x (multiFile x rgs)

/-- The grid `g` has one array for each of the `nd` coordinates: in each cell, the `K` coefficients of that coordinate, which
the mapping `X` lists coordinate by coordinate. -/
def IsCoordinates {F : Type} (g : List (NArr F)) (nd : Nat) (cells : List Nat) (K : Nat) (X : List Nat → Nat → F) : Prop :=
  g.length = nd ∧ ∀ d < nd, ∃ a, g[d]? = some a ∧ IsField a cells K fun i k => X i (d * K + k)

/-- The grid `g` starts with the first `cdim` axes of the grid `g0`; then comes one array for each velocity direction `d` with
`vcells[d]` cells: the `K` coefficients of that direction in the cells along it, where the others are in their cell 0. -/
def IsVelocityGrid {F : Type} (g g0 : List (NArr F)) (cdim : Nat) (vcells : List Nat) (K : Nat) (X : List Nat → Nat → F) : Prop :=
  g.length = cdim + vcells.length ∧ (∀ d < cdim, g[d]? = g0[d]?) ∧
    ∀ d n, vcells[d]? = some n → ∃ a, g[cdim + d]? = some a ∧
      IsField a [n] K fun i k => X ((List.replicate vcells.length 0).set d (i.headD 0)) (d * K + k)

end Pgkyl.Spec
