import Verif.Model.Integrate
import Verif.Spec.Idx
import Mathlib.Algebra.Field.Defs
import Mathlib.Algebra.BigOperators.Group.List.Basic
/-! # Specification of integration -/

namespace Pgkyl.Spec
variable {F : Type}

/-- The width of cell `i` of `n` along an axis with coordinates `x`: with `n + 1` nodes the distance of its two
nodes; with `n` coordinates (nodal values) the distance to the next one, and for the last one the last
distance again. -/
def width [Zero F] [Sub F] (x : List F) (n i : Nat) : F :=
  if x.length = n ∧ i + 1 = n then x.getD i 0 - x.getD (i - 1) 0 else x.getD (i + 1) 0 - x.getD i 0

/-- The sum, over all cells `i` that agree with `idx` on the axes not in `A`, of the value in the cell times the
product of its weights along the axes in `A`. -/
def cellSum [CommSemiring F] (shape : List Nat) (v : List Nat → F) (w : Nat → Nat → F) (A : List Nat)
    (idx : List Nat) : F :=
  (((indices shape).filter fun i => decide (∀ d < shape.length, d ∉ A → i[d]? = idx[d]?)).map
    fun i => v i * (A.map fun a => w a (i.getD a 0)).prod).sum

/-- The shape with the axes in `A` collapsed to one entry. -/
def collapsed (A : List Nat) (shape : List Nat) : List Nat :=
  shape.mapIdx fun d n => if d ∈ A then 1 else n

/-- The entry of an array (0 outside). -/
def entry [Zero F] (v : NArr F) (idx : List Nat) : F := (v.get? idx).getD 0

/-- Coordinates `x` along an axis with `n` entries: nodes of `n` cells, or at least two nodal coordinates. -/
def Fits (x : List F) (n : Nat) : Prop := x.length = n + 1 ∨ x.length = n ∧ 2 ≤ n

/-- Values with one extent for each coordinate axis and a last one for the components. -/
def FitsAll (axes : List (List F)) (shape : List Nat) : Prop :=
  shape.length = axes.length + 1 ∧ ∀ (d : Nat) (x : List F) (n : Nat), axes[d]? = some x → shape[d]? = some n → Fits x n

/-- `arg`, the top of the stack in `ev`, names the axes `A` of a dataset with `n` dimensions. -/
inductive EvNames (fn : Fns F) (n : Nat) : EvVal F → List Nat → Prop where
  /-- a number -/
  | number {x : F} {a : Nat} (h : fn.toInt x = some (a : Int)) : EvNames fn n (.arr (NArr.scalar x)) [a]
  /-- several numbers separated by commas -/
  | list {A : List Nat} (h : 2 ≤ A.length) : EvNames fn n (.str (joinWith ',' (A.map dec))) A
  /-- the word all -/
  | all : EvNames fn n (.str "all".toList) (List.range n)
  /-- a Python tuple -/
  | tuple (A : List Nat) : EvNames fn n (.tuple (A.map fun (a : Nat) => (a : Int))) A

/-- `arg`, the axis argument of `integrate` for data with `n` dimensions, names the axes `A`. -/
inductive ApiNames (n : Nat) : Calculus.AxisArg → List Nat → Prop where
  | none : ApiNames n .none (List.range n)
  | int (a : Nat) : ApiNames n (.int a) [a]
  | tuple (A : List Nat) : ApiNames n (.tuple (A.map fun (a : Nat) => (a : Int))) A
  /-- numbers separated by commas (or a single one) -/
  | str {A : List Nat} (h : A ≠ []) : ApiNames n (.str (joinWith ',' (A.map dec))) A

/-- Coordinates the function `integrate` accepts: as above with at least two nodes, or a single one (a collapsed
axis, over which it averages). -/
def ApiFits (x : List F) (n : Nat) : Prop := 2 ≤ x.length ∧ Fits x n ∨ x.length = 1

/-- The same for all axes of the values. -/
def ApiFitsAll (axes : List (List F)) (shape : List Nat) : Prop :=
  shape.length = axes.length + 1 ∧ ∀ (d : Nat) (x : List F) (n : Nat), axes[d]? = some x → shape[d]? = some n → ApiFits x n

/-- The weight of entry `i` of `n` along an axis: the cell width, or `1/n` on a collapsed axis. -/
def apiWeight [_root_.Field F] (x : List F) (n i : Nat) : F :=
  if x.length = 1 then 1 / (n : F) else width x n i

/-- The coordinates after integrating over the axes in `A`: the mean of the former ones. -/
def meanAxes [_root_.Field F] (A : List Nat) (axes : List (List F)) : List (List F) :=
  axes.mapIdx fun d x => if d ∈ A then [x.sum / (x.length : F)] else x

/-- The cell widths along the axes of a grid. -/
def gridWidth [_root_.Field F] (axes : List (List F)) (shape : List Nat) (a i : Nat) : F :=
  width (axes.getD a []) (shape.getD a 0) i

/-- The weights along the axes of a grid, for the function `integrate`. -/
def gridWeight [_root_.Field F] (axes : List (List F)) (shape : List Nat) (a i : Nat) : F :=
  apiWeight (axes.getD a []) (shape.getD a 0) i

/-- The length covered by `n` cells: from the first to the last node; with nodal coordinates the last spacing is
covered twice. -/
def covered [_root_.Field F] (x : List F) (n : Nat) : F :=
  if x.length = n then x.getD (n - 1) 0 - x.getD 0 0 + (x.getD (n - 1) 0 - x.getD (n - 2) 0)
  else x.getD n 0 - x.getD 0 0

end Pgkyl.Spec
