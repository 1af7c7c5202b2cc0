import Verif.Spec.Dg
import Verif.Spec.Commands
import Verif.Spec.Integrate
import Verif.Spec.Select
import Verif.Props.DgSettings
import Mathlib.Analysis.Calculus.Deriv.Basic
/-! # Specification of the commands `interpolate`, `differentiate`, `integrate` and `select` -/

namespace Pgkyl.Spec
open Pgkyl.Dg (Poly)

/-- DG data in a dataset and what is asked for: the mesh, the `m` numbers `f i 0, …` stored in each cell `i`, the order and
the basis, the functions of the basis, the points per cell. -/
structure DgCase (F : Type) where
  cells : List Nat
  axes : List (Axis F)
  m : Nat
  f : List Nat → Nat → F
  order : Nat
  basis : String
  fns : List Poly
  points : Nat

section
variable {F : Type} [_root_.Field F]

/-- The dataset holds the numbers `q.f` on the uniform mesh `q.axes`. -/
structure DgCase.StoredIn (q : DgCase F) (d : GData F) : Prop where
  data : ∃ g, HoldsField d g q.cells q.m q.f ∧ IsMesh g q.axes
  counts : d.numDims = q.cells.length ∧ d.numComps = q.m
  uniform : Dict.get? d.ctx.other "grid_type" = some "uniform"
  cells_eq : q.axes.map (·.cells) = q.cells
  dx : ∀ a ∈ q.axes, a.dx ≠ 0
  pos : 1 ≤ q.cells.length

/-- The options of the command select order, basis and points: what is not given is taken from the metadata of the dataset,
and the points are by default one more than the order. -/
structure DgCase.Chosen (q : DgCase F) (po : Option Nat) (b : Option String) (ni : Option Nat) (d : GData F) : Prop where
  order : po = some q.order ∨
    po = none ∧ Dict.get? d.ctx.other "poly_order" = some (String.ofList (dec q.order)) ∧ 1 ≤ q.order
  basis : (∃ name, b = some name ∧ (name, q.basis) ∈ basisNames) ∨
    b = none ∧ Dict.get? d.ctx.other "basis_type" = some q.basis ∧ Dict.get? d.ctx.other "is_modal" = some "True"
  points : ni = some q.points ∨ ni = none ∧ q.points = q.order + 1
  two : 2 ≤ q.points

/-- The basis is supported in this dimension and order, and a cell has the coefficients of at least one field. -/
structure DgCase.Supported (q : DgCase F) : Prop where
  fns : Dg.interpFns q.cells.length q.order q.basis true = .ok q.fns
  line : q.cells.length = 1 → q.basis ∈ ["serendipity", "maximal-order", "tensor"]
  zero : q.order = 0 → q.basis = "serendipity"
  fields : 1 ≤ q.fns.length ∧ q.fns.length ≤ q.m

/-- Everything together. -/
def DgCase.Fits (q : DgCase F) (po : Option Nat) (b : Option String) (ni : Option Nat) (d : GData F) : Prop :=
  q.StoredIn d ∧ q.Chosen po b ni d ∧ q.Supported

/-- The refined mesh. -/
def DgCase.fine (q : DgCase F) : List (Axis F) := refineAll q.axes (perCell q.basis q.cells.length q.points)

/-- The value of field `j` of the data at the position `z` in cell `c`. -/
def DgCase.value (q : DgCase F) (j : Nat) (c : List Nat) (z : List F) : F :=
  cellValue q.fns q.axes (fun k => q.f c (j * q.fns.length + k)) c z

/-- The dataset `r` holds, on the refined mesh, one value per refined cell and field: the value of the field at the midpoint
of the refined cell, from the expansion in the original cell it lies in.  The metadata are those of `d`. -/
def DgCase.Interpolated (q : DgCase F) (d r : GData F) : Prop :=
  ∃ g, IsMesh g q.fine ∧ r.ctx.other = d.ctx.other ∧
    HoldsField r g (List.zipWith (· * ·) q.cells (perCell q.basis q.cells.length q.points)) (q.m / q.fns.length)
      fun idx j => q.value j (List.zipWith (· / ·) idx (perCell q.basis q.cells.length q.points)) (midPt q.fine idx)

end

/-- The dataset `r` holds, on the mesh with every cell split into `q.points` per axis, one value per refined cell: the exact
derivative along axis `i` of field `j`, at the midpoint of the refined cell, of the expansion in the cell it lies in. -/
def DgCase.Differentiated (q : DgCase ℝ) (i j : Nat) (d r : GData ℝ) : Prop :=
  ∃ g f, IsMesh g (refineAll q.axes (List.replicate q.cells.length q.points)) ∧ r.ctx.other = d.ctx.other ∧
    HoldsField r g (q.cells.map (· * q.points)) 1 f ∧
    ∀ idx, inRange (q.cells.map (· * q.points)) idx = true → ∃ zi,
      (midPt (refineAll q.axes (List.replicate q.cells.length q.points)) idx)[i]? = some zi ∧
      HasDerivAt (fun t => q.value j (idx.map (· / q.points))
        ((midPt (refineAll q.axes (List.replicate q.cells.length q.points)) idx).set i t)) (f idx 0) zi

/-- The dataset `d` holds the values `v` on the given axes, and the numbers `A` are some of these axes. -/
def IntegrableOver {F : Type} (A : List Nat) (axes : List (List F)) (v : NArr F) (d : GData F) : Prop :=
  d.grid = some (axes.map NArr.ofList) ∧ d.values = some v ∧ v.WF ∧ ApiFitsAll axes v.shape ∧ ∀ a ∈ A, a < axes.length

/-- The dataset `r` is the integral of the dataset `d` over the axes `A`: each entry is the weighted sum of the entries of
`d` over those axes, which are left with one entry, at the mean of their coordinates. -/
def IntegralOf {F : Type} [_root_.Field F] (A : List Nat) (axes : List (List F)) (v : NArr F) (d r : GData F) : Prop :=
  r.grid = some ((meanAxes A axes).map NArr.ofList) ∧ r.ctx.other = d.ctx.other ∧
    ∃ w, r.values = some w ∧ w.WF ∧ w.shape = collapsed A v.shape ∧
      ∀ idx, inRange (collapsed A v.shape) idx = true →
        w.get? idx = some (cellSum v.shape (entry v) (gridWeight axes v.shape) A idx)

/-- The text `t` is read as the coordinate `c`: it is neither a cell number (digits only) nor a list or range, and `float(t)`
is `c`. -/
def CoordText {F : Type} (pf : List Char → Option F) (t : List Char) (c : F) : Prop :=
  t ≠ [] ∧ ¬ isDigitStr t = true ∧ ',' ∉ t ∧ ':' ∉ t ∧ pf t = some c

/-- The text `t` is one end of a range, namely cell (or node) `i` of the axis: its number, or a coordinate in it. -/
inductive EndText {F : Type} [LinearOrder F] (pf : List Char → Option F) (nodes : List F) (n : Nat) : List Char → Nat → Prop
  | number (i : Nat) : EndText pf nodes n (dec i) i
  | coord {t : List Char} {c : F} {i : Nat} (ht : CoordText pf t c) (h : Denotes nodes n (some (.float c)) i (i + 1)) :
      EndText pf nodes n t i

/-- The option of the command `select` for an axis asks for the cells `lo, …, hi - 1`. -/
inductive TextDenotes {F : Type} [LinearOrder F] (pf : List Char → Option F) (nodes : List F) (n : Nat) :
    Option (List Char) → Nat → Nat → Prop
  /-- not given: the whole axis -/
  | all : TextDenotes pf nodes n none 0 n
  /-- a number, or a range of numbers -/
  | numbers {t : List Char} {lo hi : Nat} (h : Denotes nodes n (some (.str t)) lo hi) :
      TextDenotes pf nodes n (some t) lo hi
  /-- a coordinate: the cell it lies in -/
  | coord {t : List Char} {c : F} {lo hi : Nat} (ht : CoordText pf t c) (h : Denotes nodes n (some (.float c)) lo hi) :
      TextDenotes pf nodes n (some t) lo hi
  /-- a range of cells given by numbers or coordinates: from the cell of the first end up to, without, that of the second;
  the second must not be a negative whole number, which would count from the end -/
  | range {t u : List Char} {lo hi : Nat} (ht : EndText pf nodes n t lo) (hu : EndText pf nodes n u hi)
      (hneg : ∀ k : Int, pyInt u = some k → 0 ≤ k) (h : lo < hi) (hn : hi ≤ n) : TextDenotes pf nodes n (some (t ++ ':' :: u)) lo hi

/-- The options of `select` ask, for the dataset `d`, for the cells `a.lo, …, a.hi - 1` along every axis `a` and for the
components `cs`.  (`a.z` is not used.) -/
def Asks {F : Type} [LinearOrder F] (pf : List Char → Option F) (comp : Option (List Char)) (zs : List (Option (List Char)))
    (d : GData F) (axes : List (SelAxis F)) (values : NArr F) (cs : List Nat) : Prop :=
  ∃ nc, HasAxes d axes nc values ∧ CompDenotes nc (comp.map (IdxArg.str (F := F))) cs ∧
    (∀ a ∈ axes, Increasing a.nodes ∧ (a.nodes.length = a.n + 1 ∨ a.nodes.length = a.n) ∧ a.lo < a.hi) ∧
    ∀ (i : Nat) (a : SelAxis F), axes[i]? = some a → TextDenotes pf a.nodes a.n (zs[i]?.getD none) a.lo a.hi

/-- The dataset `r` holds the cells and components asked for, with their nodes. -/
def SelectionOf {F : Type} [LinearOrder F] (axes : List (SelAxis F)) (values : NArr F) (cs : List Nat) (d r : GData F) :
    Prop :=
  r.grid = some (axes.map fun a => NArr.ofList a.nodesOut) ∧ r.ctx.other = d.ctx.other ∧
    ∃ out, r.values = some out ∧ IsPart values out axes cs

end Pgkyl.Spec
