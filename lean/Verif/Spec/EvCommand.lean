import Verif.Spec.EvOps
import Verif.Spec.EvDiff
import Verif.Spec.Integrate
/-! # Specification of the operators of `ev` that take an axis, a component or a factor -/

namespace Pgkyl.Spec

variable {F : Type}

/-- The word `t` of a chain is not data and stands for the value `v`: a number, a text with `:` or `,`, or a Python expression
with a bracket. -/
inductive Literal (lib : Ev.Lib F) (tags : List Tag) : List Char → EvVal F → Prop
  | number {t : List Char} {x : F} (val : lib.pf t = some x) (word : t ≠ [] ∧ ' ' ∉ t) (notData : t.head? ≠ some 'f' ∧ t ∉ tags)
      (plain : '(' ∉ t ∧ '[' ∉ t ∧ ':' ∉ t ∧ ',' ∉ t) : Literal lib tags t (.arr (NArr.scalar x))
  | text {t : List Char} (mark : ':' ∈ t ∨ ',' ∈ t) (word : t ≠ [] ∧ ' ' ∉ t) (notData : t.head? ≠ some 'f' ∧ t ∉ tags)
      (plain : '(' ∉ t ∧ '[' ∉ t) : Literal lib tags t (.str t)
  | python {t : List Char} {v : EvVal F} (mark : '(' ∈ t ∨ '[' ∈ t) (val : lib.pyEval t = .ok v) (word : t ≠ [] ∧ ' ' ∉ t)
      (notData : t.head? ≠ some 'f' ∧ (splitOn '[' t).headD [] ∉ tags) : Literal lib tags t v

/-- All datasets that the `k`-th result of the expression is computed from lie on the grid with the coordinates `axes k`. -/
def OnGrid [LT F] (s : Space F) (all : Bool) (A : Expr F) (axes : Nat → List (List F)) : Prop :=
  ∀ k d, A.Uses s all k d → d.grid = some ((axes k).map NArr.ofList)

/-- The dataset holds, on the grid with the coordinates `axes`, `m` components in each cell; component `c` in cell `i` is `f i c`. -/
def HasField (d : GData F) (axes : List (List F)) (cells : List Nat) (m : Nat) (f : List Nat → Nat → F) : Prop :=
  d.grid = some (axes.map NArr.ofList) ∧ ∃ a, d.values = some a ∧ IsField a cells m f

/-- The coordinates after `int` or `avg` over the axes in `A`: a single 0 in their place. -/
def zeroAxes [Zero F] (A : List Nat) (axes : List (List F)) : List (List F) :=
  axes.mapIdx fun d x => if d ∈ A then [0] else x

end Pgkyl.Spec
