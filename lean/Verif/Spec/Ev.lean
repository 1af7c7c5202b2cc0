import Verif.Model.Ev
import Verif.Spec.Idx
/-! # Specification of the `ev` command: expressions and their values

Expressions are trees.  Their value is computed pointwise, cell by cell and dataset by dataset; nothing
of the stack machine, of broadcasting or of the grid bookkeeping enters. -/

namespace Pgkyl.Spec

variable {F : Type}

/-- Elementwise functions of one argument. -/
inductive UnOp where
  | sqrt | sin | cos | tan | abs | log | log10 | sq | exp

/-- Elementwise operations on two arguments. -/
inductive BinOp where
  | add | sub | mul | div | pow | min | max
  deriving DecidableEq

/-- How the operation is written. -/
def UnOp.text : UnOp → List Char
  | .sqrt => "sqrt".toList
  | .sin => "sin".toList
  | .cos => "cos".toList
  | .tan => "tan".toList
  | .abs => "abs".toList
  | .log => "log".toList
  | .log10 => "log10".toList
  | .sq => "sq".toList
  | .exp => "exp".toList

/-- How the operation is written. -/
def BinOp.text : BinOp → List Char
  | .add => "+".toList
  | .sub => "-".toList
  | .mul => "*".toList
  | .div => "/".toList
  | .pow => "pow".toList
  | .min => "min2".toList
  | .max => "max2".toList

/-- What the function computes from a number. -/
def UnOp.app [Mul F] (fn : Fns F) : UnOp → F → F
  | .sqrt, x => fn.sqrt x
  | .sin, x => fn.sin x
  | .cos, x => fn.cos x
  | .tan, x => fn.tan x
  | .abs, x => fn.abs x
  | .log, x => fn.log x
  | .log10, x => fn.log10 x
  | .sq, x => x * x
  | .exp, x => fn.exp x

/-- What the operation computes from the first and the second number written. -/
def BinOp.app [Add F] [Sub F] [Mul F] [Div F] (fn : Fns F) : BinOp → F → F → F
  | .add, x, y => x + y
  | .sub, x, y => x - y
  | .mul, x, y => x * y
  | .div, x, y => x / y
  | .pow, x, y => fn.pow x y
  | .min, x, y => fn.fmin x y
  | .max, x, y => fn.fmax x y

/-- An operand: a number, or datasets named by a token. -/
inductive Leaf (F : Type) where
  /-- a number as written, and its value -/
  | const (text : List Char) (x : F)
  /-- `f` or a tag, an optional index or slice in brackets, an optional component in brackets; the
  arrays it stands for, one per dataset -/
  | data (name : Option Tag) (ix : Option (List Char)) (comp : Option Nat) (arrays : List (NArr F))

/-- An expression. -/
inductive Expr (F : Type) where
  | leaf (l : Leaf F)
  | un (o : UnOp) (e : Expr F)
  | bin (o : BinOp) (a b : Expr F)

/-- `[s]` -/
def bracket (s : List Char) : List Char := '[' :: (s ++ [']'])

/-- How an operand is written. -/
def Leaf.text : Leaf F → List Char
  | .const t _ => t
  | .data name ix comp _ => name.getD ['f'] ++ (ix.map bracket).getD [] ++
      (comp.map fun c => bracket (dec c)).getD []

/-- The postfix form of an expression: operands before the operation, first operand first. -/
def Expr.tokens : Expr F → List (List Char)
  | .leaf l => [l.text]
  | .un o e => e.tokens ++ [o.text]
  | .bin o a b => a.tokens ++ b.tokens ++ [o.text]

/-- Number of datasets of an operand (a number counts as one). -/
def Leaf.count : Leaf F → Nat
  | .const _ _ => 1
  | .data _ _ _ arrays => arrays.length

/-- Number of datasets of the result: that of the longest operand. -/
def Expr.count : Expr F → Nat
  | .leaf l => l.count
  | .un _ e => e.count
  | .bin _ a b => max a.count b.count

/-- The value of an operand for the `k`-th dataset at the index `idx`; the last dataset stands in for
missing ones. -/
def Leaf.valueAt (k : Nat) (idx : List Nat) : Leaf F → Option F
  | .const _ x => some x
  | .data _ _ _ arrays => (arrays[min k (arrays.length - 1)]?).bind fun a => a.get? idx

/-- The value of an expression for the `k`-th dataset at the index `idx`. -/
def Expr.valueAt [Add F] [Sub F] [Mul F] [Div F] (fn : Fns F) (k : Nat) (idx : List Nat) : Expr F → Option F
  | .leaf l => l.valueAt k idx
  | .un o e => (e.valueAt fn k idx).map (o.app fn)
  | .bin o a b => do
    let x ← a.valueAt fn k idx
    let y ← b.valueAt fn k idx
    return o.app fn x y

/-- Some dataset occurs in the expression. -/
def Expr.hasData : Expr F → Bool
  | .leaf (.const _ _) => false
  | .leaf (.data _ _ _ _) => true
  | .un _ e => e.hasData
  | .bin _ a b => a.hasData || b.hasData

/-- The base of every power contains a dataset if the exponent does. -/
def Expr.powOK : Expr F → Prop
  | .leaf _ => True
  | .un _ e => e.powOK
  | .bin o a b => a.powOK ∧ b.powOK ∧ (o = .pow → b.hasData = true → a.hasData = true)

/-- A property of all operands of the expression. -/
def Expr.All (P : Leaf F → Prop) : Expr F → Prop
  | .leaf l => P l
  | .un _ e => e.All P
  | .bin _ a b => a.All P ∧ b.All P

/-- A dataset on a rectilinear grid with at least one axis. -/
structure Rectilinear (d : GData F) (axes : List (List F)) (v : NArr F) : Prop where
  grid : d.grid = some (axes.map NArr.ofList)
  values : d.values = some v
  wf : v.WF
  dims : d.numDims = axes.length
  shape : v.shape.length = axes.length + 1
  nonempty : axes ≠ []
  nodes : ∀ a ∈ axes, a ≠ []

/-- The array read from values `v` when the component `comp` is asked for. -/
def IsComp (comp : Option Nat) (v a : NArr F) : Prop :=
  match comp with
  | none => a = v
  | some c => c < v.shape.getLastD 0 ∧ a.WF ∧ a.shape = v.shape.dropLast ++ [1] ∧
      ∀ idx, inRange v.shape.dropLast idx = true → a.get? (idx ++ [0]) = v.get? (idx ++ [c])

/-- The text can be part of a token between brackets or be the name of a tag. -/
def plain (t : List Char) : Prop := '[' ∉ t ∧ ']' ∉ t ∧ '.' ∉ t ∧ ' ' ∉ t

instance (t : List Char) : Decidable (plain t) := by unfold plain; infer_instance

/-- The operand, as written, means what it says in the store `s`: a number is a number and is no tag;
datasets are the (active, unless `all`, or those of the tag named) datasets in the order of iteration,
their arrays (possibly one component) all have the shape `sh`. -/
def Leaf.OK [LT F] (lib : Ev.Lib F) (s : Space F) (all : Bool) (tags : List Tag) (sh : List Nat) : Leaf F → Prop
  | .const t x => lib.pf t = some x ∧ t ≠ [] ∧ t.head? ≠ some 'f' ∧ t ∉ tags ∧
      '(' ∉ t ∧ '[' ∉ t ∧ ':' ∉ t ∧ ',' ∉ t ∧ ' ' ∉ t
  | .data name ix comp arrays =>
      (match name with
        | none => ['f'] ∉ tags
        | some t => t ∈ tags ∧ t ≠ [] ∧ plain t) ∧
      (∀ i, ix = some i → plain i) ∧ (comp.isSome → ix.isSome) ∧
      arrays ≠ [] ∧
      ∃ visited, s.toList name false (if name.isSome then false else !all) (Space.optSel ix) = .ok visited ∧
        List.Forall₂ (fun e a => ∃ d axes v, s.heap[e.2]? = some d ∧ Rectilinear d axes v ∧
          IsComp comp v a ∧ a.shape = sh) visited arrays

end Pgkyl.Spec

namespace Pgkyl.Spec

/-- The names of the elementwise operations. -/
def opNames : List (List Char) :=
  ["+", "-", "*", "/", "pow", "min2", "max2", "sqrt", "sin", "cos", "tan", "abs", "log", "log10",
    "sq", "exp"].map String.toList

/-- All operators of the calculator with the number of operands they take. -/
def arities : List (List Char × Nat) :=
  [("+", 2), ("-", 2), ("*", 2), ("/", 2), ("dot", 2), ("sqrt", 1), ("sin", 1), ("cos", 1), ("tan", 1),
    ("abs", 1), ("avg", 2), ("log", 1), ("log10", 1), ("max", 1), ("min", 1), ("max2", 2), ("min2", 2),
    ("mean", 1), ("len", 2), ("pow", 2), ("sq", 1), ("exp", 1), ("grad", 1), ("grad2", 2),
    ("int", 2), ("div", 1), ("curl", 1), ("scale_comp", 3), ("scale_zi_axis", 3)].map
    fun e => (e.1.toList, e.2)

/-- Reading the chain from the left with `depth` operands at hand, some operator lacks operands. -/
def underflow : Nat → List (List Char) → Bool
  | _, [] => false
  | depth, t :: ts => match arities.lookup t with
    | some n => decide (depth < n) || underflow (depth - n + 1) ts
    | none => underflow (depth + 1) ts

/-- All datasets of the expression are named by the same token (up to the component). -/
def Leaf.From (name : Option Tag) (ix : Option (List Char)) : Leaf F → Prop
  | .const _ _ => True
  | .data n i _ _ => n = name ∧ i = ix

/-- The datasets named `name` with index `ix` occur as an operand. -/
def Expr.Reads (name : Option Tag) (ix : Option (List Char)) : Expr F → Prop
  | .leaf (.const _ _) => False
  | .leaf (.data n i _ _) => n = name ∧ i = ix
  | .un _ e => e.Reads name ix
  | .bin _ a b => a.Reads name ix ∨ b.Reads name ix

/-- Reading `name[ix]` from the store visits the datasets `vis`; the last one is `d`. -/
def LastRead (s : Space F) (all : Bool) (name : Option Tag) (ix : Option (List Char)) (vis : List (Nat × Nat))
    (d : GData F) : Prop :=
  s.toList name false (if name.isSome then false else !all) (Space.optSel ix) = .ok vis ∧
    ∃ en, vis.getLast? = some en ∧ s.heap[en.2]? = some d

/-- The dataset `d` is read for the `k`-th dataset of the operand; the last one stands in for missing ones. -/
def Leaf.Dataset (s : Space F) (all : Bool) (k : Nat) (d : GData F) : Leaf F → Prop
  | .const _ _ => False
  | .data name ix _ arrays => ∃ vis en,
      s.toList name false (if name.isSome then false else !all) (Space.optSel ix) = .ok vis ∧
      vis[min k (arrays.length - 1)]? = some en ∧ s.heap[en.2]? = some d

/-- The dataset `d` is read somewhere in the expression for the `k`-th result. -/
def Expr.Uses (s : Space F) (all : Bool) (k : Nat) (d : GData F) : Expr F → Prop
  | .leaf l => l.Dataset s all k d
  | .un _ e => e.Uses s all k d
  | .bin _ a b => a.Uses s all k d ∨ b.Uses s all k d

/-- The keys that describe the size and the extent of a dataset. -/
def sizeKeys : List String := ["cells", "num_comps", "lower", "upper"]

/-- The other metadata form a dictionary: every key occurs once, and none is a key of the size. -/
def ProperMeta (c : Ctx F) : Prop :=
  (c.other.map Prod.fst).Nodup ∧ ∀ k ∈ sizeKeys, k ∉ c.other.map Prod.fst

/-- A number. -/
def Expr.IsNumber : Expr F → Prop
  | .leaf (.const _ _) => True
  | _ => False

/-- A linear combination of whole datasets: sums and differences, multiples by numbers, quotients by numbers. -/
def Expr.Linear : Expr F → Prop
  | .leaf (.data _ _ comp _) => comp = none
  | .bin .add a b => a.Linear ∧ b.Linear
  | .bin .sub a b => a.Linear ∧ b.Linear
  | .bin .mul a b => (a.IsNumber ∧ b.Linear) ∨ (a.Linear ∧ b.IsNumber)
  | .bin .div a b => a.Linear ∧ b.IsNumber
  | _ => False

/-- No component is picked from the datasets of the expression. -/
def Expr.Whole : Expr F → Prop
  | .leaf (.const _ _) => True
  | .leaf (.data _ _ comp _) => comp = none
  | .un _ e => e.Whole
  | .bin _ a b => a.Whole ∧ b.Whole

end Pgkyl.Spec
