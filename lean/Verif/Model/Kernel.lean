import Mathlib.Algebra.Field.Defs
import Verif.Model.Py
/-!
# `modalDG`: expressions of the point-evaluation kernels

The kernels of `modalDG/kernels` are functions `f, x, y, ... -> value` whose body is a single returned arithmetic
expression.  The expressions are modelled by their syntax trees and a Python-like evaluation of these.
-/

namespace Pgkyl.ModalDg

/-- The expressions which occur in modalDG/kernels/expand1d.py ... expand6d.py: a decimal literal `num/den`, the
i-th coordinate argument, `f[..., k]`, unary `-` and `+`, `+`, `-`, `*`, `a**n` and `a ^ b`. -/
inductive Expr where
  | lit (num den : Nat)
  | var (i : Nat)
  | coef (k : Nat)
  | neg (a : Expr)
  | pos (a : Expr)
  | add (a b : Expr)
  | sub (a b : Expr)
  | mul (a b : Expr)
  | pow (a : Expr) (n : Nat)
  | xor (a b : Expr)
  deriving DecidableEq, Repr

section eval
variable {F : Type} [_root_.Field F]

/-- Evaluation of an expression of modalDG/kernels/*.py on the coefficients `f` of one cell at the point `x`.
NumPy evaluates the expression for all cells at once; every operation acts on each cell by itself, so that one cell is
modelled.  `f[..., k]` with `k` not below the number of coefficients is an IndexError.  In `a ^ b` of the kernels one
operand is always a float (the `^` binds weaker than the `-` and `*` next to it, so that a decimal literal or a product
with `f` is one of its sides), for which Python and NumPy raise a TypeError after both sides have been evaluated. -/
def Expr.eval (f x : List F) : Expr → Except Err F
  | .lit n d => .ok ((n : F) / (d : F))
  | .var i =>
    match x[i]? with
    | some v => .ok v
    | none => .error .fail
  | .coef k =>
    match f[k]? with
    | some v => .ok v
    | none => .error .indexError
  | .neg a => do return -(← a.eval f x)
  | .pos a => a.eval f x
  | .add a b => do return (← a.eval f x) + (← b.eval f x)
  | .sub a b => do return (← a.eval f x) - (← b.eval f x)
  | .mul a b => do return (← a.eval f x) * (← b.eval f x)
  | .pow a n => do return (← a.eval f x) ^ n
  | .xor a b => do
    let _ ← a.eval f x
    let _ ← b.eval f x
    .error .typeError

/-- `t1 + t2 + ...`, which Python reads as `((t1 + t2) + ...)`. -/
def sumOf : List Expr → Expr
  | [] => .lit 0 1
  | t :: ts => ts.foldl .add t

/-- A call of a kernel: `return <expression>`, or a `return` without one (expand6d.py:589-590, 596-597), which gives
None. -/
def call (kernel : Option (List Expr)) (f x : List F) : Except Err (Option F) :=
  match kernel with
  | none => .ok none
  | some ts => do return some (← (sumOf ts).eval f x)

end eval

end Pgkyl.ModalDg
