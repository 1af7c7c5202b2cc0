import Mathlib.Data.List.Basic
/-!
# Polynomials as written in the basis tables

The polynomials of `data/computeInterpolationMatrices.py` and `data/computeDerivativeMatrices.py` are
SymPy expressions in the symbols x, y, z, w, v, u.  They are modelled in expanded form.
-/

namespace Pgkyl.Dg

/-- A monomial with a rational coefficient: `num / den * x^exps[0] * y^exps[1] * ...`. -/
structure Mono where
  num : Int
  den : Nat
  exps : List Nat
  deriving DecidableEq, Repr

/-- A polynomial: a sum of monomials. -/
abbrev Poly := List Mono

/-- How a branch of `createInterpMatrix` / `createDerivativeMatrix` is selected: in one dimension the
basis name is not looked at when `modal` is set (computeInterpolationMatrices.py:54,127) and
computeDerivativeMatrices.py:18; in more dimensions both `modal` and the name are. -/
inductive Kind where
  | modal1
  | nodal1
  | modal (basis : String)
  | nodal (basis : String)
  deriving DecidableEq, Repr

/-- The branch for a dimension, a kind of basis and an order. -/
structure Key where
  dim : Nat
  kind : Kind
  order : Nat
  deriving DecidableEq, Repr

section eval
variable {F : Type} [Add F] [Mul F] [Div F] [Zero F] [One F] [IntCast F] [NatCast F]

/-- `x**n`. -/
def powNat (x : F) : Nat → F
  | 0 => 1
  | n + 1 => powNat x n * x

/-- `x**e0 * y**e1 * ...` at a point. -/
def powers : List F → List Nat → F
  | x :: xs, e :: es => powNat x e * powers xs es
  | _, _ => 1

/-- `.subs(x, pt[0]).subs(y, pt[1])...` on one monomial. -/
def Mono.eval (m : Mono) (pt : List F) : F := (m.num : F) / (m.den : F) * powers pt m.exps

/-- `functionVector[k].subs(x, pt[0]).subs(y, pt[1])...`
(computeInterpolationMatrices.py:60, 219-221, and the same in the other branches). -/
def Poly.eval (p : Poly) (pt : List F) : F := (p.map fun m => m.eval pt).foldl (· + ·) 0

end eval

/-- SymPy `diff(m, symbol number i)` of a monomial. -/
def Mono.diff (i : Nat) (m : Mono) : Mono :=
  match m.exps[i]? with
  | none => { m with num := 0 }
  | some e => { num := m.num * e, den := m.den, exps := m.exps.set i (e - 1) }

/-- SymPy `diff(p, symbol number i)` (computeDerivativeMatrices.py:26, 250-251, and the same in the
other branches). -/
def Poly.diff (i : Nat) (p : Poly) : Poly := p.map (Mono.diff i)

end Pgkyl.Dg
