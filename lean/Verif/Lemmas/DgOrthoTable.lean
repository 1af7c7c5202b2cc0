import Verif.Lemmas.DgTables
import Mathlib.Algebra.Order.Ring.Rat
/-! # Lemmas: numerical check of the modal bases -/

namespace Pgkyl
namespace Dg

/-! ## The check -/

/-- Parities of the exponents. -/
def code : List Nat → Nat
  | [] => 0
  | e :: es => e % 2 + 2 * code es

/-- Parities of the exponents of the first monomial. -/
def polyCode : Poly → Nat
  | [] => 0
  | m :: _ => code m.exps

/-- The product of the degrees plus one. -/
def denoms : List Nat → List Nat → Nat
  | e :: es, e' :: es' => (e + e' + 1) * denoms es es'
  | _, _ => 1

/-- The mean of a product of monomials of the same parity. -/
def ipMono (m m' : Mono) : ℚ := (m.num * m'.num : Int) / ((m.den * m'.den * denoms m.exps m'.exps : Nat) : ℚ)

/-- The mean of a product of polynomials of the same parity. -/
def ip : Poly → Poly → ℚ
  | [], _ => 0
  | m :: p, q => (q.map (ipMono m)).foldr (· + ·) (ip p q)

/-- Close to 1 or to 0. -/
def near (d : Nat) (a : ℚ) (b : Bool) : Bool :=
  decide (|a * 2 ^ d - (if b then 1 else 0)| ≤ 1 / 10 ^ 14)

/-- All functions have a parity, norms close to 1 and products close to 0. -/
def ortho (d : Nat) : List Poly → Bool
  | [] => true
  | p :: ps => p.all (fun m => Nat.beq (code m.exps) (polyCode p) && Nat.beq m.exps.length d) && near d (ip p p) true &&
    ps.all (fun q => bif Nat.beq (polyCode p) (polyCode q) then near d (ip p q) false else true) && ortho d ps

/-- The check of one entry. -/
def orthoEntry (e : Key × List Poly) : Bool :=
  match e.1.kind with
  | .modal1 => ortho e.1.dim e.2
  | .modal _ => ortho e.1.dim e.2
  | _ => true

set_option maxRecDepth 100000 in
theorem modal_ortho : InterpTables.all.all orthoEntry = true := by decide +kernel

end Dg
end Pgkyl
