import Verif.Lemmas.DgDeriv
import Verif.Lemmas.DgTables
import Mathlib.Analysis.SpecialFunctions.Integrals.Basic
/-! # Lemmas: identities of the basis tables -/

namespace Pgkyl
namespace Dg
open Spec

/-! ## Sums of basis functions -/

/-- Collected coefficients. -/
def ins (e : List Nat) (c : ℚ) : List (List Nat × ℚ) → List (List Nat × ℚ)
  | [] => [(e, c)]
  | (e', c') :: t => if e = e' then (e', c + c') :: t else (e', c') :: ins e c t

/-- The coefficient of every power. -/
def collect : List Mono → List (List Nat × ℚ)
  | [] => []
  | m :: ms => ins m.exps ((m.num : ℚ) / (m.den : ℚ)) (collect ms)

section
variable {F : Type} [_root_.Field F] [CharZero F]

/-- The polynomial of collected coefficients. -/
def evalC (pt : List F) (l : List (List Nat × ℚ)) : F := (l.map fun p => (p.2 : F) * powers pt p.1).sum

theorem evalC_ins (pt : List F) (e : List Nat) (c : ℚ) (l : List (List Nat × ℚ)) :
    evalC pt (ins e c l) = (c : F) * powers pt e + evalC pt l := by
  induction l with
  | nil => simp [ins, evalC]
  | cons x t ih =>
    obtain ⟨e', c'⟩ := x
    unfold ins
    split
    · rename_i h
      subst h
      simp only [evalC, List.map_cons, List.sum_cons]
      push_cast
      ring
    · simp only [evalC, List.map_cons, List.sum_cons] at ih ⊢
      rw [ih]
      ring

theorem evalC_collect (pt : List F) (p : Poly) : evalC pt (collect p) = p.eval pt := by
  rw [eval_eq_sum]
  induction p with
  | nil => rfl
  | cons m ms ih =>
    rw [collect, evalC_ins, ih]
    simp [Mono.eval]

omit [CharZero F] in
theorem evalC_zero (pt : List F) {l : List (List Nat × ℚ)} (h : l.all (fun p => decide (p.2 = 0)) = true) :
    evalC pt l = 0 := by
  unfold evalC
  apply List.sum_eq_zero
  intro x hx
  rw [List.mem_map] at hx
  obtain ⟨p, hp, rfl⟩ := hx
  have := List.all_eq_true.1 h p hp
  simp only [decide_eq_true_eq] at this
  simp [this]

omit [CharZero F] in
theorem powers_zeros (pt : List F) (d : Nat) : powers pt (List.replicate d 0) = 1 := by
  induction pt generalizing d with
  | nil => rfl
  | cons x xs ih => cases d with
    | zero => rfl
    | succ d => simp [List.replicate_succ, powers, powNat, ih]

/-- The functions of an entry add up to 1. -/
def sumsToOne (e : Key × List Poly) : Bool :=
  match e.1.kind with
  | .nodal1 => (collect (⟨-1, 1, List.replicate e.1.dim 0⟩ :: e.2.flatten)).all fun p => decide (p.2 = 0)
  | .nodal _ => (collect (⟨-1, 1, List.replicate e.1.dim 0⟩ :: e.2.flatten)).all fun p => decide (p.2 = 0)
  | _ => true

theorem nodal_sums : InterpTables.all.all sumsToOne = true := by decide +kernel

omit [CharZero F] in
theorem flatten_eval (fns : List Poly) (pt : List F) :
    Poly.eval fns.flatten pt = (fns.map fun f => f.eval pt).sum := by
  induction fns with
  | nil => simp [Poly.eval]
  | cons f fs ih =>
    rw [List.flatten_cons, eval_eq_sum, List.map_append, List.sum_append, ← eval_eq_sum, ← eval_eq_sum, ih]
    simp

theorem sum_one {d : Nat} {fns : List Poly}
    (h : ((collect (⟨-1, 1, List.replicate d 0⟩ :: fns.flatten)).all fun p => decide (p.2 = 0)) = true)
    (pt : List F) : (fns.map fun f => f.eval pt).sum = 1 := by
  have h0 := evalC_zero pt h
  rw [evalC_collect, eval_eq_sum, List.map_cons, List.sum_cons, ← eval_eq_sum, flatten_eval] at h0
  simp only [Mono.eval, powers_zeros] at h0
  push_cast at h0
  linear_combination h0

theorem nodal_partition {dim p : Nat} {basis : String} {fns : List Poly}
    (hf : interpFns dim p basis false = .ok fns) (pt : List F) : (fns.map fun f => f.eval pt).sum = 1 := by
  unfold interpFns at hf
  simp only [Bool.false_eq_true, if_false] at hf
  split at hf
  · rename_i fs hl
    injection hf with hf
    subst hf
    have := List.all_eq_true.1 nodal_sums _ (mem_of_lookup hl)
    by_cases hd : dim = 1
    · simp only [hd, if_true, sumsToOne] at this
      exact sum_one this pt
    · simp only [hd, if_false, sumsToOne] at this
      exact sum_one this pt
  · cases hf

omit [CharZero F] in
theorem sum_range_getD (fns : List Poly) (g : Poly → F) :
    ∑ k ∈ Finset.range fns.length, g (fns.getD k []) = (fns.map g).sum := by
  induction fns with
  | nil => simp
  | cons f fs ih =>
    rw [List.length_cons, Finset.sum_range_succ']
    simp only [List.getD_cons_succ, List.getD_cons_zero, List.map_cons, List.sum_cons]
    rw [ih, add_comm]

end

end Dg
end Pgkyl
