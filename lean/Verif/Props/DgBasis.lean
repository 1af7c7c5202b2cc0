import Verif.Lemmas.DgOrtho
import Verif.Props.DgNodal
/-!
# Properties: the basis functions (C64, C65)
-/

namespace Pgkyl
open Spec Dg

/-- **C64.** Nodal interpolation reproduces constants: if all nodal values of quantity `c` of the cell a refined
cell lies in are `a`, then the interpolated value is exactly `a` (exact arithmetic; every dimension, order,
mesh, number of points and position). -/
theorem C64_nodal_constant {F : Type} [_root_.Field F] [CharZero F] {src : Source F} {cells : List Nat} {nq : Nat}
    {f : List Nat → Nat → F} {axes : List (Axis F)} {fns : List Poly}
    (h : OnMesh src cells (fns.length * nq) f axes) (hnc : src.numComps = fns.length * nq) {p n : Nat} {o : Interp F}
    (ho : nodalInit src p "ns" (some n) = .ok o) (hfn : interpFns cells.length p "serendipity" false = .ok fns)
    (hn2 : 2 ≤ n) {c : Nat} (hc : c < nq) (h5 : Except Err (List (List F))) :
    ∃ grid values, nodalInterpolate h5 o (.int c) = .ok (grid, values) ∧
      ∀ (idx : List Nat) (a : F), inRange (cells.map (· * n)) idx = true →
        (∀ k < fns.length, f (List.zipWith (· / ·) idx (List.replicate cells.length n)) (c + k * nq) = a) →
        values.get? (idx ++ [0]) = some a := by
  obtain ⟨grid, values, h1, -, h3⟩ := C61_nodal_interpolate_partial h hnc ho hfn hn2 (comp := .int c) (cs := [c]) rfl
    (by simpa using hc) h5
  refine ⟨grid, values, h1, fun idx a hidx ha => ?_⟩
  rw [h3.get idx hidx 0 (by simp)]
  congr 1
  simp only [List.getD_cons_zero, cellValue, expand]
  rw [Finset.sum_congr rfl (g := fun k => a * ((fns.getD k []).eval
      (localPt axes (List.zipWith (· / ·) idx (List.replicate cells.length n))
        (midPt (refineAll axes (List.replicate cells.length n)) idx))))
    (fun k hk => by rw [ha k (Finset.mem_range.1 hk)]), ← Finset.mul_sum]
  have := nodal_partition (F := F) hfn (localPt axes (List.zipWith (· / ·) idx (List.replicate cells.length n))
        (midPt (refineAll axes (List.replicate cells.length n)) idx))
  rw [← sum_range_getD fns fun f => f.eval _] at this
  rw [this, mul_one]

/-- **C65.** The functions of every modal basis are orthonormal on the reference cube to within 1e-14: the
integral of the product of functions `i` and `j` differs from 1 (if `i = j`) or 0 by at most that.  (All
dimensions, orders and families for which there are functions; the decimal coefficients are taken exactly.) -/
theorem C65_orthonormal {dim p : Nat} {basis : String} {fns : List Poly}
    (hf : interpFns dim p basis true = .ok fns) {i j : Nat} {f g : Poly} (hi : fns[i]? = some f)
    (hj : fns[j]? = some g) :
    |cubeInt dim (fun ξ => f.eval ξ * g.eval ξ) - (if i = j then 1 else 0)| ≤ 1 / 10 ^ 14 :=
  modal_orthonormal hf i j f g hi hj

namespace DgEx

/-- The hypotheses of `C64_nodal_constant` for a dataset in which the nodal values of every cell agree. -/
example : ∃ o grid values, nodalInit (src (axes : List (Axis ℚ)) 8 fun i c => (i.sum + c % 2 : Nat)) 1 "ns" (some 3) = .ok o ∧
    nodalInterpolate (.error .osError) o (.int 1) = .ok (grid, values) ∧ values.get? [5, 8, 0] = some 4 := by
  obtain ⟨g, v, h1, h2⟩ := C64_nodal_constant (nq := 2) (fns := nfns) (cells := [2, 3])
    (f := fun i c => ((i.sum + c % 2 : Nat) : ℚ)) (axes := axes) (o := ⟨src axes 8 fun i c => (i.sum + c % 2 : Nat), 1,
      "serendipity", some 3, 4⟩)
    (by rw [nfns_length]; exact src_onMesh (axes_dx (F := ℚ)) (by decide) 8 _) (by rw [nfns_length]; rfl) rfl
    nfns_interp (by decide) (c := 1) (by decide) (.error .osError)
  refine ⟨_, g, v, rfl, h1, h2 [5, 8] 4 (by decide) fun k hk => ?_⟩
  have hz : List.zipWith (· / ·) [5, 8] (List.replicate [2, 3].length 3) = [1, 2] := by decide
  rw [hz]
  have : (1 + k * 2) % 2 = 1 := by omega
  simp only [this]
  norm_num

/-- The functions of `C65_orthonormal`: the second function of the linear basis in two dimensions. -/
example : ∃ f, fns[1]? = some f ∧ |cubeInt 2 (fun ξ => f.eval ξ * f.eval ξ) - 1| ≤ 1 / 10 ^ 14 := by
  have h : fns[1]? = some fns[1] := List.getElem?_eq_getElem (by rw [fns_length]; decide)
  refine ⟨_, h, ?_⟩
  have := C65_orthonormal fns_interp h h
  simpa using this

end DgEx
end Pgkyl
