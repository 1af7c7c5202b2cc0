import Verif.Props.Integrate
/-!
# C144: `int` in `ev` and `integrate` give the same numbers

Numbers are the elements of a linearly ordered field (exact arithmetic).
-/

namespace Pgkyl
open Spec EvCmd Integ

section
variable {F : Type} [_root_.Field F] [LinearOrder F]

/-- C144: on every grid whose axes have at least two coordinates, `int` of `ev` and the function `integrate` compute the same
array, in whatever way the axes are named.

Full statement (false, see `C144_coordinates_fail`): they return the same grid as well. -/
theorem C144_routes_partial (fn : Fns F) (g0 : EvGrid F) (data : GData F) {axes : List (List F)} {v : NArr F}
    (hg : data.grid = some (axes.map NArr.ofList)) (hval : data.values = some v) (hv : v.WF)
    (hfit : FitsAll axes v.shape) (h2 : ∀ x ∈ axes, 2 ≤ x.length) {A B : List Nat} (hAB : A.Perm B) (hA : A.Nodup)
    (hlt : ∀ a ∈ A, a < axes.length) {arg : EvVal F} (harg : EvNames fn axes.length arg A) {arg' : Calculus.AxisArg}
    (harg' : ApiNames data.numDims arg' B) :
    ∃ g g' r, EvCmd.integrate fn false [g0, some (axes.map NArr.ofList)] [arg, .arr v] = .ok (some g, .arr r) ∧
      Calculus.integrate data arg' false = .ok (g', r, data) ∧
      ∀ d, d ∉ A → g[d]? = g'[d]? := by
  obtain ⟨g, r, e1, w1, s1, l1, -, p1, v1⟩ := C30_ev_weighted_sum fn g0 hv hfit hA hlt harg
  have hfit' : ApiFitsAll axes v.shape :=
    ⟨hfit.1, fun d x n e1 e2 => .inl ⟨h2 x (List.mem_of_getElem? e1), hfit.2 d x n e1 e2⟩⟩
  obtain ⟨r', d', e2, w2, s2, k2, -, v2⟩ := C30_api_weighted_sum data hg hval hv hfit' (hAB.nodup_iff.1 hA)
    (fun a ha => hlt a (hAB.mem_iff.2 ha)) harg' false
  have hc : collapsed B v.shape = collapsed A v.shape := collapsed_congr (fun a => hAB.mem_iff.symm) _
  rw [k2 rfl] at e2
  have hr : r' = r := by
    refine NArr.ext_get? w2 w1 (by rw [s1, s2, hc]) fun idx hidx => ?_
    rw [s2] at hidx
    rw [v2 idx hidx, v1 idx (by rw [← hc]; exact hidx), cellSum_perm hAB]
    congr 1
    refine cellSum_weights (fun a ha i n _ _ => ?_) (fun a ha => ?_) idx
    · have hla := hlt a (hAB.mem_iff.2 ha)
      have e3 : axes.getD a [] = axes[a] := by
        rw [List.getD_eq_getElem?_getD, List.getElem?_eq_getElem hla]; rfl
      have := h2 axes[a] (List.getElem_mem _)
      rw [gridWeight, gridWidth, apiWeight, if_neg]
      rw [e3]; omega
    · have := hlt a (hAB.mem_iff.2 ha); have := hfit.1; omega
  rw [hr] at e2
  refine ⟨g, _, r, e1, e2, fun d hd => ?_⟩
  rw [p1 d hd, List.getElem?_map, meanAxes, List.getElem?_mapIdx]
  have hdB : d ∉ B := fun hh => hd (hAB.mem_iff.2 hh)
  cases axes[d]? <;> simp [hdB]

/-- C144 fails for the coordinate of an integrated axis: `ev` puts 0, `integrate` the mean of the coordinates. -/
theorem C144_coordinates_fail (fn : Fns F) (g0 : EvGrid F) (data : GData F) {axes : List (List F)} {v : NArr F}
    (hg : data.grid = some (axes.map NArr.ofList)) (hval : data.values = some v) (hv : v.WF)
    (hfit : FitsAll axes v.shape) (h2 : ∀ x ∈ axes, 2 ≤ x.length) {A : List Nat} (hA : A.Nodup)
    (hlt : ∀ a ∈ A, a < axes.length) {arg : EvVal F} (harg : EvNames fn axes.length arg A) {arg' : Calculus.AxisArg}
    (harg' : ApiNames data.numDims arg' A) {a : Nat} (ha : a ∈ A) {x : List F} (hx : axes[a]? = some x)
    (hne : x.sum / (x.length : F) ≠ 0) :
    ∃ g g' r, EvCmd.integrate fn false [g0, some (axes.map NArr.ofList)] [arg, .arr v] = .ok (some g, .arr r) ∧
      Calculus.integrate data arg' false = .ok (g', r, data) ∧ g ≠ g' := by
  obtain ⟨g, g', r, e1, e2, -⟩ := C144_routes_partial fn g0 data hg hval hv hfit h2 (List.Perm.refl A) hA hlt harg harg'
  refine ⟨g, g', r, e1, e2, fun hgg => ?_⟩
  obtain ⟨g1, r1, f1, -, -, -, p1, -⟩ := C30_ev_weighted_sum fn g0 hv hfit hA hlt harg
  rw [e1] at f1
  cases f1
  have hfit' : ApiFitsAll axes v.shape :=
    ⟨hfit.1, fun d x n e1 e2 => .inl ⟨h2 x (List.mem_of_getElem? e1), hfit.2 d x n e1 e2⟩⟩
  obtain ⟨r', d', e3, -⟩ := C30_api_weighted_sum data hg hval hv hfit' hA hlt harg' false
  rw [e2] at e3
  simp only [Except.ok.injEq, Prod.mk.injEq] at e3
  obtain ⟨e3, -, -⟩ := e3
  have := p1 a ha
  rw [hgg, e3, List.getElem?_map, meanAxes, List.getElem?_mapIdx, hx] at this
  simp only [Option.map_some, if_pos ha, Option.some.injEq, NArr.ofList, NArr.mk.injEq, List.cons.injEq] at this
  exact hne this.2.1

end

namespace RoutesEx

/-- 2 × 3 cells on a grid that is not uniform. -/
def data : GData ℚ :=
  { grid := some ([[0, 1, 3], [0, 2, 5, 9]].map NArr.ofList)
    values := some ⟨[2, 3, 1], [0, 10, 20, 100, 110, 120]⟩
    ctx := { cells := some [2, 3], numComps := some 1 } }

/-- The hypotheses of C144 are met, and the mean of the coordinates is not 0. -/
example (fn : Fns ℚ) : FitsAll [[0, 1, 3], [0, 2, 5, 9]] [2, 3, 1] ∧
    (∀ x ∈ ([[0, 1, 3], [0, 2, 5, 9]] : List (List ℚ)), 2 ≤ x.length) ∧ [0, 1].Perm [1, 0] ∧
    EvNames fn 2 (.str (joinWith ',' ([0, 1].map dec))) [0, 1] ∧
    ApiNames data.numDims (.str (joinWith ',' ([1, 0].map dec))) [1, 0] ∧
    ([0, 1, 3] : List ℚ).sum / (([0, 1, 3] : List ℚ).length : ℚ) ≠ 0 := by
  refine ⟨⟨rfl, ?_⟩, by simp, List.Perm.swap 1 0 [], .list (by simp), .str (by simp), by norm_num⟩
  intro d x n hx hn
  match d with
  | 0 => cases hx; cases hn; exact .inl rfl
  | 1 => cases hx; cases hn; exact .inl rfl
  | d + 2 => simp at hx

end RoutesEx

end Pgkyl
