import Verif.Props.PlotData
/-! # C150: plotting a grid and values handed over as a pair -/

namespace Pgkyl
open Spec Plot NArr

section
variable {F : Type} [_root_.Field F]

omit [_root_.Field F] in
theorem preparePair_eq {axes : List (PlotAxis F)} (hax : ∀ a ∈ axes, a.nodes ≠ []) {nc : Nat} {values : NArr F}
    (hv : IsDataset axes nc values) : preparePair (axes.map (·.nodes)) values =
      prepareDims ((axes.map (·.n)).filter (· ≠ 1)).length (axes.map (·.nodes)) (axes.map (·.nodes.length)) values := by
  have h1 : values.shape.length = axes.length + 1 := by rw [hv.shape]; simp
  have h2 : ¬ ((axes.map (·.nodes)).any (·.isEmpty) = true) := by
    simp only [List.any_map, List.any_eq_true, Function.comp_apply, not_exists, not_and, Bool.not_eq_true,
      List.isEmpty_eq_false_iff]
    exact hax
  unfold preparePair pairDims
  rw [if_neg (by rw [List.length_map, h1]; omega), if_neg h2, if_neg (by rw [List.length_map, h1]; omega), hv.shape,
    List.dropLast_concat, List.map_map]
  rfl

omit [_root_.Field F] in
/-- C150: a pair of a grid and values, where the grid has one entry for every value along each direction, is drawn as a
dataset with this grid and these values: every kind of plot starts from the same prepared data. -/
theorem C150_positions_partial {axes : List (PlotAxis F)} (hax : ∀ a ∈ axes, 1 ≤ a.n ∧ a.nodes.length = a.n) {nc : Nat}
    {values : NArr F} (hv : IsDataset axes nc values) :
    preparePair (axes.map (·.nodes)) values = prepare (axes.map (·.nodes)) (axes.map (·.n)) values := by
  rw [preparePair_eq (fun a ha h => by have := hax a ha; rw [h] at this; simp at this; omega) hv, prepare]
  congr 1
  exact List.map_congr_left fun a ha => (hax a ha).2

/-- C150: so a line drawn of such a pair has every value at its own position. -/
theorem C150_line_partial {axes : List (PlotAxis F)} (hax : ∀ a ∈ axes, 1 ≤ a.n ∧ a.nodes.length = a.n) {nc : Nat}
    {values : NArr F} (hv : IsDataset axes nc values) {a : PlotAxis F}
    (ha : axes.filter (fun a => decide (1 < a.n)) = [a]) (s : Scales F) {comp : Nat} (hc : comp < nc) :
    ∃ p xs ys, preparePair (axes.map (·.nodes)) values = .ok p ∧ line (1 / 2) s p comp = .ok (xs, ys) ∧
      xs.length = a.n ∧ ys.length = a.n ∧
      ∀ i, i < a.n → ∃ x v, a.nodes[i]? = some x ∧
        values.get? (fullIndex (axes.map (·.n)) [i] ++ [comp]) = some v ∧
        xs[i]? = some ((x + s.xshift) * s.xscale) ∧ ys[i]? = some ((v + s.yshift) * s.yscale) := by
  obtain ⟨p, xs, ys, hp, hl, h1, h2, h3⟩ := C67_line (fun a h => ⟨(hax a h).1, Or.inl (hax a h).2⟩) hv ha s hc
  refine ⟨p, xs, ys, by rw [C150_positions_partial hax hv, hp], hl, h1, h2, fun i hi => ?_⟩
  obtain ⟨x, v, hx, h⟩ := h3 i hi
  have ham := hax a (List.mem_of_mem_filter (by rw [ha]; simp))
  refine ⟨x, v, ?_, h⟩
  rcases hx with hx | hx
  · exact hx.2
  · omega

omit [_root_.Field F] in
theorem preparePair_nodes {a b : PlotAxis F} (ha : 1 < a.n ∧ a.nodes.length = a.n + 1)
    (hb : 1 < b.n ∧ b.nodes.length = b.n + 1) {nc : Nat} {values : NArr F} (hv : IsDataset [a, b] nc values) :
    preparePair [a.nodes, b.nodes] values = .ok ⟨[a.nodes, b.nodes], [a.nodes.length, b.nodes.length], values⟩ := by
  have hp := preparePair_eq (axes := [a, b]) (by
    simp only [List.mem_cons, List.not_mem_nil, or_false, forall_eq_or_imp, forall_eq]
    exact ⟨fun h => by simp [h] at ha, fun h => by simp [h] at hb⟩) hv
  have e1 : a.n ≠ 1 := by omega
  have e2 : b.n ≠ 1 := by omega
  simp only [List.map_cons, List.map_nil, prepareDims, List.filter, e1, e2, ne_eq, not_false_eq_true, decide_true,
    List.length_cons, List.length_nil] at hp
  exact hp

/-- C150: a colour plot of a pair whose grid has the nodes of the cells is that of the dataset. -/
theorem C150_mesh_partial {a b : PlotAxis F} (ha : 1 < a.n ∧ a.nodes.length = a.n + 1)
    (hb : 1 < b.n ∧ b.nodes.length = b.n + 1) {nc : Nat} {values : NArr F} (hv : IsDataset [a, b] nc values)
    (s : Scales F) {comp : Nat} (hc : comp < nc) :
    ∃ p z, preparePair [a.nodes, b.nodes] values = .ok p ∧
      mesh (1 / 2) s p comp = .ok (a.nodes.map (fun x => (x + s.xshift) * s.xscale),
        b.nodes.map (fun y => (y + s.yshift) * s.yscale), z) ∧ z.WF ∧ z.shape = [b.n, a.n] ∧
      ∀ i j, i < a.n → j < b.n → ∃ v, values.get? [i, j, comp] = some v ∧
        z.get? [j, i] = some ((v + s.zshift) * s.zscale) := by
  have hp := preparePair_nodes ha hb hv
  obtain ⟨zw, zs, zg⟩ := zValues_ok hv.wf (show values.shape = [a.n, b.n, nc] from hv.shape) s hc
  refine ⟨_, zValues s values comp, hp, ?_, zw, zs, fun i j hi hj => zg i j hi hj⟩
  simp only [mesh, zs, List.getElem?_cons_succ, List.getElem?_cons_zero, Option.some.injEq]
  rw [if_neg (by omega)]
  rfl

/-- C150 fails for lines: a pair whose grid has the nodes of the cells, as `interpolate` returns it, is drawn with one
abscissa more than there are ordinates. -/
theorem C150_line_fails {a : PlotAxis F} (ha : 1 ≤ a.n ∧ a.nodes.length = a.n + 1) {nc : Nat} {values : NArr F}
    (hv : IsDataset [a] nc values) (s : Scales F) {comp : Nat} (hc : comp < nc) :
    ∃ p xs ys, preparePair [a.nodes] values = .ok p ∧ line (1 / 2) s p comp = .ok (xs, ys) ∧
      xs.length = a.n + 1 ∧ ys.length = a.n := by
  have hp := preparePair_eq (axes := [a]) (by
    simp only [List.mem_cons, List.not_mem_nil, or_false, forall_eq]
    exact fun h => by simp [h] at ha) hv
  have hp' : preparePair [a.nodes] values = .ok ⟨[a.nodes], [a.nodes.length], values⟩ := by
    have hl : 1 < a.nodes.length := by omega
    rw [List.map_cons, List.map_nil] at hp
    rw [hp]
    have hle : ([a.n].filter fun n => decide (n ≠ 1)).length ≤ 1 := List.length_filter_le _ _
    simp only [List.map_cons, List.map_nil, prepareDims]
    rw [if_neg (by omega)]
    split
    · rw [if_pos (by simpa using hl)]
    · rfl
  have hs : values.shape = [a.n, nc] := hv.shape
  refine ⟨_, a.nodes.map (place s.xshift s.xscale), (component values comp).data.map (place s.yshift s.yscale), hp', ?_,
    by simp [ha.2], ?_⟩
  · simp [line, nodalGrid, centres, bind, Except.bind, pure, Except.pure]
  · have hcomp : component values comp = NArr.ofFn [a.n] fun idx => values.get? (idx ++ [comp]) := by
      simp [component, hs]
    have hcw : (component values comp).WF := by
      rw [hcomp]
      refine ofFn_WF fun idx hi => get?_isSome hv.wf ?_
      rw [hs]
      rw [inRange_iff_forall₂] at hi ⊢
      exact List.rel_append hi (List.Forall₂.cons hc .nil)
    have hcs : (component values comp).shape = [a.n] := by rw [hcomp]; rfl
    rw [List.length_map, hcw, hcs]
    simp

/-- C150 fails for contours: with the nodes of the cells there is one position more than there are values, along both
directions. -/
theorem C150_contour_fails {a b : PlotAxis F} (ha : 1 < a.n ∧ a.nodes.length = a.n + 1)
    (hb : 1 < b.n ∧ b.nodes.length = b.n + 1) {nc : Nat} {values : NArr F} (hv : IsDataset [a, b] nc values)
    (s : Scales F) {comp : Nat} (hc : comp < nc) :
    ∃ p xs ys z, preparePair [a.nodes, b.nodes] values = .ok p ∧ contour (1 / 2) s p comp = .ok (xs, ys, z) ∧
      xs.length = a.n + 1 ∧ ys.length = b.n + 1 ∧ z.shape = [b.n, a.n] := by
  have hp := preparePair_nodes ha hb hv
  obtain ⟨-, zs, -⟩ := zValues_ok hv.wf (show values.shape = [a.n, b.n, nc] from hv.shape) s hc
  refine ⟨_, a.nodes.map (place s.xshift s.xscale), b.nodes.map (place s.yshift s.yscale), zValues s values comp, hp, ?_,
    by simp [ha.2], by simp [hb.2], zs⟩
  simp [contour, nodalGrid, centres, bind, Except.bind, pure, Except.pure]

omit [_root_.Field F] in
/-- C150 fails for collapsed directions: a direction of one cell given by its two nodes is not removed, and the values
handed to the plotting functions keep all their directions. -/
theorem C150_collapsed_fails {a b : PlotAxis F} (ha : a.n = 1 ∧ a.nodes.length = 2)
    (hb : 1 < b.n ∧ b.nodes.length = b.n + 1) {nc : Nat} {values : NArr F} (hv : IsDataset [a, b] nc values) :
    preparePair [a.nodes, b.nodes] values = .ok ⟨[a.nodes, b.nodes], [2, b.n + 1], values⟩ ∧
      ∃ v, prepare [a.nodes, b.nodes] [1, b.n] values = .ok ⟨[b.nodes], [b.n], v⟩ ∧ v.shape = [b.n, nc] := by
  have hp := preparePair_eq (axes := [a, b]) (by
    simp only [List.mem_cons, List.not_mem_nil, or_false, forall_eq_or_imp, forall_eq]
    exact ⟨fun h => by simp [h] at ha, fun h => by simp [h] at hb⟩) hv
  have e2 : b.n ≠ 1 := by omega
  have e3 : 1 < b.n + 1 := by omega
  have hs : values.shape = [1, b.n, nc] := by rw [hv.shape, List.map_cons, ha.1]; rfl
  constructor
  · simpa [prepareDims, List.filter, ha, hb.2, e2, e3] using hp
  · refine ⟨⟨[b.n, nc], values.data⟩, ?_, rfl⟩
    simp [prepare, prepareDims, List.filter, e2, squeezeValues, keepLarge, hs, hb.1, bind, Except.bind, pure,
      Except.pure]
end

/-! Non-vacuity: three cells, a pair of their centres and a pair of their nodes; a plane of two by three cells. -/
namespace PlotPairEx
def centresOf : PlotAxis ℚ := ⟨[1, 3, 5], 3⟩
def nodesOf : PlotAxis ℚ := ⟨[0, 2, 4, 6], 3⟩
def other : PlotAxis ℚ := ⟨[0, 1, 2], 2⟩
def flat : PlotAxis ℚ := ⟨[0, 1], 1⟩

example : ∃ p xs ys, preparePair [[1, 3, 5]] (⟨[3, 1], [7, 8, 9]⟩ : NArr ℚ) = .ok p ∧
    line (1 / 2) ⟨0, 1, 0, 1, 0, 1⟩ p 0 = .ok (xs, ys) ∧ xs.length = 3 ∧ ys.length = 3 := by
  obtain ⟨p, xs, ys, h1, h2, h3, h4, -⟩ := C150_line_partial (axes := [centresOf]) (by simp [centresOf])
    (nc := 1) (values := ⟨[3, 1], [7, 8, 9]⟩) ⟨rfl, rfl⟩ (a := centresOf) (by simp [centresOf]) ⟨0, 1, 0, 1, 0, 1⟩
    (comp := 0) (by omega)
  exact ⟨p, xs, ys, h1, h2, h3, h4⟩

example : ∃ p xs ys, preparePair [[0, 2, 4, 6]] (⟨[3, 1], [7, 8, 9]⟩ : NArr ℚ) = .ok p ∧
    line (1 / 2) ⟨0, 1, 0, 1, 0, 1⟩ p 0 = .ok (xs, ys) ∧ xs.length = 4 ∧ ys.length = 3 :=
  C150_line_fails (a := nodesOf) (by simp [nodesOf]) (nc := 1) (values := ⟨[3, 1], [7, 8, 9]⟩) ⟨rfl, rfl⟩ _ (by omega)

example := C150_mesh_partial (a := other) (b := nodesOf) (by simp [other]) (by simp [nodesOf]) (nc := 1)
  (values := (⟨[2, 3, 1], [1, 2, 3, 4, 5, 6]⟩ : NArr ℚ)) ⟨rfl, rfl⟩ ⟨0, 1, 0, 1, 0, 1⟩ (comp := 0) (by omega)

example := C150_contour_fails (a := other) (b := nodesOf) (by simp [other]) (by simp [nodesOf]) (nc := 1)
  (values := (⟨[2, 3, 1], [1, 2, 3, 4, 5, 6]⟩ : NArr ℚ)) ⟨rfl, rfl⟩ ⟨0, 1, 0, 1, 0, 1⟩ (comp := 0) (by omega)

example := C150_collapsed_fails (a := flat) (b := nodesOf) (by simp [flat]) (by simp [nodesOf]) (nc := 1)
  (values := (⟨[1, 3, 1], [1, 2, 3]⟩ : NArr ℚ)) ⟨rfl, rfl⟩
end PlotPairEx
end Pgkyl
