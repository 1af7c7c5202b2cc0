import Verif.Model.Picture
import Verif.Spec.Picture
import Verif.Props.PlotData
import Verif.Props.SelectInterp
/-! # What is drawn of a dataset on a uniform mesh -/

namespace Pgkyl
open Spec Cmd Plot

section
variable {F : Type} [_root_.Field F]

/-- The axis as a direction of a plot. -/
def plotAxis (a : Axis F) : PlotAxis F := ⟨a.nodes, a.cells⟩

theorem plotAxis_ok {a : Axis F} (h : 1 ≤ a.cells) : (plotAxis a).OK := ⟨h, .inr (nodes_length a)⟩

theorem node_get {a : Axis F} {i : Nat} (h : i < a.cells + 1) : a.nodes[i]? = some (a.node i) := by
  rw [Axis.nodes, List.getElem?_map, List.getElem?_range h]; rfl

theorem plotAxis_pos {a : Axis F} {i : Nat} (hi : i < a.cells) {x : F} (h : (plotAxis a).IsPos i x) : x = a.mid i := by
  rcases h with ⟨h, -⟩ | ⟨-, l, r, hl, hr, rfl⟩
  · simp [plotAxis, nodes_length] at h
  · simp only [plotAxis] at hl hr
    rw [node_get (by omega)] at hl hr
    cases hl; cases hr; rfl

theorem filter_plotAxis (axes : List (Axis F)) : (axes.map plotAxis).filter (fun a => decide (1 < a.n)) =
    (axes.filter fun a => decide (1 < a.cells)).map plotAxis := by
  rw [List.filter_map]; rfl

/-- A dataset that holds values `f` on a mesh and knows its extents. -/
structure Holds [Min F] [Max F] (r : GData F) (axes : List (Axis F)) (m : Nat) (f : List Nat → Nat → F) : Prop where
  grid : r.grid = some (axes.map fun a => NArr.ofList a.nodes)
  values : ∃ v, r.values = some v ∧ IsField v (axes.map (·.cells)) m f
  cells : r.numCells = some (axes.map (·.cells))
  bounds : ∃ b, r.bounds = .ok (some b)

variable [Min F] [Max F]

theorem holds_push {d r : GData F} {g : List (NArr F)} {v : NArr F} (h : d.push g v = .ok r) {axes : List (Axis F)}
    (hm : IsMesh g axes) {m : Nat} {f : List Nat → Nat → F} (hf : IsField v (axes.map (·.cells)) m f) : Holds r axes m f := by
  obtain ⟨nc, l, u, -, -, -, rfl⟩ := GData.push_eq_ok h
  refine ⟨by rw [mesh_nodes hm], ⟨v, rfl, hf⟩, ?_, ⟨_, rfl⟩⟩
  simp [GData.numCells, hf.shape]

omit [Min F] [Max F] in
theorem holds_dataset {axes : List (Axis F)} {m : Nat} {f : List Nat → Nat → F} {v : NArr F}
    (hf : IsField v (axes.map (·.cells)) m f) : IsDataset (axes.map plotAxis) m v :=
  ⟨hf.wf, by rw [hf.shape, List.map_map]; rfl⟩

theorem ofData_holds {r : GData F} {axes : List (Axis F)} {m : Nat} {f : List Nat → Nat → F} (h : Holds r axes m f) :
    ∃ v, IsField v (axes.map (·.cells)) m f ∧
      ofData r = prepare ((axes.map plotAxis).map (·.nodes)) ((axes.map plotAxis).map (·.n)) v := by
  obtain ⟨hg, ⟨v, hv, hf⟩, hc, b, hb⟩ := h
  refine ⟨v, hf, ?_⟩
  simp only [ofData, hg, hc, hv, hb, bind, Except.bind, List.map_map]
  rfl

theorem fullIndex_inRange : ∀ {ns idx : List Nat}, (∀ n ∈ ns, 1 ≤ n) →
    inRange (ns.filter fun n => decide (1 < n)) idx = true → inRange ns (fullIndex ns idx) = true := by
  intro ns idx h1 h2
  have := (squeeze_ravel ns [] idx [] h1 h2).1
  simpa [h2] using this

omit [_root_.Field F] [Min F] [Max F] in
theorem cells_filter {axes : List (Axis F)} {as : List (Axis F)} (h : axes.filter (fun a => decide (1 < a.cells)) = as) :
    (axes.map (·.cells)).filter (fun n => decide (1 < n)) = as.map (·.cells) := by
  rw [List.filter_map, ← h]; rfl

/-- The line of a dataset. -/
theorem lineOf_holds {r : GData F} {axes : List (Axis F)} {m : Nat} {f : List Nat → Nat → F} (h : Holds r axes m f)
    (hpos : ∀ a ∈ axes, 1 ≤ a.cells) {a : Axis F} (ha : axes.filter (fun a => decide (1 < a.cells)) = [a])
    (s : Scales F) {c : Nat} (hc : c < m) :
    lineOf (1 / 2) s r c = .ok ((List.range a.cells).map (fun i => (a.mid i + s.xshift) * s.xscale),
      (List.range a.cells).map fun i => (f (fullIndex (axes.map (·.cells)) [i]) c + s.yshift) * s.yscale) := by
  obtain ⟨v, hf, e⟩ := ofData_holds h
  obtain ⟨p, xs, ys, h1, h2, h3, h4, h5⟩ := C67_line (axes := axes.map plotAxis)
    (fun b hb => by obtain ⟨a, ha, rfl⟩ := List.mem_map.1 hb; exact plotAxis_ok (hpos a ha)) (holds_dataset hf)
    (by rw [filter_plotAxis, ha]; rfl) s hc
  have hcells : (axes.map plotAxis).map (·.n) = axes.map (·.cells) := by rw [List.map_map]; rfl
  simp only [lineOf, e, h1, bind, Except.bind, h2, Except.ok.injEq, Prod.mk.injEq]
  rw [hcells] at h5
  have hin : ∀ i, i < a.cells → inRange (axes.map (·.cells)) (fullIndex (axes.map (·.cells)) [i]) = true := by
    intro i hi
    refine fullIndex_inRange (fun n hn => ?_) (by rw [cells_filter ha]; simpa [inRange] using hi)
    obtain ⟨b, hb, rfl⟩ := List.mem_map.1 hn
    exact hpos b hb
  constructor
  · apply List.ext_getElem?
    intro i
    by_cases hi : i < a.cells
    · obtain ⟨x, w, hx, -, e1, -⟩ := h5 i hi
      rw [e1, List.getElem?_map, List.getElem?_range hi, plotAxis_pos hi hx]; rfl
    · rw [List.getElem?_eq_none (by rw [h3]; exact not_lt.1 hi), List.getElem?_eq_none (by simpa using hi)]
  · apply List.ext_getElem?
    intro i
    by_cases hi : i < a.cells
    · obtain ⟨x, w, -, hw, -, e1⟩ := h5 i hi
      rw [hf.get _ (hin i hi) c hc] at hw
      cases hw
      rw [e1, List.getElem?_map, List.getElem?_range hi]; rfl
    · rw [List.getElem?_eq_none (by rw [h4]; exact not_lt.1 hi), List.getElem?_eq_none (by simpa using hi)]

/-- The coloured cells of a dataset. -/
theorem meshOf_holds {r : GData F} {axes : List (Axis F)} {m : Nat} {f : List Nat → Nat → F} (h : Holds r axes m f)
    (hpos : ∀ a ∈ axes, 1 ≤ a.cells) {a b : Axis F} (ha : axes.filter (fun a => decide (1 < a.cells)) = [a, b])
    (s : Scales F) {c : Nat} (hc : c < m) :
    ∃ z, meshOf (1 / 2) s r c = .ok (a.nodes.map (fun x => (x + s.xshift) * s.xscale),
        b.nodes.map (fun y => (y + s.yshift) * s.yscale), z) ∧ z.WF ∧ z.shape = [b.cells, a.cells] ∧
      ∀ i j, i < a.cells → j < b.cells →
        z.get? [j, i] = some ((f (fullIndex (axes.map (·.cells)) [i, j]) c + s.zshift) * s.zscale) := by
  obtain ⟨v, hf, e⟩ := ofData_holds h
  obtain ⟨p, z, h1, h2, h3, h4, h5⟩ := C67_mesh (axes := axes.map plotAxis)
    (fun b hb => by obtain ⟨a, ha, rfl⟩ := List.mem_map.1 hb; exact plotAxis_ok (hpos a ha)) (holds_dataset hf)
    (by rw [filter_plotAxis, ha]; rfl) (nodes_length a) (nodes_length b) s hc
  have hcells : (axes.map plotAxis).map (·.n) = axes.map (·.cells) := by rw [List.map_map]; rfl
  rw [hcells] at h5
  refine ⟨z, by simp only [meshOf, e, h1, bind, Except.bind, h2]; rfl, h3, h4, fun i j hi hj => ?_⟩
  obtain ⟨w, hw, hz⟩ := h5 i j hi hj
  rw [hz]
  have hin : inRange (axes.map (·.cells)) (fullIndex (axes.map (·.cells)) [i, j]) = true := by
    refine fullIndex_inRange (fun n hn => ?_) (by rw [cells_filter ha]; simp [inRange, hi, hj])
    obtain ⟨b, hb, rfl⟩ := List.mem_map.1 hn
    exact hpos b hb
  rw [hf.get _ hin c hc] at hw
  cases hw; rfl

/-- The positions and the matrix given to `contour`. -/
theorem contourOf_holds {r : GData F} {axes : List (Axis F)} {m : Nat} {f : List Nat → Nat → F} (h : Holds r axes m f)
    (hpos : ∀ a ∈ axes, 1 ≤ a.cells) {a b : Axis F} (ha : axes.filter (fun a => decide (1 < a.cells)) = [a, b])
    (s : Scales F) {c : Nat} (hc : c < m) :
    ∃ z, contourOf (1 / 2) s r c = .ok ((List.range a.cells).map (fun i => (a.mid i + s.xshift) * s.xscale),
        (List.range b.cells).map (fun j => (b.mid j + s.yshift) * s.yscale), z) ∧ z.WF ∧ z.shape = [b.cells, a.cells] ∧
      ∀ i j, i < a.cells → j < b.cells →
        z.get? [j, i] = some ((f (fullIndex (axes.map (·.cells)) [i, j]) c + s.zshift) * s.zscale) := by
  obtain ⟨v, hf, e⟩ := ofData_holds h
  obtain ⟨p, xs, ys, z, h1, h2, hx, hy, h3, h4, h5⟩ := C67_contour (axes := axes.map plotAxis)
    (fun b hb => by obtain ⟨a, ha, rfl⟩ := List.mem_map.1 hb; exact plotAxis_ok (hpos a ha)) (holds_dataset hf)
    (by rw [filter_plotAxis, ha]; rfl) s hc
  have hcells : (axes.map plotAxis).map (·.n) = axes.map (·.cells) := by rw [List.map_map]; rfl
  rw [hcells] at h5
  have hab : 1 < a.cells ∧ 1 < b.cells := by
    have : ∀ c ∈ [a, b], 1 < c.cells := fun c hc => by
      rw [← ha] at hc; simpa using (List.mem_filter.1 hc).2
    exact ⟨this a (by simp), this b (by simp)⟩
  have ex : xs = (List.range a.cells).map (fun i => (a.mid i + s.xshift) * s.xscale) := by
    apply List.ext_getElem?
    intro i
    by_cases hi : i < a.cells
    · obtain ⟨x, y, w, hx, -, -, e1, -⟩ := h5 i 0 hi (by simp [plotAxis]; omega)
      rw [e1, List.getElem?_map, List.getElem?_range hi, plotAxis_pos hi hx]; rfl
    · rw [List.getElem?_eq_none (by rw [hx]; exact not_lt.1 hi), List.getElem?_eq_none (by simpa using hi)]
  have ey : ys = (List.range b.cells).map (fun j => (b.mid j + s.yshift) * s.yscale) := by
    apply List.ext_getElem?
    intro i
    by_cases hi : i < b.cells
    · obtain ⟨x, y, w, -, hx, -, -, e1, -⟩ := h5 0 i (by simp [plotAxis]; omega) hi
      rw [e1, List.getElem?_map, List.getElem?_range hi, plotAxis_pos hi hx]; rfl
    · rw [List.getElem?_eq_none (by rw [hy]; exact not_lt.1 hi), List.getElem?_eq_none (by simpa using hi)]
  subst ex ey
  refine ⟨z, by simp only [contourOf, e, h1, bind, Except.bind, h2], h3, h4, fun i j hi hj => ?_⟩
  obtain ⟨x, y, w, -, -, hw, -, -, hz⟩ := h5 i j hi hj
  rw [hz]
  have hin : inRange (axes.map (·.cells)) (fullIndex (axes.map (·.cells)) [i, j]) = true := by
    refine fullIndex_inRange (fun n hn => ?_) (by rw [cells_filter ha]; simp [inRange, hi, hj])
    obtain ⟨b, hb, rfl⟩ := List.mem_map.1 hn
    exact hpos b hb
  rw [hf.get _ hin c hc] at hw
  cases hw; rfl

end
end Pgkyl
