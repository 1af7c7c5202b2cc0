import Verif.Lemmas.DgC2p
import Verif.Props.Dg
import Mathlib.Data.Rat.Defs
import Mathlib.Algebra.Field.Rat
/-!
# Properties: grids given as expansions of the mapped coordinates (C66)
-/

namespace Pgkyl
open Spec Dg

section
variable {F : Type} [_root_.Field F] [CharZero F]

/-- **C66.** Interpolating modal DG data whose grid is given by the expansion coefficients of the mapped
coordinates returns, for every axis `d`, an array with `n` cells per input cell in every direction, whose node
`idx` is the value of the expansion of coordinate `d` at that node (in computational coordinates), taken in a
cell the node belongs to.  The values are those of C36, in computational coordinates. -/
theorem C66_c2p_grid {src : Source F} {cells : List Nat} {m : Nat} {f : List Nat → Nat → F}
    (hv : IsField src.values cells m f) (hdim : src.numDims = cells.length) (hpos : 1 ≤ cells.length)
    (hc : ∀ c ∈ cells, 1 ≤ c) (hgt : src.gridType = "c2p")
    {K : Nat} {X : Nat → List Nat → Nat → F}
    (hgrid : ∀ d < cells.length, ∃ q, src.grid[d]? = some q ∧ IsField q cells K (X d))
    {bg : String} {pg : Nat} (hb : basisOf cells.length K = .ok (some (bg, pg)))
    {gfns : List Poly} (hgfn : interpFns cells.length pg bg true = .ok gfns)
    {po : Option Nat} {b : Option String} {ni : Option Nat} {o : Interp F}
    (ho : modalInit src po b ni = .ok o)
    {fns : List Poly} (hfn : interpFns cells.length o.polyOrder o.basis true = .ok fns)
    (hg : cells.length = 1 → o.basis ≠ "gkhybrid") (h0 : o.polyOrder = 0 → o.basis = "serendipity")
    {n : Nat} (hn : o.numInterp = some n) (hn2 : 2 ≤ n)
    {comp : Comp} {cs : List Nat} (hcs : comp.list = .ok cs)
    (hm : ∀ c ∈ cs, (c + 1) * fns.length ≤ m) :
    ∃ grid values, modalInterpolate o comp = .ok (grid, values) ∧
      (grid.length = cells.length ∧ ∀ (d : Nat) (g : NArr F), grid[d]? = some g →
        g.shape = cells.map (· * n + 1) ∧
        ∀ idx, inRange (cells.map (· * n + 1)) idx = true → ∃ cell, inRange cells cell = true ∧
          NodeOf n cell idx ∧
          g.get? idx = some (cellValue gfns (unitAxes cells) (X d cell) cell
            (nodePt (refineAll (unitAxes cells) (List.replicate cells.length n)) idx))) ∧
      IsField values (List.zipWith (· * ·) cells (perCell o.basis cells.length n)) cs.length
        (fun idx j =>
          let cell := List.zipWith (· / ·) idx (perCell o.basis cells.length n)
          cellValue fns (unitAxes cells) (fun k => f cell (cs.getD j 0 * fns.length + k)) cell
            (midPt (refineAll (unitAxes cells) (perCell o.basis cells.length n)) idx)) := by
  obtain ⟨-, values, hval, hvf⟩ := modal_values (axes := unitAxes cells) hv hdim
    (by unfold unitAxes; rw [List.map_map]; exact List.map_id _)
    (by intro a ha; obtain ⟨c, -, rfl⟩ := List.mem_map.1 ha; exact one_ne_zero) hpos ho hfn hg h0 hn hn2 hcs hm
  obtain ⟨h1, -, -, -⟩ := modalInit_ok ho
  subst h1
  obtain ⟨h1, h2, h3⟩ := basisOf_size hb
  have hK : gfns.length = K := interpFns_size hgfn h1 (fun _ => by
    rcases h3 with rfl | rfl
    · exact ⟨by decide, by decide, fun _ => rfl⟩
    · exact ⟨by decide, by decide, fun h => by omega⟩)
  have hbn : bg ≠ "gkhybrid" ∧ bg ≠ "hybrid" := by
    rcases h3 with rfl | rfl <;> exact ⟨by decide, by decide⟩
  obtain ⟨q0, hq0, hf0⟩ := hgrid 0 (by omega)
  have hcreate := createInterp_c2p (F := F) (n := n) hgfn hbn
  have hlast : q0.shape.getLastD 0 = K := by rw [hf0.shape]; simp
  subst hK
  obtain ⟨grid, hok⟩ : ∃ grid, modalGrid o n (perCell o.basis cells.length n).prod = .ok grid := by
    unfold modalGrid
    rw [if_pos hgt, List.head?_eq_getElem?, hq0, hdim]
    simp only [hlast, hb, hcreate, bind, Except.bind]
    apply mapM_ex
    intro d hd
    obtain ⟨q, hq, hqf⟩ := hgrid d (List.mem_range.1 hd)
    obtain ⟨r, hr, -⟩ := c2pComp_ok (n := n) hqf hbn (by omega) hc
    simp only [hq]
    exact ⟨r, hr⟩
  refine ⟨grid, values, hval grid hok, ?_, hvf⟩
  unfold modalGrid at hok
  rw [if_pos hgt, List.head?_eq_getElem?, hq0, hdim] at hok
  simp only [hlast, hb, hcreate, bind, Except.bind] at hok
  obtain ⟨hl, hget⟩ := mapM_range_get hok
  refine ⟨hl, fun d g hd => ?_⟩
  have hdl : d < cells.length := by
    rw [← hl]
    exact (List.getElem?_eq_some_iff.1 hd).1
  obtain ⟨q, hq, hqf⟩ := hgrid d hdl
  have hg := hget d g hd
  simp only [hq] at hg
  obtain ⟨r, hr, -, hrs, hrg⟩ := c2pComp_ok (n := n) hqf hbn (by omega) hc
  rw [hr] at hg
  injection hg with hg
  subst hg
  refine ⟨hrs, fun idx hidx => ?_⟩
  obtain ⟨cell, loc, hcell, hloc, hidx', hval⟩ := hrg idx hidx
  obtain ⟨h5, h6⟩ := localPt_node (F := F) (n := n) (by omega) (inRange_length hcell) hloc
  subst hidx'
  refine ⟨cell, hcell, h6, ?_⟩
  rw [hval, cellValue, h5]

/-- **C66, continuous mappings.** If the expansions of coordinate `d` in neighbouring cells agree at their
common nodes, that is, if they are those of a function `φ d` of the computational coordinates, then every node of
the returned grid is the image of the node. -/
theorem C66_c2p_continuous {src : Source F} {cells : List Nat} {m : Nat} {f : List Nat → Nat → F}
    (hv : IsField src.values cells m f) (hdim : src.numDims = cells.length) (hpos : 1 ≤ cells.length)
    (hc : ∀ c ∈ cells, 1 ≤ c) (hgt : src.gridType = "c2p")
    {K : Nat} {X : Nat → List Nat → Nat → F}
    (hgrid : ∀ d < cells.length, ∃ q, src.grid[d]? = some q ∧ IsField q cells K (X d))
    {bg : String} {pg : Nat} (hb : basisOf cells.length K = .ok (some (bg, pg)))
    {gfns : List Poly} (hgfn : interpFns cells.length pg bg true = .ok gfns)
    {po : Option Nat} {b : Option String} {ni : Option Nat} {o : Interp F}
    (ho : modalInit src po b ni = .ok o)
    {fns : List Poly} (hfn : interpFns cells.length o.polyOrder o.basis true = .ok fns)
    (hg : cells.length = 1 → o.basis ≠ "gkhybrid") (h0 : o.polyOrder = 0 → o.basis = "serendipity")
    {n : Nat} (hn : o.numInterp = some n) (hn2 : 2 ≤ n)
    {comp : Comp} {cs : List Nat} (hcs : comp.list = .ok cs)
    (hm : ∀ c ∈ cs, (c + 1) * fns.length ≤ m)
    {φ : Nat → List F → F}
    (hφ : ∀ d < cells.length, ∀ cell idx, inRange cells cell = true → inRange (cells.map (· * n + 1)) idx = true →
      NodeOf n cell idx →
      let z := nodePt (refineAll (unitAxes cells) (List.replicate cells.length n)) idx
      cellValue gfns (unitAxes cells) (X d cell) cell z = φ d z) :
    ∃ grid values, modalInterpolate o comp = .ok (grid, values) ∧ grid.length = cells.length ∧
      ∀ (d : Nat) (g : NArr F), grid[d]? = some g →
        g.shape = cells.map (· * n + 1) ∧ ∀ idx, inRange (cells.map (· * n + 1)) idx = true →
          g.get? idx = some (φ d (nodePt (refineAll (unitAxes cells) (List.replicate cells.length n)) idx)) := by
  obtain ⟨grid, values, h1, ⟨h2, h3⟩, -⟩ := C66_c2p_grid hv hdim hpos hc hgt hgrid hb hgfn ho hfn hg h0 hn hn2 hcs hm
  refine ⟨grid, values, h1, h2, fun d g hd => ⟨(h3 d g hd).1, fun idx hidx => ?_⟩⟩
  obtain ⟨cell, h4, h5, h6⟩ := (h3 d g hd).2 idx hidx
  have hdl : d < cells.length := by
    rw [← h2]
    exact (List.getElem?_eq_some_iff.1 hd).1
  rw [h6]
  exact congrArg some (hφ d hdl cell idx h4 hidx h5)

/-- Mapped velocities, with the values on any reference axes. -/
theorem modal_vel {src : Source F} {cells : List Nat} {m : Nat} {f : List Nat → Nat → F}
    (hv : IsField src.values cells m f) (hdim : src.numDims = cells.length) (hpos : 1 ≤ cells.length)
    {axes : List (Axis F)} (hax : axes.map (·.cells) = cells) (hdx : ∀ a ∈ axes, a.dx ≠ 0)
    (hgt : src.gridType = "c2p_vel") (hl : src.grid.length = cells.length)
    (hcv : src.numCdim + src.numVdim = cells.length) (hvd : 1 ≤ src.numVdim)
    {A : Nat → Axis F} (hconf : ∀ d < src.numCdim, ∃ x, src.grid[d]? = some x ∧ IsAxis x (A d))
    {K : Nat} {vc : Nat → Nat} {X : Nat → List Nat → Nat → F}
    (hvel : ∀ d < src.numVdim, 1 ≤ vc d ∧
      ∃ q, src.grid[src.numCdim + d]? = some q ∧ IsField q [vc d] K (X d))
    {bg : String} {pg : Nat} (hb : basisOf 1 K = .ok (some (bg, pg)))
    {gfns : List Poly} (hgfn : interpFns 1 pg bg true = .ok gfns)
    {po : Option Nat} {b : Option String} {ni : Option Nat} {o : Interp F}
    (ho : modalInit src po b ni = .ok o)
    {fns : List Poly} (hfn : interpFns cells.length o.polyOrder o.basis true = .ok fns)
    (hg : cells.length = 1 → o.basis ≠ "gkhybrid") (h0 : o.polyOrder = 0 → o.basis = "serendipity")
    {n : Nat} (hn : o.numInterp = some n) (hn2 : 2 ≤ n)
    {comp : Comp} {cs : List Nat} (hcs : comp.list = .ok cs)
    (hm : ∀ c ∈ cs, (c + 1) * fns.length ≤ m) :
    ∃ grid values, modalInterpolate o comp = .ok (grid, values) ∧ grid.length = cells.length ∧
      (∀ d < src.numCdim, ∃ x k, grid[d]? = some x ∧ (perCell o.basis cells.length n)[d]? = some k ∧
        IsAxis x ((A d).refine k)) ∧
      (∀ d < src.numVdim, ∃ x k, grid[src.numCdim + d]? = some x ∧
        (perCell o.basis cells.length n)[src.numCdim + d]? = some k ∧
        x.shape = [vc d * k + 1] ∧ ∀ i < vc d * k + 1, ∃ cell < vc d, cell * k ≤ i ∧ i ≤ (cell + 1) * k ∧
          x.get? [i] = some (cellValue gfns (unitAxes [vc d]) (X d [cell]) [cell] [(i : F) / (k : F)])) ∧
      IsField values (List.zipWith (· * ·) cells (perCell o.basis cells.length n)) cs.length
        (fun idx j =>
          let cell := List.zipWith (· / ·) idx (perCell o.basis cells.length n)
          cellValue fns axes (fun k => f cell (cs.getD j 0 * fns.length + k)) cell
            (midPt (refineAll axes (perCell o.basis cells.length n)) idx)) := by
  obtain ⟨hbd, values, hval, hvf⟩ := modal_values (axes := axes) hv hdim hax hdx hpos ho hfn hg h0 hn hn2 hcs hm
  obtain ⟨h1, -, -, -⟩ := modalInit_ok ho
  subst h1
  obtain ⟨h1, h2, h3⟩ := basisOf_size hb
  have hK : gfns.length = K := interpFns_size hgfn h1 (fun _ => by
    rcases h3 with rfl | rfl
    · exact ⟨by decide, by decide, fun _ => rfl⟩
    · exact ⟨by decide, by decide, fun h => by omega⟩)
  have hbn : bg ≠ "gkhybrid" ∧ bg ≠ "hybrid" := by
    rcases h3 with rfl | rfl <;> exact ⟨by decide, by decide⟩
  subst hK
  have hpl : (perCell o.basis cells.length n).length = cells.length := perCell_length ..
  have hpp := perCell_pos (basis := o.basis) (dims := cells.length) (n := n) (by omega)
  -- the points per cell along an axis
  have hk : ∀ d < cells.length, ∃ k, (perCell o.basis cells.length n)[d]? = some k ∧ 0 < k := by
    intro d hd
    exact ⟨_, List.getElem?_eq_getElem (by omega), hpp _ (List.getElem_mem _)⟩
  -- the uniform grids, overwritten later on the velocity axes
  obtain ⟨g0, hg0⟩ : ∃ g0, make1Dgrids (perCell o.basis cells.length n) o.src.grid cells.length none = .ok g0 := by
    unfold make1Dgrids
    rw [if_pos (Or.inl rfl)]
    apply mapM_ex
    intro d hd
    obtain ⟨k, hk, hk0⟩ := hk d (List.mem_range.1 hd)
    by_cases hdc : d < o.src.numCdim
    · obtain ⟨x, hx, hxa⟩ := hconf d hdc
      obtain ⟨y, hy, -⟩ := meshArr_axis hxa hk0
      simp only [hk, hx]
      exact ⟨y, hy⟩
    · obtain ⟨hc1, q, hq, hqf⟩ := hvel (d - o.src.numCdim) (by have := List.mem_range.1 hd; omega)
      rw [show o.src.numCdim + (d - o.src.numCdim) = d by omega] at hq
      simp only [hk, hq]
      exact meshArr_field hqf hc1 k
  have hg0' := hg0
  unfold make1Dgrids at hg0'
  rw [if_pos (Or.inl rfl)] at hg0'
  obtain ⟨hgl, hget⟩ := mapM_range_get hg0'
  -- the last axis tells the basis
  obtain ⟨-, ql, hql, hqlf⟩ := hvel (o.src.numVdim - 1) (by omega)
  have hlast : o.src.grid.getLast? = some ql := by
    rw [List.getLast?_eq_getElem?, hl, ← hql]
    congr 1
    omega
  have hlastD : ql.shape.getLastD 0 = gfns.length := by rw [hqlf.shape]; simp
  have hfold := foldlM_set (c := o.src.numCdim) (m := o.src.numVdim)
    (step := fun (g : List (NArr F)) d =>
            match (perCell o.basis cells.length n)[o.src.numCdim + d]?, o.src.grid[o.src.numCdim + d]? with
            | some m, some q => do
              let cMat ← createInterpMatrix 1 pg bg m true true
              let a ← interpOnMesh cMat q (m + 1) bg true
              return g.set (o.src.numCdim + d) a
            | _, _ => .error .indexError)
    (P := fun d x => ∃ k, (perCell o.basis cells.length n)[o.src.numCdim + d]? = some k ∧
      x.shape = [vc d * k + 1] ∧ ∀ i < vc d * k + 1, ∃ cell < vc d, cell * k ≤ i ∧ i ≤ (cell + 1) * k ∧
          x.get? [i] = some (cellValue gfns (unitAxes [vc d]) (X d [cell]) [cell] [(i : F) / (k : F)]))
    (by
      intro d hd
      obtain ⟨hc1, q, hq, hqf⟩ := hvel d hd
      obtain ⟨k, hk, hk0⟩ := hk (o.src.numCdim + d) (by omega)
      obtain ⟨r, hr, -, hrs, hrg⟩ := c2pComp_ok (n := k) hqf hbn hk0 (by simpa using hc1)
      refine ⟨r, ⟨k, hk, hrs, ?_⟩, ?_⟩
      · intro i hi
        obtain ⟨cell, loc, hcell, hloc, hidx, hv⟩ := hrg [i] (by simpa [inRange] using hi)
        obtain ⟨h5, h6⟩ := localPt_node (F := F) (n := k) hk0 (inRange_length hcell) hloc
        rw [← hidx] at h5 h6
        cases h6 with
        | cons h7 h8 =>
          cases h8
          rename_i c
          simp only [inRange, Bool.and_eq_true, decide_eq_true_eq, and_true] at hcell
          refine ⟨c, hcell, h7.1, h7.2, ?_⟩
          rw [hv, ← h5, cellValue]
          congr 3
          simp [unitAxes, refineAll, nodePt, Axis.node, Axis.refine, div_eq_mul_inv]
      · intro g
        simp only [hk, hq, createInterp_c2p (F := F) (n := k) hgfn hbn, bind, Except.bind]
        simp only [List.length_cons, List.length_nil, Nat.zero_add] at hr
        rw [hr]
        rfl) g0
  obtain ⟨grid, hf1, hf2, hf3, hf4⟩ := hfold
  have hok : modalGrid o n (perCell o.basis cells.length n).prod = .ok grid := by
    unfold modalGrid
    rw [hgt, if_neg (by decide), hdim, gridCounts_eq hbd]
    simp only [bind, Except.bind]
    rw [if_pos trivial, hg0]
    simp only [hlast, hlastD, hb]
    exact hf1
  refine ⟨grid, values, hval grid hok, by rw [hf2, hgl], ?_, ?_, hvf⟩
  · intro d hd
    obtain ⟨k, hk, hk0⟩ := hk d (by omega)
    obtain ⟨x, hx, hxa⟩ := hconf d hd
    obtain ⟨y, hy, hya⟩ := meshArr_axis hxa hk0
    have hdg : d < g0.length := by omega
    have h9 := hget d g0[d] (List.getElem?_eq_getElem hdg)
    simp only [hk, hx] at h9
    rw [hy] at h9
    injection h9 with h9
    exact ⟨y, k, by rw [hf3 d hd, List.getElem?_eq_getElem hdg, h9], hk, hya⟩
  · intro d hd
    obtain ⟨x, ⟨k, h7, h8, h9⟩, h10⟩ := hf4 d hd (by omega)
    exact ⟨x, k, h10, h7, h8, h9⟩

/-- **C66, mapped velocities.** When only the velocity axes are given by expansions (each of its own
coordinate), the configuration axes are refined as on a uniform mesh, and the velocity axis `d` becomes an array
with the asked number of cells per input cell, whose node `i` is the value of that axis's expansion at the node, in
a cell the node belongs to. -/
theorem C66_c2p_vel {src : Source F} {cells : List Nat} {m : Nat} {f : List Nat → Nat → F}
    (hv : IsField src.values cells m f) (hdim : src.numDims = cells.length) (hpos : 1 ≤ cells.length)
    (hgt : src.gridType = "c2p_vel") (hl : src.grid.length = cells.length)
    (hcv : src.numCdim + src.numVdim = cells.length) (hvd : 1 ≤ src.numVdim)
    {A : Nat → Axis F} (hconf : ∀ d < src.numCdim, ∃ x, src.grid[d]? = some x ∧ IsAxis x (A d))
    {K : Nat} {vc : Nat → Nat} {X : Nat → List Nat → Nat → F}
    (hvel : ∀ d < src.numVdim, 1 ≤ vc d ∧
      ∃ q, src.grid[src.numCdim + d]? = some q ∧ IsField q [vc d] K (X d))
    {bg : String} {pg : Nat} (hb : basisOf 1 K = .ok (some (bg, pg)))
    {gfns : List Poly} (hgfn : interpFns 1 pg bg true = .ok gfns)
    {po : Option Nat} {b : Option String} {ni : Option Nat} {o : Interp F}
    (ho : modalInit src po b ni = .ok o)
    {fns : List Poly} (hfn : interpFns cells.length o.polyOrder o.basis true = .ok fns)
    (hg : cells.length = 1 → o.basis ≠ "gkhybrid") (h0 : o.polyOrder = 0 → o.basis = "serendipity")
    {n : Nat} (hn : o.numInterp = some n) (hn2 : 2 ≤ n)
    {comp : Comp} {cs : List Nat} (hcs : comp.list = .ok cs)
    (hm : ∀ c ∈ cs, (c + 1) * fns.length ≤ m) :
    ∃ grid values, modalInterpolate o comp = .ok (grid, values) ∧ grid.length = cells.length ∧
      (∀ d < src.numCdim, ∃ x k, grid[d]? = some x ∧ (perCell o.basis cells.length n)[d]? = some k ∧
        IsAxis x ((A d).refine k)) ∧
      (∀ d < src.numVdim, ∃ x k, grid[src.numCdim + d]? = some x ∧
        (perCell o.basis cells.length n)[src.numCdim + d]? = some k ∧
        x.shape = [vc d * k + 1] ∧ ∀ i < vc d * k + 1, ∃ cell < vc d, cell * k ≤ i ∧ i ≤ (cell + 1) * k ∧
          x.get? [i] = some (cellValue gfns (unitAxes [vc d]) (X d [cell]) [cell] [(i : F) / (k : F)])) ∧
      IsField values (List.zipWith (· * ·) cells (perCell o.basis cells.length n)) cs.length
        (fun idx j =>
          let cell := List.zipWith (· / ·) idx (perCell o.basis cells.length n)
          cellValue fns (unitAxes cells) (fun k => f cell (cs.getD j 0 * fns.length + k)) cell
            (midPt (refineAll (unitAxes cells) (perCell o.basis cells.length n)) idx)) :=
  modal_vel hv hdim hpos (axes := unitAxes cells) (by unfold unitAxes; rw [List.map_map]; exact List.map_id _)
    (by intro a ha; obtain ⟨c, -, rfl⟩ := List.mem_map.1 ha; exact one_ne_zero) hgt hl hcv hvd hconf hvel hb hgfn ho hfn hg h0 hn hn2
    hcs hm

end

/-! ## Concrete cases -/

namespace DgEx

/-- A mapping in two dimensions: every coordinate has four coefficients in each of two by three cells. -/
def mapCoef (d : Nat) (i : List Nat) (c : Nat) : ℚ := ((d + 1 + i.sum * 3 + c : Nat) : ℚ)

/-- Two quantities of four coefficients on a mapped grid. -/
def c2pSrc : Source ℚ where
  numDims := 2
  numComps := 8
  grid := [arr [2, 3] 4 (mapCoef 0), arr [2, 3] 4 (mapCoef 1)]
  values := arr [2, 3] 8 coef
  gridType := "c2p"

def c2pObj : Interp ℚ where
  src := c2pSrc
  polyOrder := 1
  basis := "serendipity"
  numInterp := some 2
  numNodes := 4

/-- The hypotheses of `C66_c2p_grid`. -/
example : ∃ grid values, modalInterpolate c2pObj (.int 1) = .ok (grid, values) ∧ grid.length = 2 ∧
    ∀ (d : Nat) (g : NArr ℚ), grid[d]? = some g → g.shape = [5, 7] := by
  obtain ⟨g, v, h1, ⟨h2, h3⟩, -⟩ := C66_c2p_grid (src := c2pSrc) (cells := [2, 3]) (m := 8) (f := coef) (K := 4)
    (X := mapCoef) (arr_isField _ _ _) rfl (by decide) (by decide) rfl (by
      intro d hd
      have : d = 0 ∨ d = 1 := by simp at hd; omega
      rcases this with rfl | rfl <;> exact ⟨_, rfl, arr_isField _ _ _⟩)
    (bg := "serendipity") (pg := 1) (by decide) fns_interp (po := some 1) (b := some "ms") (ni := none) (o := c2pObj) rfl
    fns_interp (by intro h; cases h) (by intro h; cases h) rfl (le_refl 2) (comp := .int 1) rfl
    (by rw [fns_length]; simp)
  exact ⟨g, v, h1, h2, fun d g hg => (h3 d g hg).1⟩

/-- The two functions of order 1 in one dimension. -/
def fns11 : List Poly :=
  match interpFns 1 1 "serendipity" true with
  | .ok f => f
  | .error _ => []

theorem fns11_interp : interpFns 1 1 "serendipity" true = .ok fns11 := by decide +kernel

/-- Values of the two functions at 1. -/
def w (k : Nat) : ℚ := (fns11.getD k []).eval [1]

/-- The coefficients in two cells of a mapping that is continuous (and linear). -/
def lineCoef (i : List Nat) (k : Nat) : ℚ := if k = 1 then w 0 else (i.sum : ℚ) * 2 * w 1

def lineSrc : Source ℚ where
  numDims := 1
  numComps := 2
  grid := [arr [2] 2 lineCoef]
  values := arr [2] 2 coef
  gridType := "c2p"

def lineObj : Interp ℚ where
  src := lineSrc
  polyOrder := 1
  basis := "serendipity"
  numInterp := some 2
  numNodes := 2

/-- The hypotheses of `C66_c2p_continuous`: the grid returned for a linear mapping is linear. -/
example : ∃ grid values g, modalInterpolate lineObj (.int 0) = .ok (grid, values) ∧ grid[0]? = some g ∧
    ∀ i : Nat, i < 5 → g.get? [i] = some (w 0 * w 1 * (2 * ((i : ℚ) / 2) - 1)) := by
  obtain ⟨grid, v, h1, h2, h3⟩ := C66_c2p_continuous (src := lineSrc) (cells := [2]) (m := 2) (f := coef) (K := 2)
    (X := fun _ => lineCoef) (arr_isField _ _ _) rfl (by decide) (by decide) rfl (by
      intro d hd
      have : d = 0 := by simp at hd; omega
      subst this
      exact ⟨_, rfl, arr_isField _ _ _⟩)
    (bg := "serendipity") (pg := 1) (by decide) fns11_interp (po := some 1) (b := some "ms") (ni := none)
    (o := lineObj) rfl fns11_interp (by decide) (by decide) rfl (le_refl 2) (comp := .int 0) rfl
    (by decide +kernel) (φ := fun _ z => w 0 * w 1 * (2 * z.headD 0 - 1)) (by
      intro d _ cell idx hc hi hno
      have key : ∀ c < 2, ∀ i < 5, c * 2 ≤ i → i ≤ (c + 1) * 2 →
          cellValue fns11 (unitAxes [2]) (lineCoef [c]) [c]
            (nodePt (refineAll (unitAxes [2]) (List.replicate 1 2)) [i]) =
          w 0 * w 1 * (2 * (nodePt (F := ℚ) (refineAll (unitAxes [2]) (List.replicate 1 2)) [i]).headD 0 - 1) := by
        decide +kernel
      cases hno with
      | nil => simp [inRange] at hc
      | cons h4 h5 =>
        cases h5 with
        | cons => simp [inRange] at hc
        | nil =>
          rename_i c i
          simp only [inRange, List.map_cons, List.map_nil, Bool.and_eq_true, decide_eq_true_eq, and_true] at hc hi
          exact key c hc i (by omega) h4.1 h4.2)
  have h2' : 0 < grid.length := by rw [h2]; decide
  refine ⟨grid, v, grid[0], h1, List.getElem?_eq_getElem (by rw [h2]; decide), fun i hi => ?_⟩
  have := (h3 0 _ (List.getElem?_eq_getElem (by rw [h2]; decide))).2 [i] (by simpa [inRange] using hi)
  rw [this]
  simp [nodePt, refineAll, unitAxes, Axis.refine, Axis.node, div_eq_mul_inv]

/-- A configuration axis and a mapped velocity axis with three coefficients in each of three cells. -/
def velSrc : Source ℚ where
  numDims := 2
  numComps := 8
  numCdim := 1
  numVdim := 1
  grid := [NArr.ofList ((List.range 3).map (Axis.node ⟨0, 1, 2⟩)), arr [3] 3 (mapCoef 0)]
  values := arr [2, 3] 8 coef
  gridType := "c2p_vel"

def velObj : Interp ℚ where
  src := velSrc
  polyOrder := 1
  basis := "serendipity"
  numInterp := some 2
  numNodes := 4

/-- The functions of one variable. -/
def fns1 : List Poly :=
  match interpFns 1 2 "tensor" true with
  | .ok f => f
  | .error _ => []

theorem fns1_interp : interpFns 1 2 "tensor" true = .ok fns1 := by decide +kernel

/-- The hypotheses of `C66_c2p_vel`. -/
example : ∃ grid values x, modalInterpolate velObj (.int 1) = .ok (grid, values) ∧ grid[1]? = some x ∧
    x.shape = [7] := by
  obtain ⟨g, v, h1, -, -, h2, -⟩ := C66_c2p_vel (src := velSrc) (cells := [2, 3]) (m := 8) (f := coef) (K := 3)
    (vc := fun _ => 3) (X := mapCoef) (A := fun _ => ⟨0, 1, 2⟩) (arr_isField _ _ _) rfl (by decide) rfl rfl rfl (by decide)
    (by
      intro d hd
      have : d = 0 := by simp [velSrc] at hd; omega
      subst this
      exact ⟨_, rfl, by simp [NArr.ofList], rfl⟩)
    (by
      intro d hd
      have : d = 0 := by simp [velSrc] at hd; omega
      subst this
      exact ⟨by decide, _, rfl, arr_isField _ _ _⟩)
    (bg := "tensor") (pg := 2) (by decide) fns1_interp (po := some 1) (b := some "ms") (ni := none) (o := velObj) rfl
    fns_interp (by intro h; cases h) (by intro h; cases h) rfl (le_refl 2) (comp := .int 1) rfl
    (by rw [fns_length]; simp)
  obtain ⟨x, k, h3, h4, h5, -⟩ := h2 0 (by decide)
  have : k = 2 := by
    simp [perCell, velObj, velSrc] at h4
    exact h4.symm
  subst this
  exact ⟨g, v, x, h1, h3, h5⟩

end DgEx

end Pgkyl
