import Verif.Lemmas.DgDiff
import Mathlib.Data.Nat.Choose.Basic
import Mathlib.Data.Rat.Defs
import Mathlib.Algebra.Field.Rat
import Mathlib.Tactic.Linarith
/-!
# Properties: interpolation and differentiation of DG data (C36-C39)
-/

namespace Pgkyl
open Spec Dg

section
variable {F : Type} [_root_.Field F] [CharZero F]

/-- **C36, C37.** Interpolating modal DG data on a uniform mesh gives, on the mesh with every cell split
into the asked number of points along every axis, exactly one value per cell of the refined mesh and per
requested component: the expansion of the coefficients of the original cell it lies in, evaluated at the
midpoint of the refined cell.  (Exact arithmetic; every dimension, size, number of points, basis, order
and requested components.) -/
theorem C36_interpolate {src : Source F} {cells : List Nat} {m : Nat} {f : List Nat → Nat → F}
    {axes : List (Axis F)} (h : OnMesh src cells m f axes)
    {po : Option Nat} {b : Option String} {ni : Option Nat} {o : Interp F}
    (ho : modalInit src po b ni = .ok o)
    {fns : List Poly} (hfn : interpFns cells.length o.polyOrder o.basis true = .ok fns)
    (hg : cells.length = 1 → o.basis ≠ "gkhybrid") (h0 : o.polyOrder = 0 → o.basis = "serendipity")
    {n : Nat} (hn : o.numInterp = some n) (hn2 : 2 ≤ n)
    {comp : Comp} {cs : List Nat} (hcs : comp.list = .ok cs)
    (hm : ∀ c ∈ cs, (c + 1) * fns.length ≤ m) :
    ∃ grid values, modalInterpolate o comp = .ok (grid, values) ∧
      IsMesh grid (refineAll axes (perCell o.basis cells.length n)) ∧
      IsField values (List.zipWith (· * ·) cells (perCell o.basis cells.length n)) cs.length
        (fun idx j =>
          let cell := List.zipWith (· / ·) idx (perCell o.basis cells.length n)
          cellValue fns axes (fun k => f cell (cs.getD j 0 * fns.length + k)) cell
            (midPt (refineAll axes (perCell o.basis cells.length n)) idx)) := by
  obtain ⟨h1, h2, h3, -⟩ := modalInit_ok ho
  subst h1
  have hal := h.axes_length
  have hbd : BasisDim o.basis cells.length :=
    basisDim_of hfn h.pos (fun hd => ⟨hg hd, h3 (by rw [h.dims]; exact hd)⟩)
  have hK : fns.length = o.numNodes := by
    rw [h.dims] at h2 h3
    exact interpFns_size hfn h2 (fun hd => ⟨hg hd, h3 hd, h0⟩)
  generalize hns : perCell o.basis cells.length n = ns
  set cMat := matrixOf fns (loopPoints (ns.map (points (F := F) false))) with hcm
  have hcreate : createInterpMatrix o.src.numDims o.polyOrder o.basis n true false = .ok cMat := by
    unfold createInterpMatrix
    rw [h.dims, hfn, pointCounts_eq hbd, hns]
    rfl
  obtain ⟨values, hv, hvf⟩ := gather_ok (get := fun c => do interpOnMesh cMat (← rawModal o c) n o.basis false)
    (cells := List.zipWith (· * ·) cells ns)
    (v := fun c idx => cellValue fns axes (fun k => f (List.zipWith (· / ·) idx ns) (c * fns.length + k))
      (List.zipWith (· / ·) idx ns) (midPt (refineAll axes ns) idx))
    (comp_list_ne hcs) (fun c hc => by
      obtain ⟨q, hq, hqf⟩ := rawModal_ok h.values (c := c) (by rw [← hK]; exact hm c hc)
      rw [← hK] at hqf
      obtain ⟨r, hr, hrp⟩ := interpComp_ok (axes := axes) (basis := o.basis) (n := n) (cMat := cMat) hqf hbd hn2
        (by rw [hcm, hns]) h.dx hal
      rw [hns] at hrp
      refine ⟨r, ?_, hrp⟩
      simp only [hq, bind, Except.bind]
      exact hr)
  have hrows : cMat.length = ns.prod := by
    rw [hcm, matrixOf, List.length_map, loopPoints_length, List.map_map]
    congr 1
    conv_rhs => rw [← List.map_id ns]
    apply List.map_congr_left
    intro x _
    simp [points_length]
  obtain ⟨grid, hgr, hgm⟩ := make1Dgrids_mesh h.grid (ns := ns)
    (by rw [← hns, perCell_length, hal]) (by rw [← hns]; exact perCell_pos (by omega))
  refine ⟨grid, values, ?_, hgm, hvf⟩
  have hmg : modalGrid o n cMat.length = .ok grid := by
    unfold modalGrid
    rw [h.uniform, if_neg (by decide), hrows, h.dims, ← hns, gridCounts_eq hbd]
    simp only [bind, Except.bind]
    rw [if_neg (by decide), hns, ← hal]
    exact hgr
  unfold modalInterpolate
  simp only [bind, Except.bind] at hv
  simp only [hn, hcreate, hcs, hv, hmg, bind, Except.bind, pure, Except.pure]

/-- **C39.** `differentiate` without a direction gives in component `i` the derivative that
`differentiate` gives for direction `i`, for every direction except the first; the first component is
only half of it.  The full property (without the exception) fails: `C39_first_component_fails`. -/
theorem C39_differentiate_partial {src : Source F} {cells : List Nat} {m : Nat} {f : List Nat → Nat → F}
    {axes : List (Axis F)} (h : OnMesh src cells m f axes) (hc : ∀ x ∈ cells, 0 < x)
    {po : Option Nat} {b : Option String} {ni : Option Nat} {o : Interp F}
    (ho : modalInit src po b ni = .ok o)
    {fns : List Poly} (hfn : derivFns cells.length o.polyOrder o.basis true = .ok fns)
    (hg : cells.length = 1 → o.basis ≠ "gkhybrid") (h0 : o.polyOrder = 0 → o.basis = "serendipity")
    {n : Nat} (hn : o.numInterp = some n) (hn2 : 2 ≤ n) {c : Nat} (hm : (c + 1) * fns.length ≤ m) :
    ∃ grid v, modalDifferentiate o none c = .ok (grid, v) ∧
      v.shape = cells.map (· * n) ++ [cells.length] ∧
      ∀ i < cells.length, ∃ vi, modalDifferentiate o (some i) c = .ok (grid, vi) ∧
        vi.shape = cells.map (· * n) ++ [1] ∧
        ∀ idx, inRange (cells.map (· * n)) idx = true → ∃ x, vi.get? (idx ++ [0]) = some x ∧
          v.get? (idx ++ [i]) = some (if i = 0 then x / 2 else x) := by
  obtain ⟨h1, h2, h3, -⟩ := modalInit_ok ho
  subst h1
  have hal := h.axes_length
  rw [h.dims] at h2 h3
  have hK := interpFns_size (derivFns_eq hfn) h2 (fun hd => ⟨hg hd, h3 hd, h0⟩)
  obtain ⟨grid, -, hone, v, hv, hvf⟩ := differentiate_ok h hfn (fun hd => ⟨hg hd, h3 hd⟩) hK hn hn2 hc hm
  rw [zipWith_replicate_eq_map] at hone hvf
  refine ⟨grid, v, hv, hvf.shape, fun i hi => ?_⟩
  have ha : axes[i]? = some axes[i] := List.getElem?_eq_getElem (by rw [hal]; exact hi)
  obtain ⟨vi, hvi, hvif⟩ := hone i _ ha
  refine ⟨vi, hvi, hvif.shape, fun idx hidx => ⟨_, hvif.get idx hidx 0 (by omega), ?_⟩⟩
  rw [hvf.get idx hidx i hi]
  have : (axes.map (·.dx)).getD i 0 = axes[i].dx := by
    rw [List.getD_eq_getElem?_getD, List.getElem?_map, ha]; rfl
  rw [this]
  congr 1
  split
  · field_simp
  · rfl

/-- **C37.** On a mapped one-dimensional grid the nodes returned by `differentiate` split every input cell
into `n` equal parts: node `k*n + j` is the `j`-th of them in cell `k`, both ends included. -/
theorem C37_mapped_nodes {o : Interp F} {x : NArr F} {N : Nat} {node : Nat → F} (hN : 1 ≤ N)
    (hx : x.shape = [N + 1] ∧ x.data = (List.range (N + 1)).map node)
    (hd : o.src.numDims = 1) (hgr : o.src.grid = [x]) (hty : o.src.gridType = "mapped")
    {n : Nat} (hn : o.numInterp = some n) (hn1 : 1 ≤ n) {dir : Option Nat} {c : Nat}
    {grid : List (NArr F)} {v : NArr F} (hok : modalDifferentiate o dir c = .ok (grid, v)) :
    ∃ g, grid = [g] ∧ g.shape = [N * n + 1] ∧
      ∀ k < N, ∀ j ≤ n, g.get? [k * n + j] = some (node k + (j : F) / (n : F) * (node (k + 1) - node k)) := by
  have hgrid := differentiate_grid hn hok
  rw [hd, hgr, hty, rootRound_pow (by omega)] at hgrid
  exact mapped_mesh hN hx hn1 hgrid

end

/-- **C60.** On a uniform mesh, `differentiate` with a direction gives the exact derivative along that axis
of the function that `interpolate` evaluates (`C36_interpolate`), at the midpoints of the refined cells:
if `z` is the midpoint of the refined cell, the value is the derivative of the expansion of the cell it
lies in when the coordinate `i` of `z` varies. -/
theorem C60_differentiate_exact {src : Source ℝ} {cells : List Nat} {m : Nat} {f : List Nat → Nat → ℝ}
    {axes : List (Axis ℝ)} (h : OnMesh src cells m f axes) (hc : ∀ x ∈ cells, 0 < x)
    {po : Option Nat} {b : Option String} {ni : Option Nat} {o : Interp ℝ}
    (ho : modalInit src po b ni = .ok o)
    {fns : List Poly} (hfn : derivFns cells.length o.polyOrder o.basis true = .ok fns)
    (hg : cells.length = 1 → o.basis ≠ "gkhybrid") (h0 : o.polyOrder = 0 → o.basis = "serendipity")
    {n : Nat} (hn : o.numInterp = some n) (hn2 : 2 ≤ n) {c : Nat} (hm : (c + 1) * fns.length ≤ m)
    {i : Nat} (hi : i < cells.length) :
    interpFns cells.length o.polyOrder o.basis true = .ok fns ∧
    ∃ grid v, modalDifferentiate o (some i) c = .ok (grid, v) ∧
      IsMesh grid (refineAll axes (List.replicate cells.length n)) ∧
      v.shape = cells.map (· * n) ++ [1] ∧
      ∀ idx, inRange (cells.map (· * n)) idx = true →
        ∃ y zi, v.get? (idx ++ [0]) = some y ∧
          (midPt (refineAll axes (List.replicate cells.length n)) idx)[i]? = some zi ∧
          HasDerivAt (fun t =>
            let cell := idx.map (· / n)
            cellValue fns axes (fun k => f cell (c * fns.length + k)) cell
              ((midPt (refineAll axes (List.replicate cells.length n)) idx).set i t)) y zi := by
  obtain ⟨h1, h2, h3, -⟩ := modalInit_ok ho
  subst h1
  have hal := h.axes_length
  rw [h.dims] at h2 h3
  have hK := interpFns_size (derivFns_eq hfn) h2 (fun hd => ⟨hg hd, h3 hd, h0⟩)
  obtain ⟨grid, hgm, hone, -⟩ := differentiate_ok h hfn (fun hd => ⟨hg hd, h3 hd⟩) hK hn hn2 hc hm
  rw [zipWith_replicate_eq_map] at hone
  have ha : axes[i]? = some axes[i] := List.getElem?_eq_getElem (by rw [hal]; exact hi)
  obtain ⟨v, hv, hvf⟩ := hone i _ ha
  refine ⟨derivFns_eq hfn, grid, v, hv, hgm, hvf.shape, fun idx hidx => ?_⟩
  have hil : idx.length = cells.length := by
    rw [inRange_length hidx, List.length_map]
  have hrl : (refineAll axes (List.replicate cells.length n)).length = cells.length := by
    simp [refineAll, hal]
  have hzl : (midPt (refineAll axes (List.replicate cells.length n)) idx).length = cells.length := by
    rw [midPt_length (by rw [hil, hrl]), hrl]
  have hcell : (List.zipWith (· / ·) idx (List.replicate cells.length n)) = idx.map (· / n) := by
    rw [← hil]; exact zipWith_replicate_eq_map' _ _ _
  refine ⟨_, _, hvf.get idx hidx 0 (by omega), List.getElem?_eq_getElem (by rw [hzl]; exact hi), ?_⟩
  have := hasDerivAt_cellValue fns (axes := axes) (i := i) (a := axes[i]) (c := idx.map (· / n))
    (z := midPt (refineAll axes (List.replicate cells.length n)) idx)
    (fun k => f (idx.map (· / n)) (c * fns.length + k)) (by simp [hil, hal]) (by rw [hzl, hal]) ha
    (List.getElem?_eq_getElem (by simp [hil]; exact hi)) (List.getElem?_eq_getElem (by rw [hzl]; exact hi))
    (h.dx _ (List.getElem_mem _))
  unfold dirValue
  rw [hcell]
  exact this

/-! ## Sizes of the bases -/

/-- **C38, serendipity.** The number of coefficients is the dimension of the serendipity space.  (The tables are for
1 to 6 dimensions and the orders 0 to 4, 1 to 4 for the
maximal-order and tensor families; other arguments are errors.) -/
theorem C38_serendipity {d p K : Nat} (hd : 1 ≤ d) (h : numNodes d p "serendipity" = .ok K) :
    K = serendipityDim d p := by
  have hT : ∀ d < 6, ∀ p < 5, ∀ r, nodesSerendipity[d]? = some r → r[p]? = some (serendipityDim (d + 1) p) := by
    decide +kernel
  obtain ⟨r, hr, hk⟩ := numNodes_serendipity hd h
  have h1 : d - 1 < 6 := by have := (List.getElem?_eq_some_iff.1 hr).1; simpa [nodesSerendipity] using this
  have h2 : p < 5 := by
    have hl : ∀ r ∈ nodesSerendipity, r.length = 5 := by decide
    have := (List.getElem?_eq_some_iff.1 hk).1
    rwa [hl r (List.mem_of_getElem? hr)] at this
  have := hT (d - 1) h1 p h2 r hr
  rw [hk, Nat.sub_add_cancel hd] at this
  exact Option.some.inj this

/-- **C38, maximal order.** The number of coefficients is the number of monomials of total degree at most `p`. -/
theorem C38_maximal {d p K : Nat} (hd : 1 ≤ d) (hp : 1 ≤ p) (h : numNodes d p "maximal-order" = .ok K) :
    K = Nat.choose (d + p) p := by
  have hT : ∀ d < 6, ∀ p < 4, ∀ r, nodesMaximal[d]? = some r → r[p]? = some (Nat.choose (d + 1 + (p + 1)) (p + 1)) := by
    decide +kernel
  obtain ⟨r, hr, hk⟩ := numNodes_maximal hd hp h
  have h1 : d - 1 < 6 := by have := (List.getElem?_eq_some_iff.1 hr).1; simpa [nodesMaximal] using this
  have h2 : p - 1 < 4 := by
    have hl : ∀ r ∈ nodesMaximal, r.length = 4 := by decide
    have := (List.getElem?_eq_some_iff.1 hk).1
    rwa [hl r (List.mem_of_getElem? hr)] at this
  have := hT (d - 1) h1 (p - 1) h2 r hr
  rw [hk, Nat.sub_add_cancel hd, Nat.sub_add_cancel hp] at this
  exact Option.some.inj this

/-- **C38, tensor products.** The number of coefficients is `(p+1)^d` in all cases but the order 2 in
five dimensions; there it is 343 instead of 243 (`C38_tensor_fails`). -/
theorem C38_tensor_partial {d p K : Nat} (hd : 1 ≤ d) (hp : 1 ≤ p) (hx : ¬ (d = 5 ∧ p = 2))
    (h : numNodes d p "tensor" = .ok K) : K = (p + 1) ^ d := by
  have hT : ∀ d < 6, ∀ p < 4, ¬ (d = 4 ∧ p = 1) → ∀ r, nodesTensor[d]? = some r →
      r[p]? = some ((p + 1 + 1) ^ (d + 1)) := by
    decide +kernel
  obtain ⟨r, hr, hk⟩ := numNodes_tensor hd hp h
  have h1 : d - 1 < 6 := by have := (List.getElem?_eq_some_iff.1 hr).1; simpa [nodesTensor] using this
  have h2 : p - 1 < 4 := by
    have hl : ∀ r ∈ nodesTensor, r.length = 4 := by decide
    have := (List.getElem?_eq_some_iff.1 hk).1
    rwa [hl r (List.mem_of_getElem? hr)] at this
  have := hT (d - 1) h1 (p - 1) h2 (by omega) r hr
  rw [hk, Nat.sub_add_cancel hd, Nat.sub_add_cancel hp] at this
  exact Option.some.inj this

/-- **C38, negative.** Tensor-product data of order 2 in five dimensions has 243 coefficients; the table
says 343, and therefore such data is not recognised when the basis is derived from the number of
components. -/
theorem C38_tensor_fails :
    (∃ d p K, 1 ≤ d ∧ 1 ≤ p ∧ numNodes d p "tensor" = .ok K ∧ K ≠ (p + 1) ^ d) ∧ basisOf 5 (3 ^ 5) = .ok none :=
  ⟨⟨5, 2, 343, by decide +kernel⟩, by decide +kernel⟩

/-- **C38, hybrid bases.** Order 2 along one axis and order 1 along the others: `3 * 2^(d-1)` coefficients. -/
theorem C38_hybrid {d p K : Nat} {b : String} (hb : b = "gkhybrid" ∨ b = "hybrid") (hd : 2 ≤ d)
    (h : numNodes d p b = .ok K) : K = 3 * 2 ^ (d - 1) := by
  have hT : ∀ d < 5, d ≠ 0 → nodesGkHybrid[d]? = some (3 * 2 ^ d) := by decide
  have hk := numNodes_hybrid hb (by omega) h
  have h1 : d - 1 < 5 := by have := (List.getElem?_eq_some_iff.1 hk).1; simpa [nodesGkHybrid] using this
  have := hT (d - 1) h1 (by omega)
  rw [hk] at this
  exact Option.some.inj this

/-- **C38.** The interpolation matrices are built from exactly as many functions as the dataset is taken to
have coefficients per component. -/
theorem C38_functions {dim p : Nat} {basis : String} {fns : List Poly} {K : Nat}
    (hf : interpFns dim p basis true = .ok fns) (hK : numNodes dim p basis = .ok K)
    (h1 : dim = 1 → basis ≠ "gkhybrid" ∧ basis ≠ "hybrid" ∧ (p = 0 → basis = "serendipity")) :
    fns.length = K := interpFns_size hf hK h1

/-! ## Concrete cases -/

namespace DgEx

/-- An array of the given values. -/
def arr {F : Type} (cells : List Nat) (m : Nat) (f : List Nat → Nat → F) : NArr F :=
  NArr.ofFn (cells ++ [m]) fun idx => some (f idx.dropLast (idx.getLastD 0))

theorem arr_isField {F : Type} (cells : List Nat) (m : Nat) (f : List Nat → Nat → F) :
    IsField (arr cells m f) cells m f :=
  isField_of_ofFn fun i _ c _ => by simp

variable {F : Type} [_root_.Field F]

/-- A dataset on a uniform mesh. -/
def src (axes : List (Axis F)) (m : Nat) (f : List Nat → Nat → F) : Source F where
  numDims := axes.length
  numComps := m
  grid := axes.map fun a => NArr.ofList ((List.range (a.cells + 1)).map a.node)
  values := arr (axes.map (·.cells)) m f

theorem src_onMesh {axes : List (Axis F)} (hd : ∀ a ∈ axes, a.dx ≠ 0) (hl : 1 ≤ axes.length) (m : Nat)
    (f : List Nat → Nat → F) : OnMesh (src axes m f) (axes.map (·.cells)) m f axes where
  values := arr_isField _ _ _
  dims := by simp [src]
  grid := by
    unfold IsMesh src
    induction axes with
    | nil => exact .nil
    | cons a axes ih =>
      refine .cons ⟨by simp [NArr.ofList], rfl⟩ ?_
      by_cases h : 1 ≤ axes.length
      · exact ih (fun a ha => hd a (List.mem_cons_of_mem _ ha)) h
      · have : axes = [] := List.length_eq_zero_iff.1 (by omega)
        subst this
        exact .nil
  cells_eq := rfl
  dx := hd
  pos := by simpa using hl
  uniform := rfl

/-- Two by three cells of size 1 by 1/2. -/
def axes : List (Axis F) := [⟨0, 1, 2⟩, ⟨-1, 1 / 2, 3⟩]

theorem axes_dx [CharZero F] : ∀ a ∈ (axes : List (Axis F)), a.dx ≠ 0 := by
  intro a ha
  simp only [axes, List.mem_cons, List.not_mem_nil, or_false] at ha
  rcases ha with rfl | rfl <;> simp

/-- Some coefficients: two quantities of four coefficients. -/
def coef (i : List Nat) (c : Nat) : F := ((i.sum * 7 + c * c + 1 : Nat) : F)

/-- The interpolation object for piecewise-linear serendipity data. -/
def obj : Interp F where
  src := src axes 8 coef
  polyOrder := 1
  basis := "serendipity"
  numInterp := some 2
  numNodes := 4

theorem obj_init : modalInit (src (axes : List (Axis F)) 8 coef) (some 1) (some "ms") none = .ok obj := rfl

/-- The functions of that basis. -/
def fns : List Poly :=
  match interpFns 2 1 "serendipity" true with
  | .ok f => f
  | .error _ => []

theorem fns_interp : interpFns 2 1 "serendipity" true = .ok fns := by decide +kernel
theorem fns_deriv : derivFns 2 1 "serendipity" true = .ok fns := by decide +kernel
theorem fns_length : fns.length = 4 := by decide +kernel

/-- The hypotheses of `C36_interpolate` hold for both quantities of this dataset at once. -/
example : ∃ grid values, modalInterpolate (obj : Interp ℚ) (.tuple [1, 0]) = .ok (grid, values) ∧
    values.shape = [4, 6, 2] := by
  obtain ⟨g, v, h1, -, h3⟩ := C36_interpolate (src_onMesh (axes_dx (F := ℚ)) (by decide) 8 coef) obj_init
    fns_interp (by intro h; cases h) (by intro h; cases h) rfl (le_refl 2) (comp := .tuple [1, 0]) rfl (by
      rw [fns_length]
      intro c hc
      simp only [List.mem_cons, List.not_mem_nil, or_false] at hc
      omega)
  exact ⟨g, v, h1, h3.shape⟩

/-- The hypotheses of `C39_differentiate_partial`. -/
example : ∃ grid v, modalDifferentiate (obj : Interp ℚ) none 1 = .ok (grid, v) ∧ v.shape = [4, 6, 2] := by
  obtain ⟨g, v, h1, h2, -⟩ := C39_differentiate_partial (src_onMesh (axes_dx (F := ℚ)) (by decide) 8 coef)
    (by simp [axes]) obj_init fns_deriv (by intro h; cases h) (by intro h; cases h) rfl (le_refl 2) (c := 1)
    (by rw [fns_length])
  exact ⟨g, v, h1, h2⟩

/-- The hypotheses of `C60_differentiate_exact`. -/
example : ∃ grid v, modalDifferentiate (obj : Interp ℝ) (some 1) 1 = .ok (grid, v) ∧ v.shape = [4, 6, 1] := by
  obtain ⟨-, g, v, h1, -, h2, -⟩ := C60_differentiate_exact (src_onMesh (axes_dx (F := ℝ)) (by decide) 8 coef)
    (by simp [axes]) obj_init fns_deriv (by intro h; cases h) (by intro h; cases h) rfl (le_refl 2) (c := 1)
    (by rw [fns_length]) (i := 1) (by decide)
  exact ⟨g, v, h1, h2⟩

/-- One-dimensional data on a mapped grid. -/
def mapped : Interp ℚ where
  src :=
    { numDims := 1
      numComps := 2
      grid := [⟨[4], [0, 1, 3, 7]⟩]
      values := ⟨[3, 2], [1, 2, 3, 4, 5, 6]⟩
      gridType := "mapped" }
  polyOrder := 1
  basis := "serendipity"
  numInterp := some 2
  numNodes := 2

/-- The hypotheses of `C37_mapped_nodes`. -/
example : ((modalDifferentiate mapped (some 0) 0).toOption.map (·.1)) = some [⟨[7], [0, 1 / 2, 1, 2, 3, 5, 7]⟩] := by
  decide +kernel

example : numNodes 3 2 "serendipity" = .ok 20 ∧ numNodes 2 3 "maximal-order" = .ok 10 ∧
    numNodes 3 3 "tensor" = .ok 64 ∧ numNodes 5 1 "gkhybrid" = .ok 48 := by decide

end DgEx

/-- **C39, negative.** There is data for which the first component of the gradient is not the derivative
along the first axis. -/
theorem C39_first_component_fails : ∃ (o : Interp ℚ) (g g' : List (NArr ℚ)) (v v' : NArr ℚ) (x x' : ℚ),
    modalDifferentiate o (some 0) 0 = .ok (g, v) ∧ modalDifferentiate o none 0 = .ok (g', v') ∧
    v.get? [0, 0, 0] = some x ∧ v'.get? [0, 0, 0] = some x' ∧ x ≠ x' := by
  have key : ∃ p p' : List (NArr ℚ) × NArr ℚ,
      modalDifferentiate (DgEx.obj : Interp ℚ) (some 0) 0 = .ok p ∧
      modalDifferentiate (DgEx.obj : Interp ℚ) none 0 = .ok p' ∧
      ∃ x, p.2.get? [0, 0, 0] = some x ∧ p'.2.get? [0, 0, 0] = some (x / 2) := by
    obtain ⟨g, v, h1, -, h3⟩ := C39_differentiate_partial (DgEx.src_onMesh (DgEx.axes_dx (F := ℚ)) (by decide) 8 DgEx.coef)
      (by simp [DgEx.axes]) DgEx.obj_init DgEx.fns_deriv (by intro h; cases h) (by intro h; cases h) rfl (le_refl 2)
      (c := 0) (by rw [DgEx.fns_length]; omega)
    obtain ⟨vi, h4, -, h6⟩ := h3 0 (by decide)
    obtain ⟨x, h7, h8⟩ := h6 [0, 0] (by decide)
    exact ⟨(g, vi), (g, v), h4, h1, x, h7, h8⟩
  obtain ⟨p, p', h1, h2, x, h3, h4⟩ := key
  have hx : (modalDifferentiate (DgEx.obj : Interp ℚ) (some 0) 0).toOption.bind (fun p => p.2.get? [0, 0, 0]) ≠ some 0 := by
    decide +kernel
  rw [h1] at hx
  have hx0 : x ≠ 0 := by
    intro h
    apply hx
    show p.2.get? [0, 0, 0] = some 0
    rw [h3, h]
  refine ⟨DgEx.obj, p.1, p'.1, p.2, p'.2, x, x / 2, h1, h2, h3, h4, ?_⟩
  intro h
  apply hx0
  linarith

end Pgkyl
