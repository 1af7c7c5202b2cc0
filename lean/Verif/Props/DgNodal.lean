import Verif.Lemmas.DgNodal
import Verif.Props.Dg
/-!
# Properties: nodal DG data, and when interpolation cannot work (C61-C63)
-/

namespace Pgkyl
open Spec Dg

section
variable {F : Type} [_root_.Field F] [CharZero F]

/-- **C61.** Interpolating nodal serendipity data (`GInterpNodal` with a number of points `n ≥ 2`) on a
uniform mesh gives one value per refined cell and requested quantity: the expansion in the nodal basis, at the
midpoint of the refined cell, where the coefficient of node `k` of quantity `c` is component `c + k * nq`
(`nq` quantities). -/
theorem C61_nodal_interpolate_partial {src : Source F} {cells : List Nat} {nq : Nat} {f : List Nat → Nat → F}
    {axes : List (Axis F)} {fns : List Poly} (h : OnMesh src cells (fns.length * nq) f axes)
    (hnc : src.numComps = fns.length * nq) {p n : Nat} {o : Interp F}
    (ho : nodalInit src p "ns" (some n) = .ok o) (hfn : interpFns cells.length p "serendipity" false = .ok fns)
    (hn2 : 2 ≤ n) {comp : Comp} {cs : List Nat} (hcs : comp.list = .ok cs) (hm : ∀ c ∈ cs, c < nq)
    (h5 : Except Err (List (List F))) :
    ∃ grid values, nodalInterpolate h5 o comp = .ok (grid, values) ∧
      IsMesh grid (refineAll axes (List.replicate cells.length n)) ∧
      IsField values (cells.map (· * n)) cs.length (fun idx j =>
        let cell := List.zipWith (· / ·) idx (List.replicate cells.length n)
        cellValue fns axes (fun k => f cell (cs.getD j 0 + k * nq)) cell
          (midPt (refineAll axes (List.replicate cells.length n)) idx)) := by
  obtain ⟨h1, h2, h3, h4, h6⟩ := nodalInit_ok ho
  subst h1
  rw [h.dims] at h6
  have hal := h.axes_length
  have hK : fns.length = o.numNodes := interpFns_nodal_size hfn h6
  have hKp : 0 < o.numNodes := by rw [← hK]; exact interpFns_nodal_pos hfn
  set cMat : List (List F) := matrixOf fns (loopPoints (List.replicate cells.length (points false n))) with hcm
  have hcounts : pointCounts cells.length "serendipity" n false = List.replicate cells.length n := by
    rw [pointCounts_eq (basisDim_ser h.pos), perCell_ser]
  have hcreate : loadInterpMatrix h5 o.src.numDims o.polyOrder o.basis o.numInterp false false = .ok cMat := by
    unfold loadInterpMatrix
    rw [h4]
    simp only
    unfold createInterpMatrix
    rw [h.dims, h2, h3, hfn, hcounts, List.map_replicate]
    rfl
  obtain ⟨values, hv, hvf⟩ := gather_ok (get := nodalComp cMat o)
    (cells := cells.map (· * n))
    (v := fun c idx => cellValue fns axes
      (fun k => f (List.zipWith (· / ·) idx (List.replicate cells.length n)) (c + k * nq))
      (List.zipWith (· / ·) idx (List.replicate cells.length n))
      (midPt (refineAll axes (List.replicate cells.length n)) idx))
    (comp_list_ne hcs) (fun c hc => by
      obtain ⟨q, hq, hqf⟩ := rawNodal_ok (o := o) (nq := nq) (by rw [← hK]; exact h.values)
        (by rw [← hK]; exact hnc) hKp (hm c hc)
      rw [← hK] at hqf
      obtain ⟨r, hr, hrp⟩ := nodalComp_ok (axes := axes) hqf h.pos hn2 h.dx hal
      refine ⟨r, ?_, hrp⟩
      simp only [nodalComp, hq, h4, h3, bind, Except.bind]
      exact hr)
  have hrows : cMat.length = n ^ cells.length := by
    rw [hcm, matrixOf, List.length_map, loopPoints_length, List.map_replicate, List.prod_replicate, points_length]
  obtain ⟨grid, hgr, hgm⟩ := uniform_grid h hn2
  refine ⟨grid, values, ?_, hgm, hvf⟩
  unfold nodalInterpolate
  rw [hcreate]
  have hroot : rootRound (n ^ cells.length) cells.length = n :=
    rootRound_pow (by have := h.pos; omega)
  simp only [hcs, hv, hrows, h.dims, hroot, hgr, bind, Except.bind, pure, Except.pure]

omit [CharZero F] in
/-- **C61, negative.** `GInterpNodal` without a number of points, which the documentation says defaults to the
order plus one, never interpolates: the call raises for every dataset, order, basis and component, whatever
the pre-computed matrix files contain. -/
theorem C61_nodal_default_fails {src : Source F} {p : Nat} {b : String} {o : Interp F}
    (ho : nodalInit src p b none = .ok o) (comp : Comp) (h5 : Except Err (List (List F)))
    (r : List (NArr F) × NArr F) : nodalInterpolate h5 o comp ≠ .ok r := by
  have hni : o.numInterp = none := by
    unfold nodalInit at ho
    simp only [bind, Except.bind, pure, Except.pure] at ho
    split at ho
    · cases ho
    · injection ho with ho
      subst ho
      rfl
  intro hr
  unfold nodalInterpolate at hr
  simp only [bind, Except.bind, pure, Except.pure] at hr
  split at hr
  · cases hr
  · split at hr
    · cases hr
    · split at hr
      · cases hr
      · rename_i values hv
        refine gather_error ?_ _ _ hv
        intro c r' h'
        unfold nodalComp at h'
        cases hq : rawNodal o c with
        | error e => rw [hq] at h'; cases h'
        | ok q =>
          rw [hq, hni] at h'
          cases h'

omit [CharZero F] in
/-- **C62, negative.** `GInterpNodal.differentiate` without a direction raises for every dataset. -/
theorem C62_nodal_gradient_fails (o : Interp F) (c : Nat) (r : List (NArr F) × NArr F) :
    nodalDifferentiate o none c ≠ .ok r := by
  intro hr
  unfold nodalDifferentiate at hr
  simp only [bind, Except.bind] at hr
  split at hr
  · cases hr
  · split at hr <;> cases hr

omit [CharZero F] in
/-- **C63, negative.** Interpolating modal data (not of a hybrid basis) on a single point per cell raises for
every dataset with at least one dimension, every order, basis and component, although the matrix for one point
exists. -/
theorem C63_one_point_fails {o : Interp F} {cells : List Nat} {m : Nat} (hs : o.src.values.shape = cells ++ [m])
    (hd : 1 ≤ cells.length) (hdim : o.src.numDims = cells.length)
    (hb : o.basis ≠ "gkhybrid" ∧ o.basis ≠ "hybrid") (hn : o.numInterp = some 1)
    (comp : Comp) (r : List (NArr F) × NArr F) : modalInterpolate o comp ≠ .ok r := by
  intro hr
  unfold modalInterpolate at hr
  simp only [hn, bind, Except.bind, pure, Except.pure] at hr
  split at hr
  · cases hr
  · rename_i cMat hc
    have hrows : cMat.length = 1 := by
      unfold createInterpMatrix at hc
      cases hf : interpFns o.src.numDims o.polyOrder o.basis true with
      | error e => rw [hf] at hc; cases hc
      | ok fns =>
        rw [hf] at hc
        simp only [bind, Except.bind, pure, Except.pure] at hc
        injection hc with hc
        have hbd : BasisDim o.basis cells.length :=
          ⟨hd, fun h => absurd h hb.1, fun h => absurd h hb.2⟩
        rw [← hc, hdim, pointCounts_eq hbd, perCell_plain hb.1 hb.2, List.map_replicate, matrixOf,
          List.length_map, loopPoints_length, List.map_replicate, List.prod_replicate, points_length, one_pow]
    split at hr
    · cases hr
    · split at hr
      · cases hr
      · rename_i values hv
        refine gather_error ?_ _ _ hv
        intro c r' h'
        cases hq : rawModal o c with
        | error e => rw [hq] at h'; cases h'
        | ok q =>
          rw [hq] at h'
          refine interpOnMesh_one_row (ns := List.replicate cells.length 2) ?_ (prod_replicate_two hd) hrows r' h'
          have hql : q.shape.dropLast.length = cells.length := by
            obtain ⟨k, hk⟩ := rawModal_shape hs hq
            rw [hk]; simp
          unfold meshCounts
          rw [if_neg hb.1, if_neg hb.2, hql]
          rfl

omit [CharZero F] in
/-- **C63, negative.** Piecewise-constant data (order 0) is never interpolated when the number of points is left
to its default: with the order given, interpolation raises; with the order taken from the file, already the
construction of the object does. -/
theorem C63_order_zero_fails {src : Source F} {cells : List Nat} {m : Nat} (hs : src.values.shape = cells ++ [m])
    (hd : 1 ≤ cells.length) (hdim : src.numDims = cells.length) (b : Option String) :
    (∀ o, modalInit src (some 0) b none = .ok o → o.basis ≠ "gkhybrid" ∧ o.basis ≠ "hybrid" →
      ∀ comp r, modalInterpolate o comp ≠ .ok r) ∧
    (src.polyOrder = some 0 → ∀ ni, modalInit src none b ni = .error .valueError) := by
  constructor
  · intro o ho hb comp r
    obtain ⟨h1, -, -, -⟩ := modalInit_ok ho
    have hn : o.numInterp = some 1 := by
      unfold modalInit at ho
      simp only [modalOrder, bind, Except.bind, pure, Except.pure] at ho
      split at ho
      · cases ho
      · split at ho
        · cases ho
        · injection ho with ho
          subst ho
          rfl
    subst h1
    exact C63_one_point_fails hs hd hdim hb hn comp r
  · intro hp ni
    unfold modalInit modalOrder
    rw [hp]
    rfl

end

/-- **C62.** `GInterpNodal.differentiate` with a direction gives the exact derivative along that axis of what
`GInterpNodal.interpolate` evaluates (`C61_nodal_interpolate_partial`). -/
theorem C62_nodal_differentiate_exact_partial {src : Source ℝ} {cells : List Nat} {nq : Nat} {f : List Nat → Nat → ℝ}
    {axes : List (Axis ℝ)} {fns : List Poly} (h : OnMesh src cells (fns.length * nq) f axes)
    (hc : ∀ x ∈ cells, 0 < x) (hnc : src.numComps = fns.length * nq) {p n : Nat} {o : Interp ℝ}
    (ho : nodalInit src p "ns" (some n) = .ok o) (hfn : derivFns cells.length p "serendipity" false = .ok fns)
    (hn2 : 2 ≤ n) {c : Nat} (hcq : c < nq) {i : Nat} (hi : i < cells.length) :
    interpFns cells.length p "serendipity" false = .ok fns ∧
    ∃ grid v, nodalDifferentiate o (some i) c = .ok (grid, v) ∧
      IsMesh grid (refineAll axes (List.replicate cells.length n)) ∧
      v.shape = cells.map (· * n) ++ [1] ∧
      ∀ idx, inRange (cells.map (· * n)) idx = true →
        ∃ y zi, v.get? (idx ++ [0]) = some y ∧
          (midPt (refineAll axes (List.replicate cells.length n)) idx)[i]? = some zi ∧
          HasDerivAt (fun t =>
            let cell := List.zipWith (· / ·) idx (List.replicate cells.length n)
            cellValue fns axes (fun k => f cell (c + k * nq)) cell
              ((midPt (refineAll axes (List.replicate cells.length n)) idx).set i t)) y zi := by
  have hfi := derivFns_nodal_eq hfn
  obtain ⟨h1, h2, h3, h4, h6⟩ := nodalInit_ok ho
  subst h1
  rw [h.dims] at h6
  have hal := h.axes_length
  have hK : fns.length = o.numNodes := interpFns_nodal_size hfi h6
  have hKp : 0 < o.numNodes := by rw [← hK]; exact interpFns_nodal_pos hfi
  obtain ⟨q, hq, hqf⟩ := rawNodal_ok (o := o) (nq := nq) (by rw [← hK]; exact h.values)
    (by rw [← hK]; exact hnc) hKp hcq
  rw [← hK] at hqf
  obtain ⟨r, hr, hrp⟩ := nodalComp_ok (axes := axes) (fns := fns.map (Poly.diff i)) (n := n)
    (by rw [List.length_map]; exact hqf) h.pos hn2 h.dx hal
  have ha : axes[i]? = some axes[i] := List.getElem?_eq_getElem (by rw [hal]; exact hi)
  have hcells : axes[i].cells ∈ axes.map (·.cells) := List.mem_map_of_mem (List.getElem_mem _)
  have hcs := cellSize_ok h ha (hc _ (h.cells_eq ▸ hcells))
  obtain ⟨grid, hgr, hgm⟩ := uniform_grid h hn2
  have hroot : rootRound (n ^ cells.length) cells.length = n :=
    rootRound_pow (by have := h.pos; omega)
  have hmat : createDerivativeMatrix cells.length p "serendipity" n false i =
      .ok (matrixOf (fns.map (Poly.diff i)) (loopPoints (List.replicate cells.length (points (F := ℝ) false n)))) := by
    unfold createDerivativeMatrix
    rw [hfn]
    simp only [bind, Except.bind]
    rw [if_neg (by omega)]
    rfl
  have hvp := isPlain_newLast (isPlain_map1 hrp fun x => x * ((2 : Nat) : ℝ) / axes[i].dx)
  refine ⟨hfi, grid, (r.map1 fun x => x * ((2 : Nat) : ℝ) / axes[i].dx).newLast, ?_, hgm, hvp.shape, ?_⟩
  · unfold nodalDifferentiate
    simp only [hq, h4, h2, h3, h.dims, Option.getD_some, hmat, hr, hcs, hroot, hgr, bind, Except.bind, pure,
      Except.pure]
  · intro idx hidx
    have hil : idx.length = cells.length := by
      rw [inRange_length hidx, List.length_map]
    have hrl : (refineAll axes (List.replicate cells.length n)).length = cells.length := by
      simp [refineAll, hal]
    have hzl : (midPt (refineAll axes (List.replicate cells.length n)) idx).length = cells.length := by
      rw [midPt_length (by rw [hil, hrl]), hrl]
    have hcl : (List.zipWith (· / ·) idx (List.replicate cells.length n)).length = cells.length := by
      simp [hil]
    refine ⟨_, _, hvp.get idx hidx 0 (by omega), List.getElem?_eq_getElem (by rw [hzl]; exact hi), ?_⟩
    have := hasDerivAt_cellValue fns (axes := axes) (i := i) (a := axes[i])
      (c := List.zipWith (· / ·) idx (List.replicate cells.length n))
      (z := midPt (refineAll axes (List.replicate cells.length n)) idx)
      (fun k => f (List.zipWith (· / ·) idx (List.replicate cells.length n)) (c + k * nq))
      (by rw [hcl, hal]) (by rw [hzl, hal]) ha
      (List.getElem?_eq_getElem (by rw [hcl]; exact hi)) (List.getElem?_eq_getElem (by rw [hzl]; exact hi))
      (h.dx _ (List.getElem_mem _))
    exact this.congr_deriv (by push_cast; rfl)

/-! ## Concrete cases -/

namespace DgEx

/-- Nodal data: two quantities on four nodes. -/
def nodalObj {F : Type} [_root_.Field F] : Interp F where
  src := src axes 8 coef
  polyOrder := 1
  basis := "serendipity"
  numInterp := some 3
  numNodes := 4

theorem nodal_init {F : Type} [_root_.Field F] :
    nodalInit (src (axes : List (Axis F)) 8 coef) 1 "ns" (some 3) = .ok nodalObj := rfl

/-- The nodal functions. -/
def nfns : List Poly :=
  match interpFns 2 1 "serendipity" false with
  | .ok f => f
  | .error _ => []

theorem nfns_interp : interpFns 2 1 "serendipity" false = .ok nfns := by decide +kernel
theorem nfns_deriv : derivFns 2 1 "serendipity" false = .ok nfns := by decide +kernel
theorem nfns_length : nfns.length = 4 := by decide +kernel

/-- The hypotheses of `C61_nodal_interpolate_partial`. -/
example : ∃ grid values, nodalInterpolate (.error .osError) (nodalObj : Interp ℚ) (.slice 0 2) = .ok (grid, values) ∧
    values.shape = [6, 9, 2] := by
  obtain ⟨g, v, h1, -, h3⟩ := C61_nodal_interpolate_partial (nq := 2) (fns := nfns) (cells := [2, 3]) (f := coef) (axes := axes)
    (by rw [nfns_length]; exact src_onMesh (axes_dx (F := ℚ)) (by decide) 8 coef) (by rw [nfns_length]; rfl) nodal_init
    nfns_interp (by decide) (comp := .slice 0 2) rfl (by
      intro c hc
      simp at hc
      omega) (.error .osError)
  exact ⟨g, v, h1, h3.shape⟩

/-- The hypotheses of `C62_nodal_differentiate_exact_partial`. -/
example : ∃ grid v, nodalDifferentiate (nodalObj : Interp ℝ) (some 1) 1 = .ok (grid, v) ∧ v.shape = [6, 9, 1] := by
  obtain ⟨-, g, v, h1, -, h2, -⟩ := C62_nodal_differentiate_exact_partial (nq := 2) (fns := nfns) (cells := [2, 3]) (f := coef) (axes := axes)
    (by rw [nfns_length]; exact src_onMesh (axes_dx (F := ℝ)) (by decide) 8 coef) (by simp)
    (by rw [nfns_length]; rfl) nodal_init nfns_deriv (by decide) (c := 1) (by decide) (i := 1) (by decide)
  exact ⟨g, v, h1, h2⟩

/-- The constructions of the failing cases succeed. -/
example : (∃ o, nodalInit (src (axes : List (Axis ℚ)) 8 coef) 1 "ns" none = .ok o) ∧
    (∃ o, modalInit (src (axes : List (Axis ℚ)) 8 coef) (some 1) (some "ms") (some 1) = .ok o ∧ o.numInterp = some 1) ∧
    (∃ o, modalInit (src (axes : List (Axis ℚ)) 8 coef) (some 0) (some "ms") none = .ok o) :=
  ⟨⟨_, rfl⟩, ⟨_, rfl, rfl⟩, ⟨_, rfl⟩⟩

end DgEx
end Pgkyl
