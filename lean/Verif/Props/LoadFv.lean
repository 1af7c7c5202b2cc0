import Verif.Props.LoadCmd
import Verif.Props.DgC2p
import Verif.Spec.MappedLoad
/-! # Properties of `load --fv` (C126) -/

namespace Pgkyl
namespace Cli
open Spec Dg Cmd Space

section
variable {F : Type} [_root_.Field F] [CharZero F] [Min F] [Max F]

omit [CharZero F] [Min F] [Max F] in
/-- Splitting a cell into one. -/
theorem refine_one (a : Axis F) : a.refine 1 = a := by
  cases a; simp [Axis.refine]

omit [CharZero F] [Min F] [Max F] in
theorem refineAll_one {axes : List (Axis F)} : refineAll axes (List.replicate axes.length 1) = axes := by
  induction axes with
  | nil => rfl
  | cons a as ih =>
    simp only [refineAll, List.length_cons, List.replicate_succ, List.zipWith_cons_cons, refine_one] at ih ⊢
    rw [ih]

omit [CharZero F] [Min F] [Max F] in
/-- A mesh has one grid only. -/
theorem mesh_unique {g g' : List (NArr F)} {axes : List (Axis F)} (h : IsMesh g axes) (h' : IsMesh g' axes) : g = g' := by
  unfold IsMesh at h h'
  induction h generalizing g' with
  | nil => cases h'; rfl
  | cons hx _ ih =>
    cases h' with
    | cons hy ht =>
      rw [ih ht]
      congr 1
      rw [NArr.mk.injEq]
      exact ⟨hx.1.trans hy.1.symm, hx.2.trans hy.2.symm⟩

theorem meta_source {d : GData F} {g : List (NArr F)} {v : NArr F} {t : String} (hg : d.grid = some g) (hv : d.values = some v)
    (ht : Dict.get? d.ctx.other "grid_type" = some t) :
    ∃ src : Source F, sourceOf d = .ok src ∧ src.numDims = d.numDims ∧ src.grid = g ∧ src.gridType = t := by
  exact ⟨_, by simp only [sourceOf, hg, hv, ht]; rfl, rfl, rfl, rfl⟩

omit [_root_.Field F] [CharZero F] [Min F] [Max F] in
theorem order_zero {n : Nat} (h1 : 1 ≤ n) (h6 : n ≤ 6) : numNodes n 0 "serendipity" = .ok 1 := by
  have : n = 1 ∨ n = 2 ∨ n = 3 ∨ n = 4 ∨ n = 5 ∨ n = 6 := by omega
  rcases this with rfl | rfl | rfl | rfl | rfl | rfl <;> rfl

omit [CharZero F] [Min F] [Max F] in
theorem fv_object {src : Source F} (h1 : 1 ≤ src.numDims) (h6 : src.numDims ≤ 6) :
    modalInit src (some 0) (some "ms") none = .ok ⟨src, 0, "serendipity", some 1, 1⟩ :=
  modalInit_eq (p := 0) (n := 1) rfl rfl (by simp) (order_zero h1 h6) (.inr ⟨rfl, rfl⟩)

/-- **C126.**  On a uniform grid `load --fv` changes nothing but the recorded bounds, which become the smallest and the largest
node of every axis. -/
theorem C126_uniform {d : GData F} {g : List (NArr F)} {v : NArr F} {axes : List (Axis F)} (hg : d.grid = some g)
    (hv : d.values = some v) (hm : IsMesh g axes) (hd : d.numDims = axes.length) (h1 : 1 ≤ axes.length) (h6 : axes.length ≤ 6)
    (ht : Dict.get? d.ctx.other "grid_type" = some "uniform") :
    ∃ l u, asFiniteVolume d = .ok { d with ctx := { d.ctx with lower := some l, upper := some u } } ∧
      l.length = axes.length ∧ u.length = axes.length ∧
      ∀ (i : Nat) (x : NArr F), g[i]? = some x → l[i]? = x.data.min? ∧ u[i]? = x.data.max? := by
  obtain ⟨src, e1, e2, e3, e4⟩ := meta_source hg hv ht
  have hob := fv_object (src := src) (by rw [e2, hd]; exact h1) (by rw [e2, hd]; exact h6)
  obtain ⟨g', f1, f2⟩ := make1Dgrids_mesh hm (ns := List.replicate axes.length 1) (by simp) (by simp)
  rw [refineAll_one] at f2
  have hgg := mesh_unique hm f2
  subst hgg
  have f3 : make1Dgrids (List.replicate axes.length 1) g axes.length (some "uniform") = .ok g := by
    rw [← f1]
    unfold make1Dgrids
    rw [if_pos (Or.inl rfl), if_pos (Or.inr rfl)]
  have hgrid : interpolateGrid (⟨src, 0, "serendipity", some 1, 1⟩ : Interp F) = .ok g := by
    unfold interpolateGrid
    simp only [e4, e2, e3, hd]
    rw [if_neg (by decide), if_neg (by decide), f3]
  obtain ⟨hgl, hne⟩ := mesh_length hm
  obtain ⟨l, hl⟩ := Collect.minima_ok hne (n := axes.length) (by omega)
  obtain ⟨u, hu⟩ := Collect.maxima_ok hne (n := axes.length) (by omega)
  have hmin : ∀ (n : Nat) (g : List (NArr F)) (l : List F), GData.minima n g = .ok l → g.length = n →
      l.length = n ∧ ∀ (i : Nat) (x : NArr F), g[i]? = some x → l[i]? = x.data.min? := by
    intro n
    induction n with
    | zero =>
      intro g l h hn
      cases h
      rw [List.length_eq_zero_iff.1 hn]
      simp
    | succ n ih =>
      intro g l h hn
      cases g with
      | nil => cases hn
      | cons a g =>
        rw [GData.minima] at h
        cases ha : a.data.min? with
        | none => rw [ha] at h; cases h
        | some m =>
          rw [ha] at h
          cases hb : GData.minima n g with
          | error e => rw [hb] at h; cases h
          | ok l' =>
            rw [hb] at h
            cases h
            obtain ⟨i1, i2⟩ := ih g l' hb (by simpa using hn)
            refine ⟨by simp [i1], fun i x hx => ?_⟩
            cases i with
            | zero =>
              simp only [List.getElem?_cons_zero, Option.some.injEq] at hx ⊢
              rw [← hx, ha]
            | succ i => exact i2 i x hx
  have hmax : ∀ (n : Nat) (g : List (NArr F)) (l : List F), GData.maxima n g = .ok l → g.length = n →
      l.length = n ∧ ∀ (i : Nat) (x : NArr F), g[i]? = some x → l[i]? = x.data.max? := by
    intro n
    induction n with
    | zero =>
      intro g l h hn
      cases h
      rw [List.length_eq_zero_iff.1 hn]
      simp
    | succ n ih =>
      intro g l h hn
      cases g with
      | nil => cases hn
      | cons a g =>
        rw [GData.maxima] at h
        cases ha : a.data.max? with
        | none => rw [ha] at h; cases h
        | some m =>
          rw [ha] at h
          cases hb : GData.maxima n g with
          | error e => rw [hb] at h; cases h
          | ok l' =>
            rw [hb] at h
            cases h
            obtain ⟨i1, i2⟩ := ih g l' hb (by simpa using hn)
            refine ⟨by simp [i1], fun i x hx => ?_⟩
            cases i with
            | zero =>
              simp only [List.getElem?_cons_zero, Option.some.injEq] at hx ⊢
              rw [← hx, ha]
            | succ i => exact i2 i x hx
  refine ⟨l, u, ?_, (hmin _ g l hl hgl).1, (hmax _ g u hu hgl).1,
    fun i x hx => ⟨(hmin _ g l hl hgl).2 i x hx, (hmax _ g u hu hgl).2 i x hx⟩⟩
  simp only [asFiniteVolume, e1, hob, hgrid, GData.setGrid, hd, hl, hu, bind, Except.bind, pure, Except.pure, hg]

/-- **C126**, mapped grids: `load --fv` replaces the coefficients of the mapped coordinates by the positions of the cell nodes:
one array per coordinate, with one node more than cells in every direction; node `idx` is the value of the expansion of that
coordinate at the node, taken in a cell the node belongs to.  Values and metadata stay, except for the recorded bounds. -/
theorem C126_mapped {d : GData F} {g : List (NArr F)} {v : NArr F} {cells : List Nat} {K : Nat} {X : List Nat → Nat → F}
    (hg : d.grid = some g) (hv : d.values = some v) (hX : IsCoordinates g cells.length cells K X) (hd : d.numDims = cells.length)
    (h1 : 1 ≤ cells.length) (h6 : cells.length ≤ 6) (hc : ∀ c ∈ cells, 1 ≤ c)
    (ht : Dict.get? d.ctx.other "grid_type" = some "c2p")
    {bg : String} {pg : Nat} (hb : basisOf cells.length K = .ok (some (bg, pg)))
    {gfns : List Poly} (hgfn : interpFns cells.length pg bg true = .ok gfns) :
    ∃ g' l u, asFiniteVolume d = .ok { d with grid := some g', ctx := { d.ctx with lower := some l, upper := some u } } ∧
      g'.length = cells.length ∧ ∀ (k : Nat) (a : NArr F), g'[k]? = some a → a.shape = cells.map (· + 1) ∧
        ∀ idx, inRange (cells.map (· + 1)) idx = true → ∃ cell, inRange cells cell = true ∧ NodeOf 1 cell idx ∧
          a.get? idx = some (cellValue gfns (unitAxes cells) (fun j => X cell (k * K + j)) cell (nodePt (unitAxes cells) idx)) := by
  obtain ⟨src, e1, e2, e3, e4⟩ := meta_source hg hv ht
  have hob := fv_object (src := src) (by rw [e2, hd]; exact h1) (by rw [e2, hd]; exact h6)
  obtain ⟨h7, h7p, h8⟩ := basisOf_size hb
  have hK : gfns.length = K := interpFns_size hgfn h7 (fun _ => by
    rcases h8 with rfl | rfl
    · exact ⟨by decide, by decide, fun _ => rfl⟩
    · exact ⟨by decide, by decide, fun h => by omega⟩)
  have hbn : bg ≠ "gkhybrid" ∧ bg ≠ "hybrid" := by
    rcases h8 with rfl | rfl <;> exact ⟨by decide, by decide⟩
  have hcreate := createInterp_c2p (F := F) (n := 1) hgfn hbn
  subst hK
  have hcomp : ∀ k < cells.length, ∃ q r, g[k]? = some q ∧
      interpOnMesh (matrixOf gfns (loopPoints (List.replicate cells.length (points true (1 + 1))))) q 1 "serendipity" true = .ok r ∧
      r.WF ∧ r.shape = cells.map (· * 1 + 1) ∧
      ∀ idx, inRange (cells.map (· * 1 + 1)) idx = true →
        ∃ cell loc, inRange cells cell = true ∧ inRange (List.replicate cells.length (1 + 1)) loc = true ∧
          idx = List.zipWith (fun c l => c * 1 + l) cell loc ∧
          r.get? idx = some (expand gfns (fun j => X cell (k * gfns.length + j)) (loc.map fun (l : Nat) => -1 + (l : F) * 2 / ((1 : Nat) : F))) := by
    intro k hk
    obtain ⟨q, hq, hqf⟩ := hX.2 k hk
    obtain ⟨r, hr, hrest⟩ := c2pComp_ok (basis := "serendipity") (n := 1) hqf ⟨by decide, by decide⟩ (by omega) hc
    exact ⟨q, r, hq, hr, hrest⟩
  obtain ⟨q0, hq0, hf0⟩ := hX.2 0 (by omega)
  have hlast : q0.shape.getLastD 0 = gfns.length := by rw [hf0.shape]; simp
  obtain ⟨g', hg'⟩ : ∃ g', coordinateGrid (⟨src, 0, "serendipity", some 1, 1⟩ : Interp F) 1 = .ok g' := by
    unfold coordinateGrid
    simp only [e3, e2, hd, List.head?_eq_getElem?, hq0, hlast, hb, hcreate, bind, Except.bind]
    apply mapM_ex
    intro k hk
    obtain ⟨q, r, hq, hr, -⟩ := hcomp k (List.mem_range.1 hk)
    simp only [hq]
    exact ⟨r, hr⟩
  have hgrid : interpolateGrid (⟨src, 0, "serendipity", some 1, 1⟩ : Interp F) = .ok g' := by
    unfold interpolateGrid
    simp only [e4, if_true]
    exact hg'
  unfold coordinateGrid at hg'
  simp only [e3, e2, hd, List.head?_eq_getElem?, hq0, hlast, hb, hcreate, bind, Except.bind] at hg'
  obtain ⟨hl, hget⟩ := mapM_range_get hg'
  have hprop : ∀ (k : Nat) (a : NArr F), g'[k]? = some a → a.WF ∧ a.shape = cells.map (· + 1) ∧
        ∀ idx, inRange (cells.map (· + 1)) idx = true → ∃ cell, inRange cells cell = true ∧ NodeOf 1 cell idx ∧
          a.get? idx = some (cellValue gfns (unitAxes cells) (fun j => X cell (k * gfns.length + j)) cell (nodePt (unitAxes cells) idx)) := by
    intro k a ha
    have hkl : k < cells.length := by
      rw [← hl]
      exact (List.getElem?_eq_some_iff.1 ha).1
    obtain ⟨q, r, hq, hr, hwf, hrs, hrg⟩ := hcomp k hkl
    have hga := hget k a ha
    simp only [hq] at hga
    rw [hr] at hga
    injection hga with hga
    subst hga
    simp only [Nat.mul_one] at hrs hrg
    refine ⟨hwf, hrs, fun idx hidx => ?_⟩
    obtain ⟨cell, loc, hcell, hloc, hidx', hval⟩ := hrg idx hidx
    obtain ⟨h5, h6⟩ := localPt_node (F := F) (n := 1) (by omega) (inRange_length hcell) hloc
    have hun : refineAll (unitAxes cells) (List.replicate cells.length 1) = unitAxes (F := F) cells := by
      have := refineAll_one (axes := unitAxes (F := F) cells)
      rwa [show (unitAxes (F := F) cells).length = cells.length by simp [unitAxes]] at this
    rw [hun] at h5
    simp only [Nat.mul_one] at h5 h6
    subst hidx'
    refine ⟨cell, hcell, h6, ?_⟩
    rw [hval, cellValue, h5]
  have hne : ∀ a ∈ g', a.data ≠ [] := by
    intro a ha h0
    obtain ⟨k, hk⟩ := List.getElem?_of_mem ha
    obtain ⟨hwf, hs, -⟩ := hprop k a hk
    have h9 : a.data.length = (cells.map (· + 1)).prod := by rw [← hs]; exact hwf
    rw [h0] at h9
    have : 0 < (cells.map (· + 1)).prod := List.prod_pos (by simp)
    simp at h9
    omega
  obtain ⟨l, hl'⟩ := Collect.minima_ok hne (n := cells.length) (by omega)
  obtain ⟨u, hu'⟩ := Collect.maxima_ok hne (n := cells.length) (by omega)
  refine ⟨g', l, u, ?_, hl, fun k a ha => (hprop k a ha).2⟩
  simp only [asFiniteVolume, e1, hob, hgrid, GData.setGrid, hd, hl', hu', bind, Except.bind, pure, Except.pure]

/-- **C126** is false for a mapped velocity grid: `load --fv` with `--c2p-vel` always ends with an error message. -/
theorem C126_velocity_fails {d : GData F} {g : List (NArr F)} {v : NArr F} (hg : d.grid = some g) (hv : d.values = some v)
    (h1 : 1 ≤ d.numDims) (h6 : d.numDims ≤ 6) (ht : Dict.get? d.ctx.other "grid_type" = some "c2p_vel")
    {glob : Str → List Str} {make : Used → Str → Str → Except Err (GData F)} {loc glo : Given} {strs : List Str} {n : Nat} {str f : Str}
    {rest : List Str} (hstr : strs[n]? = some str) (hf : filesOf glob str = f :: rest) {var : Str} {vs : List Str}
    (hvar : (resolveOpts loc glo).varNames = var :: vs) (hmake : make (resolveOpts loc glo) var f = .ok d) (s : Space F) :
    load glob make glo strs loc true ⟨s, n⟩ = .error .fail := by
  obtain ⟨src, e1, e2, e3, e4⟩ := meta_source hg hv ht
  have hob := fv_object (src := src) (by rw [e2]; exact h1) (by rw [e2]; exact h6)
  have hfv : asFiniteVolume d = .error .unboundLocal := by
    simp only [asFiniteVolume, e1, hob, bind, Except.bind, interpolateGrid, e4]
    rw [if_neg (by decide), if_pos trivial]
  have hone : loadOne (make (resolveOpts loc glo)) true s (var, f) = .error .fail := by
    simp only [loadOne, hmake, fvStep, if_true, hfv, bind, Except.bind, nameErrorFails]
  unfold load requests
  simp only [hstr, hf, hvar, List.flatMap_cons, List.map_cons, List.cons_append, List.foldlM_cons, hone, bind, Except.bind]

omit [CharZero F] [Min F] [Max F] in
theorem interpOnMesh_shape {cMat : List (List F)} {q r : NArr F} {n : Nat} (h : interpOnMesh cMat q n "serendipity" true = .ok r) :
    r.shape = q.shape.dropLast.map fun c => c * (max n 2 - 1) + 1 := by
  unfold interpOnMesh at h
  have hm : meshCounts n "serendipity" q.shape.dropLast.length = .ok (List.replicate q.shape.dropLast.length (max n 2)) := by
    unfold meshCounts
    rw [if_neg (by decide), if_neg (by decide)]
  simp only [hm, bind, Except.bind] at h
  have key : ∀ (is : List Nat) (out r : NArr F),
      is.foldlM (meshStep cMat q q.shape.dropLast (List.replicate q.shape.dropLast.length (max n 2)) true) out = .ok r →
      r.shape = out.shape := by
    intro is
    induction is with
    | nil => intro out r h; cases h; rfl
    | cons i is ih =>
      intro out r h
      rw [List.foldlM_cons] at h
      cases hs : meshStep cMat q q.shape.dropLast (List.replicate q.shape.dropLast.length (max n 2)) true out i with
      | error e => rw [hs] at h; cases h
      | ok o1 =>
        rw [hs] at h
        rw [ih o1 r h]
        unfold meshStep at hs
        split at hs
        · cases hs
        · simp only [bind, Except.bind] at hs
          split at hs
          · cases hs
          · unfold NArr.assignStrided at hs
            split at hs
            · cases hs; rfl
            · cases hs
  rw [key _ _ _ h]
  show List.zipWith _ _ _ = _
  generalize q.shape.dropLast = l
  induction l with
  | nil => rfl
  | cons c cs ih =>
    simp only [List.length_cons, List.replicate_succ, List.zipWith_cons_cons, List.map_cons, if_true, List.cons.injEq, true_and] at ih ⊢
    exact ih

omit [CharZero F] [Min F] [Max F] in
/-- **C126** is false for more than one point per cell, which the API allows: for a mapped grid `interpolateGrid` then splits
every cell into one part less than there are values per cell (if it returns at all), so that the grid does not fit to the
interpolated values. -/
theorem C126_points_fails {o : Interp F} {n : Nat} (hb : o.basis = "serendipity") (hn : o.numInterp = some n) (h2 : 2 ≤ n)
    (ht : o.src.gridType = "c2p") {g : List (NArr F)} (h : interpolateGrid o = .ok g) (k : Nat) (a q : NArr F)
    (ha : g[k]? = some a) (hq : o.src.grid[k]? = some q) : a.shape = q.shape.dropLast.map fun c => c * (n - 1) + 1 := by
  unfold interpolateGrid at h
  simp only [hn, ht, if_true] at h
  unfold coordinateGrid at h
  cases h0 : o.src.grid.head? with
  | none => rw [h0] at h; cases h
  | some q0 =>
    simp only [h0, bind, Except.bind] at h
    split at h
    · cases h
    · split at h
      · cases h
      · split at h
        · cases h
        · have := (mapM_range_get h).2 k a ha
          simp only [hq, hb] at this
          rw [interpOnMesh_shape this, max_eq_left h2]

end

/-! ## Concrete cases -/

namespace LoadFvEx
open DgEx

/-- A dataset on a uniform mesh. -/
def uni : GData ℚ where
  grid := some [NArr.ofList [0, 1, 2], NArr.ofList [1, 2, 3, 4]]
  values := some (arr [2, 3] 1 coef)
  ctx := { cells := some [2, 3], numComps := some 1, other := [("grid_type", "uniform")] }

example : ∃ l u, asFiniteVolume uni = .ok { uni with ctx := { uni.ctx with lower := some l, upper := some u } } ∧ u[1]? = some 4 := by
  obtain ⟨l, u, h1, -, -, h2⟩ := C126_uniform (d := uni) (axes := [⟨0, 1, 2⟩, ⟨1, 1, 3⟩]) rfl rfl
    (.cons ⟨rfl, by decide +kernel⟩ (.cons ⟨rfl, by decide +kernel⟩ .nil)) rfl (by decide) (by decide) rfl
  exact ⟨l, u, h1, by rw [(h2 1 _ rfl).2]; decide +kernel⟩

/-- A dataset with a mapping: four coefficients per coordinate. -/
def mapped : GData ℚ where
  grid := some [arr [2, 3] 4 (mapCoef 0), arr [2, 3] 4 (fun i k => mapCoef 0 i (4 + k))]
  values := some (arr [2, 3] 1 coef)
  ctx := { cells := some [2, 3], numComps := some 1, other := [("grid_type", "c2p")] }

example : ∃ g l u, asFiniteVolume mapped = .ok { mapped with grid := some g, ctx := { mapped.ctx with lower := some l, upper := some u } } ∧
    g.length = 2 ∧ ∀ (k : Nat) (a : NArr ℚ), g[k]? = some a → a.shape = [3, 4] := by
  obtain ⟨g, l, u, h1, h2, h3⟩ := C126_mapped (d := mapped) (cells := [2, 3]) (K := 4) (X := mapCoef 0) rfl rfl
    ⟨rfl, by
      intro d hd
      have : d = 0 ∨ d = 1 := by simp at hd; omega
      rcases this with rfl | rfl
      · exact ⟨_, rfl, by
          have := arr_isField [2, 3] 4 (mapCoef 0)
          simpa using this⟩
      · exact ⟨_, rfl, by
          have := arr_isField [2, 3] 4 (fun i k => mapCoef 0 i (4 + k))
          simpa using this⟩⟩ rfl (by decide) (by decide) (by decide) rfl (bg := "serendipity") (pg := 1) (by decide +kernel)
    (gfns := (interpFns 2 1 "serendipity" true).toOption.getD []) rfl
  exact ⟨g, l, u, h1, h2, fun k a ha => (h3 k a ha).1⟩

/-- A dataset with mapped velocities. -/
def vel : GData ℚ := { mapped with ctx := { mapped.ctx with other := [("grid_type", "c2p_vel")] } }

example (s : Space ℚ) : load (fun _ => []) (fun _ _ _ => .ok vel) {} ["x.gkyl".toList] {} true ⟨s, 0⟩ = .error .fail :=
  C126_velocity_fails (d := vel) rfl rfl (by decide +kernel) (by decide +kernel) rfl (f := "x.gkyl".toList) (rest := []) rfl (by decide +kernel)
    (var := "CartGridField".toList) (vs := []) (by decide +kernel) rfl s

/-- `C126_points_fails`: the grid that comes out has 2 cells in the first direction, instead of 4. -/
example : (interpolateGrid c2pObj).toOption.map (List.map (·.shape)) = some [[3, 4], [3, 4]] := by decide +kernel

end LoadFvEx
end Cli
end Pgkyl
