import Verif.Lemmas.IntegrateMore
import Mathlib.Algebra.Order.Field.Rat
/-! # Properties C30, C31, C58: integration and averaging -/

namespace Pgkyl
open Spec EvCmd Integ

section
variable {F : Type} [_root_.Field F]

/-! ## C30 -/

/-- C30 for `int` in `ev`: every entry of the result is the sum over the cells of the integrated axes of value times
product of the cell widths; the integrated axes have one entry (with coordinate 0), the others keep their
coordinates. -/
theorem C30_ev_weighted_sum (fn : Fns F) (g0 : EvGrid F) {axes : List (List F)} {v : NArr F} (hv : v.WF)
    (hfit : FitsAll axes v.shape) {A : List Nat} (hA : A.Nodup) (hlt : ∀ a ∈ A, a < axes.length) {arg : EvVal F}
    (harg : EvNames fn axes.length arg A) :
    ∃ g' r, EvCmd.integrate fn false [g0, some (axes.map NArr.ofList)] [arg, .arr v] = .ok (some g', .arr r) ∧ r.WF ∧
      r.shape = collapsed A v.shape ∧ g'.length = axes.length ∧ (∀ a ∈ A, g'[a]? = some (NArr.ofList [0])) ∧
      (∀ d, d ∉ A → g'[d]? = (axes[d]?).map NArr.ofList) ∧
      ∀ idx, inRange (collapsed A v.shape) idx = true → r.get? idx =
        some (cellSum v.shape (entry v) (gridWidth axes v.shape) A idx) := by
  obtain ⟨g', r, h1, h2, h3, h4, h5, h6, h7⟩ := ev_integrate_core fn false g0 hv hfit hA hlt harg
  refine ⟨g', r, h1, h2, h3, h4, h5, h6, fun idx hidx => ?_⟩
  rw [h7 idx (by rw [h3]; exact hidx)]
  have hid : ∀ (l : List Nat) (x : F), l.foldr (fun _ y => y) x = x := fun l x => by
    induction l with
    | nil => rfl
    | cons a l ih => exact ih
  simp [hid]

/-- C30, constant: with `int` in `ev` a constant gives the constant times the product of the covered lengths. -/
theorem C30_ev_constant (fn : Fns F) (g0 : EvGrid F) {axes : List (List F)} {v : NArr F} (hv : v.WF)
    (hfit : FitsAll axes v.shape) {A : List Nat} (hA : A.Nodup) (hlt : ∀ a ∈ A, a < axes.length) {arg : EvVal F}
    (harg : EvNames fn axes.length arg A) {c : F} (hc : ∀ i, inRange v.shape i = true → v.get? i = some c) :
    ∃ g' r, EvCmd.integrate fn false [g0, some (axes.map NArr.ofList)] [arg, .arr v] = .ok (some g', .arr r) ∧
      ∀ idx, inRange (collapsed A v.shape) idx = true → r.get? idx =
        some (c * (A.map fun a => covered (axes.getD a []) (v.shape.getD a 0)).prod) := by
  obtain ⟨g', r, h1, -, -, -, -, -, h7⟩ := C30_ev_weighted_sum fn g0 hv hfit hA hlt harg
  refine ⟨g', r, h1, fun idx hidx => ?_⟩
  rw [h7 idx hidx, cellSum_congr (v := fun _ => c) (fun i hi => by rw [entry, hc i hi]; rfl),
    cellSum_const_covered hA hfit hlt hidx]

/-- C30, linearity, for `int` in `ev`. -/
theorem C30_ev_linear (fn : Fns F) (g0 : EvGrid F) {axes : List (List F)} {u v t : NArr F} (hu : u.WF) (hv : v.WF)
    (ht : t.WF) (hus : u.shape = t.shape) (hvs : v.shape = t.shape) {x y : F}
    (hlin : ∀ i, inRange t.shape i = true → entry t i = x * entry u i + y * entry v i)
    (hfit : FitsAll axes t.shape) {A : List Nat} (hA : A.Nodup) (hlt : ∀ a ∈ A, a < axes.length) {arg : EvVal F}
    (harg : EvNames fn axes.length arg A) :
    ∃ g ru rv rt, EvCmd.integrate fn false [g0, some (axes.map NArr.ofList)] [arg, .arr u] = .ok (some g, .arr ru) ∧
      EvCmd.integrate fn false [g0, some (axes.map NArr.ofList)] [arg, .arr v] = .ok (some g, .arr rv) ∧
      EvCmd.integrate fn false [g0, some (axes.map NArr.ofList)] [arg, .arr t] = .ok (some g, .arr rt) ∧
      ∀ idx, inRange (collapsed A t.shape) idx = true → entry rt idx = x * entry ru idx + y * entry rv idx := by
  obtain ⟨g1, ru, u1, -, -, u4, u5, u6, u7⟩ := C30_ev_weighted_sum fn g0 hu (by rw [hus]; exact hfit) hA hlt harg
  obtain ⟨g2, rv, v1, -, -, v4, v5, v6, v7⟩ := C30_ev_weighted_sum fn g0 hv (by rw [hvs]; exact hfit) hA hlt harg
  obtain ⟨g3, rt, t1, -, -, t4, t5, t6, t7⟩ := C30_ev_weighted_sum fn g0 ht hfit hA hlt harg
  have e : ∀ {g g' : List (NArr F)}, (∀ a ∈ A, g[a]? = some (NArr.ofList [0])) →
      (∀ d, d ∉ A → g[d]? = (axes[d]?).map NArr.ofList) → (∀ a ∈ A, g'[a]? = some (NArr.ofList [0])) →
      (∀ d, d ∉ A → g'[d]? = (axes[d]?).map NArr.ofList) → g = g' := by
    intro g g' a1 a2 b1 b2
    refine List.ext_getElem? fun d => ?_
    by_cases hd : d ∈ A
    · rw [a1 d hd, b1 d hd]
    · rw [a2 d hd, b2 d hd]
  obtain rfl := e u5 u6 t5 t6
  obtain rfl := e v5 v6 t5 t6
  refine ⟨_, ru, rv, rt, u1, v1, t1, fun idx hidx => ?_⟩
  rw [hus] at u7
  rw [hvs] at v7
  rw [entry, entry, entry, u7 idx hidx, v7 idx hidx, t7 idx hidx]
  simp only [Option.getD_some]
  rw [cellSum_congr hlin, cellSum_linear]

/-- C30: the order in which the axes are named does not matter, in `ev` (`avg`: the same for averages). -/
theorem C30_ev_axis_order (fn : Fns F) (avg : Bool) (g0 : EvGrid F) (grid : List (NArr F)) (v : NArr F) {A B : List Nat}
    (hp : A.Perm B) {a b : EvVal F} (ha : EvNames fn grid.length a A) (hb : EvNames fn grid.length b B) :
    EvCmd.integrate fn avg [g0, some grid] [a, .arr v] = EvCmd.integrate fn avg [g0, some grid] [b, .arr v] := by
  simp only [EvCmd.integrate, evNames_axes ha, evNames_axes hb, natAxes_ok, bind, Except.bind, EvCmd.contractAll,
    EvCmd.restoreAll, sortAsc_eq, sortDesc_perm hp]

/-! ## C31 -/

/-- C31 where it is true: the average of a constant is the constant, provided that for every axis the length covered by
the cells is the length the code divides by, and not zero.  On cell-centred grids this only asks that the
axis does not have length 0; see the next two theorems.

Full statement (false, see the counterexample): the same for every grid, nodal or not. -/
theorem C31_average_of_constant_partial (fn : Fns F) (g0 : EvGrid F) {axes : List (List F)} {v : NArr F} (hv : v.WF)
    (hfit : FitsAll axes v.shape) {A : List Nat} (hA : A.Nodup) (hlt : ∀ a ∈ A, a < axes.length) {arg : EvVal F}
    (harg : EvNames fn axes.length arg A) {c : F} (hc : ∀ i, inRange v.shape i = true → v.get? i = some c)
    (hlen : ∀ a ∈ A, ∀ (x : List F) (n : Nat), axes[a]? = some x → v.shape[a]? = some n → covered x n ≠ 0 ∧
      (x.length = n → x.getD (n - 1) 0 - x.getD (n - 2) 0 = x.getD 1 0 - x.getD 0 0)) :
    ∃ g' r, EvCmd.integrate fn true [g0, some (axes.map NArr.ofList)] [arg, .arr v] = .ok (some g', .arr r) ∧ r.WF ∧
      r.shape = collapsed A v.shape ∧ ∀ idx, inRange (collapsed A v.shape) idx = true → r.get? idx = some c := by
  obtain ⟨g', r, h1, h2, h3, -, -, -, h7⟩ := ev_integrate_core fn true g0 hv hfit hA hlt harg
  refine ⟨g', r, h1, h2, h3, fun idx hidx => ?_⟩
  rw [h7 idx (by rw [h3]; exact hidx), cellSum_congr (v := fun _ => c) (fun i hi => by rw [entry, hc i hi]; rfl),
    cellSum_const_covered hA hfit hlt hidx]
  have hp : (sortDesc A).Perm A := List.mergeSort_perm A _
  have hL : ∀ a ∈ A, codeLength (axes.getD a []) (v.shape.getD a 0) = covered (axes.getD a []) (v.shape.getD a 0) ∧
      codeLength (axes.getD a []) (v.shape.getD a 0) ≠ 0 := by
    intro a ha
    have hal := hlt a ha
    have h2 : a < v.shape.length := by have := hfit.1; omega
    have e1 : axes[a]? = some axes[a] := List.getElem?_eq_getElem hal
    have e2 : v.shape[a]? = some v.shape[a] := List.getElem?_eq_getElem h2
    have e3 : axes.getD a [] = axes[a] := by rw [List.getD_eq_getElem?_getD, e1]; rfl
    have e4 : v.shape.getD a 0 = v.shape[a] := by rw [List.getD_eq_getElem?_getD, e2]; rfl
    obtain ⟨q1, q2⟩ := hlen a ha _ _ e1 e2
    rw [e3, e4]
    have : codeLength axes[a] v.shape[a] = covered axes[a] v.shape[a] := by
      unfold codeLength covered
      by_cases hx : axes[a].length = v.shape[a]
      · rw [if_pos hx, if_pos hx, q2 hx, hx]
      · rw [if_neg hx, if_neg hx]
        rcases hfit.2 a _ _ e1 e2 with h | h
        · rw [h]; simp
        · exact absurd h.1 hx
    exact ⟨this, by rw [this]; exact q1⟩
  simp only [if_true]
  rw [← prod_perm_map hp, List.map_congr_left (g := fun a => codeLength (axes.getD a []) (v.shape.getD a 0))
    (fun a ha => ((hL a (sortDesc_mem.1 ha)).1).symm),
    foldr_div_cancel (fun a => codeLength (axes.getD a []) (v.shape.getD a 0)) c (sortDesc A)
      (fun a ha => (hL a (sortDesc_mem.1 ha)).2)]

/-- C31 on cell-centred grids: on every such grid, uniform or not, without axes of length 0. -/
theorem C31_average_of_constant_cells (fn : Fns F) (g0 : EvGrid F) {axes : List (List F)} {v : NArr F} (hv : v.WF)
    (hsh : v.shape.length = axes.length + 1)
    (hcell : ∀ (d : Nat) (x : List F) (n : Nat), axes[d]? = some x → v.shape[d]? = some n → x.length = n + 1)
    {A : List Nat} (hA : A.Nodup) (hlt : ∀ a ∈ A, a < axes.length) {arg : EvVal F}
    (harg : EvNames fn axes.length arg A) {c : F} (hc : ∀ i, inRange v.shape i = true → v.get? i = some c)
    (hlen : ∀ a ∈ A, ∀ x : List F, axes[a]? = some x → x.getLast? ≠ x.head?) :
    ∃ g' r, EvCmd.integrate fn true [g0, some (axes.map NArr.ofList)] [arg, .arr v] = .ok (some g', .arr r) ∧ r.WF ∧
      r.shape = collapsed A v.shape ∧ ∀ idx, inRange (collapsed A v.shape) idx = true → r.get? idx = some c := by
  refine C31_average_of_constant_partial fn g0 hv ⟨hsh, fun d x n h1 h2 => .inl (hcell d x n h1 h2)⟩ hA hlt harg hc
    fun a ha x n h1 h2 => ?_
  have hx := hcell a x n h1 h2
  refine ⟨?_, fun h => by omega⟩
  rw [covered, if_neg (by omega)]
  have h3 := hlen a ha x h1
  rw [List.getLast?_eq_getElem?, List.head?_eq_getElem?, hx, show n + 1 - 1 = n by omega,
    List.getElem?_eq_getElem (show n < x.length by omega), List.getElem?_eq_getElem (show 0 < x.length by omega)] at h3
  rw [List.getD_eq_getElem?_getD, List.getD_eq_getElem?_getD, List.getElem?_eq_getElem (show n < x.length by omega),
    List.getElem?_eq_getElem (show 0 < x.length by omega)]
  intro h
  exact h3 (congrArg some (sub_eq_zero.1 h))

/-! ## C58 -/

/-- C58 is false of `ev`: once an axis has been integrated, no further `int` or `avg` is possible. -/
theorem C58_ev_second_integration_fails (fn : Fns F) (avg avg' : Bool) (g0 g1 : EvGrid F) {axes : List (List F)}
    {v : NArr F} (hv : v.WF) (hfit : FitsAll axes v.shape) {A : List Nat} (hne : A ≠ []) (hA : A.Nodup)
    (hlt : ∀ a ∈ A, a < axes.length) {arg : EvVal F} (harg : EvNames fn axes.length arg A) (arg' : EvVal F) :
    ∃ g r, EvCmd.integrate fn avg [g0, some (axes.map NArr.ofList)] [arg, .arr v] = .ok (g, r) ∧
      ∃ e, EvCmd.integrate fn avg' [g1, g] [arg', r] = .error e := by
  obtain ⟨g', r, h1, -, h3, h4, h5, -, -⟩ := ev_integrate_core fn avg g0 hv hfit hA hlt harg
  refine ⟨_, _, h1, ?_⟩
  obtain ⟨a, ha⟩ := List.exists_mem_of_ne_nil A hne
  have hal := hlt a ha
  have hdz : ∃ e, EvCmd.dzAll g' r.shape = .error e := by
    refine Space.mapM_error_of_mem (a := (NArr.ofList [0], a)) (e := .indexError) ?_ ?_
    · rw [List.mem_iff_getElem?]
      exact ⟨a, by rw [List.getElem?_zipIdx, h5 a ha]; simp⟩
    · have hs : r.shape[a]? = some 1 := by
        rw [h3, collapsed_get, List.getElem?_eq_getElem (show a < v.shape.length by have := hfit.1; omega)]
        simp [ha]
      simp only [pyGet_nat, hs, bind, Except.bind]
      rfl
  obtain ⟨e, he⟩ := hdz
  simp only [EvCmd.integrate]
  cases h : axesOf fn g'.length arg' with
  | error e' => exact ⟨e', rfl⟩
  | ok l =>
    cases h' : natAxes l with
    | error e' => exact ⟨e', by simp only [bind, Except.bind, h']⟩
    | ok l' => exact ⟨e, by simp only [bind, Except.bind, h', he]⟩

variable [LinearOrder F]

/-- C30 for the function `integrate(data, axis, overwrite)`.  A collapsed axis (one coordinate) is averaged over. -/
theorem C30_api_weighted_sum (data : GData F) {axes : List (List F)} {v : NArr F}
    (hg : data.grid = some (axes.map NArr.ofList)) (hval : data.values = some v) (hv : v.WF)
    (hfit : ApiFitsAll axes v.shape) {A : List Nat} (hA : A.Nodup) (hlt : ∀ a ∈ A, a < axes.length)
    {arg : Calculus.AxisArg} (harg : ApiNames data.numDims arg A) (ow : Bool) :
    ∃ r d', Calculus.integrate data arg ow = .ok ((meanAxes A axes).map NArr.ofList, r, d') ∧ r.WF ∧
      r.shape = collapsed A v.shape ∧ (ow = false → d' = data) ∧
      (ow = true → d'.grid = some ((meanAxes A axes).map NArr.ofList) ∧ d'.values = some r ∧
        d'.ctx.cells = some r.shape.dropLast ∧ d'.tag = data.tag ∧ d'.status = data.status) ∧
      ∀ idx, inRange (collapsed A v.shape) idx = true → r.get? idx =
        some (cellSum v.shape (entry v) (gridWeight axes v.shape) A idx) := by
  obtain ⟨r, d', h1, h2, h3, h4, h5, h6⟩ := api_integrate_core data hg hval hv hfit hA hlt harg ow
  refine ⟨r, d', h1, h2, h3, h4, fun h => ?_, fun idx hi => h6 idx (by rw [h3]; exact hi)⟩
  obtain ⟨l, u, rfl⟩ := h5 h
  exact ⟨rfl, rfl, rfl, rfl, rfl⟩

/-- C30, constant, for the function `integrate` on grids without collapsed axes. -/
theorem C30_api_constant (data : GData F) {axes : List (List F)} {v : NArr F}
    (hg : data.grid = some (axes.map NArr.ofList)) (hval : data.values = some v) (hv : v.WF)
    (hfit : FitsAll axes v.shape) (h2 : ∀ x ∈ axes, 2 ≤ x.length) {A : List Nat} (hA : A.Nodup)
    (hlt : ∀ a ∈ A, a < axes.length) {arg : Calculus.AxisArg} (harg : ApiNames data.numDims arg A) (ow : Bool) {c : F}
    (hc : ∀ i, inRange v.shape i = true → v.get? i = some c) :
    ∃ g r d', Calculus.integrate data arg ow = .ok (g, r, d') ∧
      ∀ idx, inRange (collapsed A v.shape) idx = true → r.get? idx =
        some (c * (A.map fun a => covered (axes.getD a []) (v.shape.getD a 0)).prod) := by
  obtain ⟨r, d', h1, -, -, -, -, h6⟩ := C30_api_weighted_sum data hg hval hv
    ⟨hfit.1, fun d x n e1 e2 => .inl ⟨h2 x (List.mem_of_getElem? e1), hfit.2 d x n e1 e2⟩⟩ hA hlt harg ow
  refine ⟨_, r, d', h1, fun idx hidx => ?_⟩
  rw [h6 idx hidx, cellSum_congr (v := fun _ => c) (fun i hi => by rw [entry, hc i hi]; rfl),
    ← cellSum_const_covered hA hfit hlt hidx]
  congr 1
  refine cellSum_weights (fun a ha i n hn hi => ?_) (fun a ha => ?_) idx
  · have e1 : axes.getD a [] = axes[a]'(hlt a ha) := by
      rw [List.getD_eq_getElem?_getD, List.getElem?_eq_getElem (hlt a ha)]; rfl
    rw [gridWeight, gridWidth, apiWeight, if_neg]
    rw [e1]
    have := h2 (axes[a]'(hlt a ha)) (List.getElem_mem _)
    omega
  · have := hlt a ha; have := hfit.1; omega

/-- C30, linearity, for the function `integrate`. -/
theorem C30_api_linear (du dv dt : GData F) {axes : List (List F)} {u v t : NArr F}
    (hgu : du.grid = some (axes.map NArr.ofList)) (hgv : dv.grid = some (axes.map NArr.ofList))
    (hgt : dt.grid = some (axes.map NArr.ofList)) (hdu : du.values = some u) (hdv : dv.values = some v)
    (hdt : dt.values = some t) (hu : u.WF) (hv : v.WF) (ht : t.WF) (hus : u.shape = t.shape) (hvs : v.shape = t.shape)
    {x y : F} (hlin : ∀ i, inRange t.shape i = true → entry t i = x * entry u i + y * entry v i)
    (hfit : ApiFitsAll axes t.shape) {A : List Nat} (hA : A.Nodup) (hlt : ∀ a ∈ A, a < axes.length)
    {a b c : Calculus.AxisArg} (ha : ApiNames du.numDims a A) (hb : ApiNames dv.numDims b A)
    (hc : ApiNames dt.numDims c A) (ow : Bool) :
    ∃ g ru rv rt du' dv' dt', Calculus.integrate du a ow = .ok (g, ru, du') ∧
      Calculus.integrate dv b ow = .ok (g, rv, dv') ∧ Calculus.integrate dt c ow = .ok (g, rt, dt') ∧
      ∀ idx, inRange (collapsed A t.shape) idx = true → entry rt idx = x * entry ru idx + y * entry rv idx := by
  obtain ⟨ru, du', u1, -, -, -, -, u6⟩ := C30_api_weighted_sum du hgu hdu hu (by rw [hus]; exact hfit) hA hlt ha ow
  obtain ⟨rv, dv', v1, -, -, -, -, v6⟩ := C30_api_weighted_sum dv hgv hdv hv (by rw [hvs]; exact hfit) hA hlt hb ow
  obtain ⟨rt, dt', t1, -, -, -, -, t6⟩ := C30_api_weighted_sum dt hgt hdt ht hfit hA hlt hc ow
  refine ⟨_, ru, rv, rt, du', dv', dt', u1, v1, t1, fun idx hidx => ?_⟩
  rw [hus] at u6
  rw [hvs] at v6
  rw [entry, entry, entry, u6 idx hidx, v6 idx hidx, t6 idx hidx]
  simp only [Option.getD_some]
  rw [cellSum_congr hlin, cellSum_linear]

/-- C30: the order in which the axes are named does not matter, in the function `integrate`. -/
theorem C30_api_axis_order (data : GData F) {A B : List Nat} (hp : A.Perm B) {a b : Calculus.AxisArg}
    (ha : ApiNames data.numDims a A) (hb : ApiNames data.numDims b B) (ow : Bool) :
    Calculus.integrate data a ow = Calculus.integrate data b ow := by
  cases hg : data.grid with
  | none => simp only [Calculus.integrate, hg]
  | some g =>
    cases hv : data.values with
    | none => simp only [Calculus.integrate, hg, hv]
    | some v =>
      simp only [Calculus.integrate, hg, hv, apiNames_axes ha, apiNames_axes hb, natAxes_ok, bind, Except.bind,
        Calculus.contractAll, Calculus.restoreAll, sortAsc_eq, sortDesc_perm hp]

/-- C58 for the function `integrate`: integrating (in place) over the axes `A` and then over `B` gives the grid and the
values of integrating over all of them at once. -/
theorem C58_api_successive_partial (data : GData F) {axes : List (List F)} {v : NArr F}
    (hg : data.grid = some (axes.map NArr.ofList)) (hval : data.values = some v) (hv : v.WF)
    (hfit : ApiFitsAll axes v.shape) {A B : List Nat} (hA : (A ++ B).Nodup) (hlt : ∀ a ∈ A ++ B, a < axes.length)
    {a b ab : Calculus.AxisArg} (ha : ApiNames data.numDims a A) (hab : ApiNames data.numDims ab (A ++ B))
    (hb : ApiNames axes.length b B) (ow : Bool) :
    ∃ r d' g2 r2 d2 r3 d3, Calculus.integrate data a true = .ok ((meanAxes A axes).map NArr.ofList, r, d') ∧
      Calculus.integrate d' b ow = .ok (g2, r2, d2) ∧ Calculus.integrate data ab ow = .ok (g2, r3, d3) ∧
      r2 = r3 := by
  have hA' := List.nodup_append.1 hA
  have hltA : ∀ a ∈ A, a < axes.length := fun a h => hlt a (by simp [h])
  have hltB : ∀ a ∈ B, a < axes.length := fun a h => hlt a (by simp [h])
  have hAB : ∀ a ∈ A, a ∉ B := fun a h h' => hA'.2.2 a h a h' rfl
  obtain ⟨r, d', h1, h2, h3, -, h5, h6⟩ := C30_api_weighted_sum data hg hval hv hfit hA'.1 hltA ha true
  obtain ⟨q1, q2, q3, -⟩ := h5 rfl
  have hml : (meanAxes A axes).length = axes.length := by simp [meanAxes]
  have hnd : d'.numDims = axes.length := by
    have := hfit.1
    simp only [GData.numDims, GData.numCells, q3, List.length_dropLast, h3, collapsed_length]
    simp; omega
  have hfit' : ApiFitsAll (meanAxes A axes) r.shape := by
    refine ⟨by rw [h3, collapsed_length, hml]; exact hfit.1, fun d x n e1 e2 => ?_⟩
    rw [meanAxes_get] at e1
    rw [h3, collapsed_get] at e2
    obtain ⟨x', e1', rfl⟩ := Option.map_eq_some_iff.1 e1
    obtain ⟨n', e2', rfl⟩ := Option.map_eq_some_iff.1 e2
    by_cases hd : d ∈ A
    · simp [hd, ApiFits]
    · simp only [hd, if_false]
      exact hfit.2 d x' n' e1' e2'
  obtain ⟨r2, d2, k1, k2, k3, -, -, k6⟩ := C30_api_weighted_sum d' q1 q2 h2 hfit' hA'.2.1
    (fun a h => by rw [hml]; exact hltB a h) (by rw [hnd]; exact hb) ow
  obtain ⟨r3, d3, l1, l2, l3, -, -, l6⟩ := C30_api_weighted_sum data hg hval hv hfit hA hlt hab ow
  have hgrid : meanAxes B (meanAxes A axes) = meanAxes (A ++ B) axes := by
    refine List.ext_getElem? fun d => ?_
    rw [meanAxes_get, meanAxes_get, meanAxes_get, Option.map_map]
    congr 1
    funext x
    by_cases hd : d ∈ A
    · have := hAB d hd; simp [hd, this]
    · simp [hd]
  have hsh : collapsed B (collapsed A v.shape) = collapsed (A ++ B) v.shape := by
    refine List.ext_getElem? fun d => ?_
    rw [collapsed_get, collapsed_get, collapsed_get, Option.map_map]
    congr 1
    funext x
    by_cases hd : d ∈ A <;> by_cases hd' : d ∈ B <;> simp [hd, hd']
  rw [hgrid] at k1
  refine ⟨r, d', _, r2, d2, r3, d3, h1, k1, l1, ?_⟩
  have hss : r2.shape = r3.shape := by rw [k3, h3, l3, hsh]
  refine NArr.ext_get? k2 l2 hss fun idx hidx => ?_
  rw [k3] at hidx
  have hidx' : inRange (collapsed (A ++ B) v.shape) idx = true := by rw [← hsh, ← h3]; exact hidx
  rw [k6 idx hidx, l6 idx hidx', h3]
  congr 1
  have hB' : ∀ b ∈ B, b < v.shape.length := fun b h => by have := hltB b h; have := hfit.1; omega
  rw [cellSum_congr (v := fun j => cellSum v.shape (entry v) (gridWeight axes v.shape) A j)
    (fun i hi => by rw [entry, h6 i hi]; rfl)]
  refine cellSum_compose hAB hB' _ _ _ (fun b h i => ?_) hidx'
  have hbA : b ∉ A := fun h' => hAB b h' h
  have e1 : (meanAxes A axes).getD b [] = axes.getD b [] := by
    rw [List.getD_eq_getElem?_getD, meanAxes_get, List.getD_eq_getElem?_getD]
    cases axes[b]? <;> simp [hbA]
  have e2 : (collapsed A v.shape).getD b 0 = v.shape.getD b 0 := by
    rw [List.getD_eq_getElem?_getD, collapsed_get, List.getD_eq_getElem?_getD]
    cases v.shape[b]? <;> simp [hbA]
  rw [gridWeight, gridWeight, e1, e2]

end

/-! ## Concrete cases -/

namespace IntegEx

def fn : Fns ℚ where
  sqrt := id
  sin := id
  cos := id
  tan := id
  abs := id
  log := id
  log10 := id
  exp := id
  pow x _ := x
  fmin := min
  fmax := max
  toInt x := some x.num

/-- Three nodes, unevenly spaced; a second axis with two cells; two components. -/
def axes : List (List ℚ) := [[0, 1, 3], [0, 2, 3]]
def v : NArr ℚ := ⟨[2, 2, 1], [1, 2, 3, 4]⟩
def dat : GData ℚ where
  grid := some (axes.map NArr.ofList)
  values := some v
  ctx := { cells := some [2, 2] }

theorem fits : FitsAll axes v.shape := by
  refine ⟨rfl, fun d x n h1 h2 => ?_⟩
  match d with
  | 0 => simp [axes, v] at h1 h2; subst h1 h2; exact .inl rfl
  | 1 => simp [axes, v] at h1 h2; subst h1 h2; exact .inl rfl
  | d + 2 => simp [axes] at h1

theorem apiFits : ApiFitsAll axes v.shape :=
  ⟨rfl, fun d x n h1 h2 => .inl ⟨by
    match d with
    | 0 => simp [axes] at h1; subst h1; decide
    | 1 => simp [axes] at h1; subst h1; decide
    | d + 2 => simp [axes] at h1, fits.2 d x n h1 h2⟩⟩

theorem names : EvNames fn 2 (.arr (NArr.scalar 1)) [1] := .number (by decide +kernel)

/-- The hypotheses of C30 and C31 are met: `int` over axis 1 of four cells. -/
example : ∃ g' r, EvCmd.integrate fn false [none, some (axes.map NArr.ofList)] [.arr (NArr.scalar 1), .arr v] =
    .ok (some g', .arr r) ∧ r.WF ∧ r.shape = [2, 1, 1] := by
  obtain ⟨g', r, h1, h2, h3, -⟩ := C30_ev_weighted_sum fn none (v := v) rfl fits (A := [1]) (by simp) (by simp [axes]) names
  exact ⟨g', r, h1, h2, h3⟩

example : cellSum v.shape (entry v) (gridWidth axes v.shape) [1] [0, 0, 0] = 4 := by decide +kernel
example : cellSum v.shape (entry v) (gridWidth axes v.shape) [0, 1] [0, 0, 0] = 24 := by decide +kernel

example : ∃ r d', Calculus.integrate dat (.int ((1 : Nat) : Int)) true = .ok ((meanAxes [1] axes).map NArr.ofList, r, d') := by
  obtain ⟨r, d', h, -⟩ := C30_api_weighted_sum dat (A := [1]) rfl rfl (by simp [NArr.WF, v]) apiFits (by simp)
    (by simp [axes]) (ApiNames.int 1) true
  exact ⟨r, d', h⟩

/-- The hypotheses of C58 are met: axis 1, then axis 0. -/
example : ∃ r d' g2 r2 d2 r3 d3, Calculus.integrate dat (.int ((1 : Nat) : Int)) true = .ok ((meanAxes [1] axes).map NArr.ofList, r, d') ∧
      Calculus.integrate d' (.int ((0 : Nat) : Int)) false = .ok (g2, r2, d2) ∧
      Calculus.integrate dat (.tuple [1, 0]) false = .ok (g2, r3, d3) ∧ r2 = r3 :=
  C58_api_successive_partial dat (A := [1]) (B := [0]) rfl rfl (by simp [NArr.WF, v]) apiFits (by simp) (by simp [axes])
    (ApiNames.int 1) (ApiNames.tuple [1, 0]) (ApiNames.int 0) false

/-- Nodal coordinates 0, 1, 3 with the constant 1. -/
def nodal : NArr ℚ := ⟨[3, 1], [1, 1, 1]⟩

/-- C31 is false of `ev`: on an unevenly spaced nodal grid the average of the constant 1 is 5/4 (the integral uses the
last spacing twice, the length the first). -/
theorem C31_nodal_counterexample :
    EvCmd.integrate fn true [none, some [NArr.ofList [0, 1, 3]]] [.tuple [0], .arr nodal] =
      .ok (some [NArr.ofList [0]], .arr ⟨[1, 1], [5 / 4]⟩) := by
  have h1 : sortDesc [0] = [0] := by simp [sortDesc]
  have h2 : sortAsc [0] = [0] := by simp [sortAsc]
  have e : natAxes [0] = .ok [0] := rfl
  simp only [EvCmd.integrate, axesOf, e, bind, Except.bind, contractAll, restoreAll, h1, h2]
  with_unfolding_all rfl

/-- The hypotheses of C31 are met on the uneven cell-centred grid. -/
example : ∃ g' r, EvCmd.integrate fn true [none, some (axes.map NArr.ofList)] [.tuple [0, 1], .arr ⟨[2, 2, 1], [7, 7, 7, 7]⟩] =
      .ok (some g', .arr r) ∧ r.WF ∧ r.shape = collapsed [0, 1] [2, 2, 1] ∧
      ∀ idx, inRange (collapsed [0, 1] [2, 2, 1]) idx = true → r.get? idx = some 7 := by
  refine C31_average_of_constant_cells fn none (axes := axes) (v := ⟨[2, 2, 1], [7, 7, 7, 7]⟩) (A := [0, 1]) (c := 7) rfl rfl ?_
    (by simp) (by simp [axes]) (EvNames.tuple [0, 1]) ?_ ?_
  · intro d x n h1 h2
    match d with
    | 0 => simp [axes] at h1 h2; subst h1 h2; rfl
    | 1 => simp [axes] at h1 h2; subst h1 h2; rfl
    | d + 2 => simp [axes] at h1
  · intro i hi
    have : ∀ i ∈ indices [2, 2, 1], (⟨[2, 2, 1], [7, 7, 7, 7]⟩ : NArr ℚ).get? i = some 7 := by decide +kernel
    exact this i (mem_indices.2 hi)
  · intro a ha x hx
    match a with
    | 0 => simp [axes] at hx; subst hx; decide +kernel
    | 1 => simp [axes] at hx; subst hx; decide +kernel
    | a + 2 => simp [axes] at hx

end IntegEx
end Pgkyl
