import Mathlib.Algebra.Order.Ring.Rat
import Mathlib.Analysis.Real.Sqrt
import Mathlib.Tactic.FieldSimp
import Mathlib.Tactic.IntervalCases
import Verif.Props.PlotData
import Verif.Model.PlotKinds
import Verif.Spec.PlotKinds
/-! # C116 - C118: arrows, streamlines, line-outs and colours -/

namespace Pgkyl
open Spec Plot NArr

/-! ## Strides -/

theorem strideLen_lt {start step n i : Nat} (hs : 0 < step) :
    i < strideLen start step n ↔ start + step * i < n := by
  unfold strideLen
  have h1 := Nat.div_add_mod (n - start + step - 1) step
  have h2 := Nat.mod_lt (n - start + step - 1) hs
  generalize (n - start + step - 1) / step = q at *
  generalize (n - start + step - 1) % step = r at *
  constructor
  · intro h
    have : step * (i + 1) ≤ step * q := Nat.mul_le_mul_left _ h
    rw [Nat.mul_succ] at this
    omega
  · intro h
    by_contra hn
    have : step * q ≤ step * i := Nat.mul_le_mul_left _ (by omega)
    omega

theorem stride_ok {α : Type} {start step : Nat} (hs : 0 < step) (l : List α) :
    ∃ xs, stride start step l = .ok xs ∧ xs.length = strideLen start step l.length ∧
      ∀ i, i < strideLen start step l.length → xs[i]? = l[start + step * i]? := by
  refine ⟨_, by rw [stride, if_neg (by omega)], ?_⟩
  have hall : ∀ (ks : List Nat), (∀ k ∈ ks, start + step * k < l.length) →
      (ks.filterMap fun i => l[start + step * i]?).length = ks.length ∧
      ∀ i : Nat, (ks.filterMap fun i => l[start + step * i]?)[i]? = (ks[i]?).bind fun k => l[start + step * k]? := by
    intro ks
    induction ks with
    | nil => intro _; simp
    | cons k ks ih =>
      intro h
      obtain ⟨i1, i2⟩ := ih fun j hj => h j (by simp [hj])
      have hk := h k (by simp)
      rw [List.filterMap_cons_some (f := fun i => l[start + step * i]?) (List.getElem?_eq_getElem hk)]
      refine ⟨by simp [i1], fun i => ?_⟩
      cases i with
      | zero => simp [List.getElem?_eq_getElem hk]
      | succ i => simpa using i2 i
  obtain ⟨h1, h2⟩ := hall (List.range (strideLen start step l.length)) fun k hk =>
    (strideLen_lt hs).1 (List.mem_range.1 hk)
  refine ⟨by rw [h1, List.length_range], fun i hi => ?_⟩
  rw [h2, List.getElem?_range hi]
  rfl

section pos
variable {F : Type} [_root_.Field F]

theorem strideValues_ok {v : NArr F} (hw : v.WF) {m n nc : Nat} (hs : v.shape = [m, n, nc]) (s : Scales F)
    {start step comp : Nat} (hst : 0 < step) (hc : comp < nc) :
    (strideValues s v start step comp).WF ∧
      (strideValues s v start step comp).shape = [strideLen start step n, strideLen start step m] ∧
      ∀ i j, start + step * i < m → start + step * j < n → ∃ x, v.get? [start + step * i, start + step * j, comp] = some x ∧
        (strideValues s v start step comp).get? [j, i] = some ((x + s.zshift) * s.zscale) := by
  have hsome' : ∀ i j, start + step * i < m → start + step * j < n →
      (v.get? [start + step * i, start + step * j, comp]).isSome := by
    intro i j hi hj
    apply get?_isSome hw
    simp [hs, inRange, hi, hj, hc]
  have hz : strideValues s v start step comp = NArr.ofFn [strideLen start step n, strideLen start step m]
      (strideAt s v start step comp) := by simp only [strideValues, hs]
  have hsome : ∀ idx, inRange [strideLen start step n, strideLen start step m] idx = true →
      (strideAt s v start step comp idx).isSome := by
    intro idx h
    have hl := inRange_length h
    match idx, hl, h with
    | [j, i], _, h =>
      simp only [inRange, Bool.and_true, Bool.and_eq_true, decide_eq_true_eq] at h
      simp only [strideAt, Option.isSome_map]
      exact hsome' i j ((strideLen_lt hst).1 h.2) ((strideLen_lt hst).1 h.1)
  rw [hz]
  refine ⟨ofFn_WF hsome, rfl, fun i j hi hj => ?_⟩
  obtain ⟨x, hx⟩ := Option.isSome_iff_exists.1 (hsome' i j hi hj)
  refine ⟨x, hx, ?_⟩
  rw [ofFn_get? hsome (by simp [inRange, (strideLen_lt hst).2 hi, (strideLen_lt hst).2 hj])]
  simp only [strideAt, hx]
  rfl

/-- The data of a two-dimensional plot. -/
theorem plane_ok {axes : List (PlotAxis F)} (hax : ∀ a ∈ axes, a.OK) {nc : Nat} {values : NArr F}
    (hv : IsDataset axes nc values) {a b : PlotAxis F} (ha : axes.filter (fun a => decide (1 < a.n)) = [a, b]) :
    ∃ v xs ys, prepare (axes.map (·.nodes)) (axes.map (·.n)) values = .ok ⟨[a.nodes, b.nodes], [a.n, b.n], v⟩ ∧
      v.WF ∧ v.shape = [a.n, b.n, nc] ∧
      (∀ i j c, i < a.n → j < b.n → v.get? [i, j, c] = values.get? (fullIndex (axes.map (·.n)) [i, j] ++ [c])) ∧
      nodalGrid (1 / 2 : F) [a.nodes, b.nodes] [a.n, b.n] = .ok [xs, ys] ∧
      (xs.length = a.n ∧ ∀ i, i < a.n → ∃ x, xs[i]? = some x ∧ a.IsPos i x) ∧
      (ys.length = b.n ∧ ∀ i, i < b.n → ∃ x, ys[i]? = some x ∧ b.IsPos i x) := by
  obtain ⟨v, hp, hw, hs, hg⟩ := prepare_ok hax hv (by rw [ha]; simp) (by rw [ha]; simp)
  rw [ha] at hp hs hg
  have hin : ∀ c ∈ [a, b], c.OK := fun c hc => hax c (List.mem_of_mem_filter (by rw [ha]; exact hc))
  obtain ⟨g, hng, hfa⟩ := nodalGrid_ok (axes := [a, b]) hin
  obtain ⟨xs, ys, rfl, hx, hy⟩ : ∃ xs ys, g = [xs, ys] ∧
      (xs.length = a.n ∧ ∀ i, i < a.n → ∃ x, xs[i]? = some x ∧ a.IsPos i x) ∧
      (ys.length = b.n ∧ ∀ i, i < b.n → ∃ x, ys[i]? = some x ∧ b.IsPos i x) := by
    cases hfa with
    | cons h t => cases t with
      | cons h' t' => cases t'; exact ⟨_, _, rfl, h, h'⟩
  exact ⟨v, xs, ys, hp, hw, hs, fun i j c hi hj => hg [i, j] c (by simp [inRange, hi, hj]), hng, hx, hy⟩

/-! ## C116: vectors -/

/-- C116 for arrows: if one of the two directions has at least 15 nodes, arrows are drawn in every `step`-th cell of both
directions, where `step` is a fifteenth of the larger number of nodes, beginning in the middle of the first `step` cells;
every arrow is drawn at the position of its cell, and its components are the two values of that cell, shifted and scaled
as asked; there are at most 29 arrows along each direction.  Partial: with fewer nodes nothing is drawn, see
`C116_arrows_fails`. -/
theorem C116_arrows_partial {axes : List (PlotAxis F)} (hax : ∀ a ∈ axes, a.OK) {nc : Nat} {values : NArr F}
    (hv : IsDataset axes nc values) {a b : PlotAxis F} (ha : axes.filter (fun a => decide (1 < a.n)) = [a, b])
    (hlarge : 15 ≤ a.nodes.length ∨ 15 ≤ b.nodes.length) (s : Scales F) {pair : Nat} (hc : 2 * pair + 1 < nc) :
    ∃ p xs ys u w, prepare (axes.map (·.nodes)) (axes.map (·.n)) values = .ok p ∧
      quiver (1 / 2) s p pair = .ok (xs, ys, u, w) ∧
      xs.length ≤ 29 ∧ ys.length ≤ 29 ∧ u.WF ∧ w.WF ∧ u.shape = [ys.length, xs.length] ∧ w.shape = [ys.length, xs.length] ∧
      ∃ step, step = max a.nodes.length b.nodes.length / 15 ∧
        (∀ i, i < xs.length ↔ step / 2 + step * i < a.n) ∧ (∀ j, j < ys.length ↔ step / 2 + step * j < b.n) ∧
        ∀ i j, i < xs.length → j < ys.length → ∃ x y v0 v1,
          a.IsPos (step / 2 + step * i) x ∧ b.IsPos (step / 2 + step * j) y ∧
          values.get? (fullIndex (axes.map (·.n)) [step / 2 + step * i, step / 2 + step * j] ++ [2 * pair]) = some v0 ∧
          values.get? (fullIndex (axes.map (·.n)) [step / 2 + step * i, step / 2 + step * j] ++ [2 * pair + 1]) = some v1 ∧
          xs[i]? = some ((x + s.xshift) * s.xscale) ∧ ys[j]? = some ((y + s.yshift) * s.yscale) ∧
          u.get? [j, i] = some ((v0 + s.zshift) * s.zscale) ∧ w.get? [j, i] = some ((v1 + s.zshift) * s.zscale) := by
  obtain ⟨v, gx, gy, hp, hw, hs, hg, hng, ⟨hxl, hxp⟩, hyl, hyp⟩ := plane_ok hax hv ha
  have hM : 15 ≤ max a.nodes.length b.nodes.length := by omega
  have hna : a.n ≤ max a.nodes.length b.nodes.length := by
    have := (hax a (List.mem_of_mem_filter (p := fun a => decide (1 < a.n)) (by rw [ha]; simp))).2
    omega
  have hnb : b.n ≤ max a.nodes.length b.nodes.length := by
    have := (hax b (List.mem_of_mem_filter (p := fun a => decide (1 < a.n)) (by rw [ha]; simp))).2
    omega
  generalize hMe : max a.nodes.length b.nodes.length = M at *
  have hst : 0 < M / 15 := by omega
  obtain ⟨xs, hxs, hxlen, hxget⟩ := stride_ok (start := M / 15 / 2) hst gx
  obtain ⟨ys, hys, hylen, hyget⟩ := stride_ok (start := M / 15 / 2) hst gy
  rw [hxl] at hxlen hxget
  rw [hyl] at hylen hyget
  obtain ⟨uw, us, ug⟩ := strideValues_ok hw hs s (start := M / 15 / 2) hst (show 2 * pair < nc by omega)
  obtain ⟨ww, ws, wg⟩ := strideValues_ok hw hs s (start := M / 15 / 2) hst hc
  have hbound : ∀ n, n ≤ M → strideLen (M / 15 / 2) (M / 15) n ≤ 29 := by
    intro n hn
    by_contra h
    have h29 := (strideLen_lt (start := M / 15 / 2) (n := n) (i := 29) hst).1 (by omega)
    omega
  refine ⟨_, xs.map (place s.xshift s.xscale), ys.map (place s.yshift s.yscale), _, _, hp, ?_, ?_, ?_, uw, ww, ?_, ?_,
    M / 15, rfl, ?_, ?_, ?_⟩
  · simp only [quiver, hng, hMe, hxs, hys, bind, Except.bind, pure, Except.pure]
  · rw [List.length_map, hxlen]; exact hbound _ hna
  · rw [List.length_map, hylen]; exact hbound _ hnb
  · rw [us, List.length_map, List.length_map, hxlen, hylen]
  · rw [ws, List.length_map, List.length_map, hxlen, hylen]
  · intro i; rw [List.length_map, hxlen]; exact strideLen_lt hst
  · intro i; rw [List.length_map, hylen]; exact strideLen_lt hst
  · intro i j hi hj
    rw [List.length_map] at hi hj
    rw [hxlen] at hi
    rw [hylen] at hj
    have hi' := (strideLen_lt hst).1 hi
    have hj' := (strideLen_lt hst).1 hj
    obtain ⟨x, hx, hx'⟩ := hxp _ hi'
    obtain ⟨y, hy, hy'⟩ := hyp _ hj'
    obtain ⟨v0, e0, f0⟩ := ug i j hi' hj'
    obtain ⟨v1, e1, f1⟩ := wg i j hi' hj'
    refine ⟨x, y, v0, v1, hx', hy', by rw [← hg _ _ _ hi' hj', e0], by rw [← hg _ _ _ hi' hj', e1], ?_, ?_, f0, f1⟩
    · rw [List.getElem?_map, hxget i hi, hx]; rfl
    · rw [List.getElem?_map, hyget j hj, hy]; rfl

/-- Arrows cannot be drawn if both directions have fewer than 15 nodes: the step is 0, which is an error. -/
theorem C116_arrows_fails {axes : List (PlotAxis F)} (hax : ∀ a ∈ axes, a.OK) {nc : Nat} {values : NArr F}
    (hv : IsDataset axes nc values) {a b : PlotAxis F} (ha : axes.filter (fun a => decide (1 < a.n)) = [a, b])
    (h1 : a.nodes.length < 15) (h2 : b.nodes.length < 15) (s : Scales F) (pair : Nat) :
    ∃ p, prepare (axes.map (·.nodes)) (axes.map (·.n)) values = .ok p ∧
      quiver (1 / 2) s p pair = .error .valueError := by
  obtain ⟨v, gx, gy, hp, hw, hs, hg, hng, -⟩ := plane_ok hax hv ha
  have hz : max a.nodes.length b.nodes.length / 15 = 0 := by omega
  refine ⟨_, hp, ?_⟩
  simp only [quiver, hng, hz, stride, bind, Except.bind]
  rfl

theorem magnitude_ok (sqrt : F → F) {v : NArr F} (hw : v.WF) {m n nc : Nat} (hs : v.shape = [m, n, nc]) {pair : Nat}
    (hc : 2 * pair + 1 < nc) : (magnitude sqrt v pair).WF ∧ (magnitude sqrt v pair).shape = [n, m] ∧
      ∀ i j v0 v1, i < m → j < n → v.get? [i, j, 2 * pair] = some v0 → v.get? [i, j, 2 * pair + 1] = some v1 →
        (magnitude sqrt v pair).get? [j, i] = some (sqrt (v0 * v0 + v1 * v1)) := by
  have hz : magnitude sqrt v pair = NArr.ofFn [n, m] fun idx => do
      let a ← v.get? (idx.reverse ++ [2 * pair])
      let b ← v.get? (idx.reverse ++ [2 * pair + 1])
      return sqrt (a * a + b * b) := by simp [magnitude, hs]
  have hsome' : ∀ i j c, i < m → j < n → c < nc → (v.get? [i, j, c]).isSome := by
    intro i j c hi hj hc
    apply get?_isSome hw
    simp [hs, inRange, hi, hj, hc]
  have hsome : ∀ idx, inRange [n, m] idx = true → ((do
      let a ← v.get? (idx.reverse ++ [2 * pair])
      let b ← v.get? (idx.reverse ++ [2 * pair + 1])
      return sqrt (a * a + b * b)) : Option F).isSome := by
    intro idx h
    have hl := inRange_length h
    match idx, hl, h with
    | [j, i], _, h =>
      simp only [inRange, Bool.and_true, Bool.and_eq_true, decide_eq_true_eq] at h
      obtain ⟨v0, h0⟩ := Option.isSome_iff_exists.1 (hsome' i j (2 * pair) h.2 h.1 (by omega))
      obtain ⟨v1, h1⟩ := Option.isSome_iff_exists.1 (hsome' i j (2 * pair + 1) h.2 h.1 hc)
      simp [h0, h1]
  rw [hz]
  refine ⟨ofFn_WF hsome, rfl, fun i j v0 v1 hi hj h0 h1 => ?_⟩
  rw [ofFn_get? hsome (by simp [inRange, hi, hj])]
  simp [h0, h1]

end pos

/-- C116 for streamlines: positions and vectors are those of the cells, shifted and scaled as asked, and the lines are
coloured by the magnitude of the vector in the data. -/
theorem C116_streamlines {axes : List (PlotAxis ℝ)} (hax : ∀ a ∈ axes, a.OK) {nc : Nat} {values : NArr ℝ}
    (hv : IsDataset axes nc values) {a b : PlotAxis ℝ} (ha : axes.filter (fun a => decide (1 < a.n)) = [a, b])
    (s : Scales ℝ) {pair : Nat} (hc : 2 * pair + 1 < nc) :
    ∃ p xs ys u w m, prepare (axes.map (·.nodes)) (axes.map (·.n)) values = .ok p ∧
      streamline Real.sqrt (1 / 2) s p pair = .ok (xs, ys, u, w, m) ∧ xs.length = a.n ∧ ys.length = b.n ∧
      u.WF ∧ w.WF ∧ m.WF ∧ u.shape = [b.n, a.n] ∧ w.shape = [b.n, a.n] ∧ m.shape = [b.n, a.n] ∧
      ∀ i j, i < a.n → j < b.n → ∃ x y v0 v1 r, a.IsPos i x ∧ b.IsPos j y ∧
        values.get? (fullIndex (axes.map (·.n)) [i, j] ++ [2 * pair]) = some v0 ∧
        values.get? (fullIndex (axes.map (·.n)) [i, j] ++ [2 * pair + 1]) = some v1 ∧
        xs[i]? = some ((x + s.xshift) * s.xscale) ∧ ys[j]? = some ((y + s.yshift) * s.yscale) ∧
        u.get? [j, i] = some ((v0 + s.zshift) * s.zscale) ∧ w.get? [j, i] = some ((v1 + s.zshift) * s.zscale) ∧
        m.get? [j, i] = some r ∧ 0 ≤ r ∧ r ^ 2 = v0 ^ 2 + v1 ^ 2 := by
  obtain ⟨v, gx, gy, hp, hw, hs, hg, hng, ⟨hxl, hxp⟩, hyl, hyp⟩ := plane_ok hax hv ha
  obtain ⟨uw, us, ug⟩ := zValues_ok hw hs s (show 2 * pair < nc by omega)
  obtain ⟨ww, ws, wg⟩ := zValues_ok hw hs s hc
  obtain ⟨mw, ms, mg⟩ := magnitude_ok Real.sqrt hw hs hc
  refine ⟨_, gx.map (place s.xshift s.xscale), gy.map (place s.yshift s.yscale), _, _, _, hp, ?_, by simpa, by simpa, uw,
    ww, mw, us, ws, ms, ?_⟩
  · simp only [streamline, hng, bind, Except.bind, pure, Except.pure]
  · intro i j hi hj
    obtain ⟨x, hx, hx'⟩ := hxp i hi
    obtain ⟨y, hy, hy'⟩ := hyp j hj
    obtain ⟨v0, e0, f0⟩ := ug i j hi hj
    obtain ⟨v1, e1, f1⟩ := wg i j hi hj
    refine ⟨x, y, v0, v1, _, hx', hy', by rw [← hg _ _ _ hi hj, e0], by rw [← hg _ _ _ hi hj, e1], by simp [hx, place],
      by simp [hy, place], f0, f1, mg i j v0 v1 hi hj e0 e1, Real.sqrt_nonneg _, ?_⟩
    rw [Real.sq_sqrt (add_nonneg (mul_self_nonneg _) (mul_self_nonneg _))]
    ring

/-! ## C117: line-outs -/

section lineouts
variable {F : Type} [_root_.Field F]

omit [_root_.Field F] in
theorem lineValues_ok {v : NArr F} (hw : v.WF) {m n nc : Nat} (hs : v.shape = [m, n, nc]) {comp : Nat} (hc : comp < nc)
    (dir : Fin 2) {k : Nat} (hk : k < if dir = 0 then n else m) :
    (lineValues v dir k comp).length = (if dir = 0 then m else n) ∧
      ∀ i, i < (if dir = 0 then m else n) →
        (lineValues v dir k comp)[i]? = v.get? (if dir = 0 then [i, k, comp] else [k, i, comp]) := by
  have key : ∀ (N : Nat) (f : Nat → Option F), (∀ i, i < N → (f i).isSome) →
      ((List.range N).filterMap f).length = N ∧ ∀ i, i < N → ((List.range N).filterMap f)[i]? = f i := by
    intro N f h
    have : ∀ ks : List Nat, (∀ i ∈ ks, (f i).isSome) → (ks.filterMap f).length = ks.length ∧
        ∀ i : Nat, (ks.filterMap f)[i]? = (ks[i]?).bind f := by
      intro ks
      induction ks with
      | nil => intro _; simp
      | cons j js ih =>
        intro h
        obtain ⟨x, hx⟩ := Option.isSome_iff_exists.1 (h j (by simp))
        obtain ⟨i1, i2⟩ := ih fun i hi => h i (by simp [hi])
        rw [List.filterMap_cons_some hx]
        refine ⟨by simp [i1], fun i => ?_⟩
        cases i with
        | zero => simp [hx]
        | succ i => simpa using i2 i
    obtain ⟨h1, h2⟩ := this (List.range N) fun i hi => h i (List.mem_range.1 hi)
    exact ⟨by rw [h1, List.length_range], fun i hi => by rw [h2, List.getElem?_range hi]; rfl⟩
  have hsome' : ∀ i j, i < m → j < n → (v.get? [i, j, comp]).isSome := by
    intro i j hi hj
    apply get?_isSome hw
    simp [hs, inRange, hi, hj, hc]
  match dir with
  | 0 =>
    simp only [if_true] at hk ⊢
    simp only [lineValues, hs, Fin.val_zero, if_true]
    exact key m (fun i => v.get? [i, k, comp]) fun i hi => hsome' i k hi hk
  | 1 =>
    have h10 : (1 : Fin 2) ≠ 0 := by decide
    simp only [h10, if_false] at hk ⊢
    have h1 : ((1 : Fin 2) : Nat) ≠ 0 := by decide
    simp only [lineValues, hs, h1, if_false]
    exact key n (fun i => v.get? [k, i, comp]) fun i hi => hsome' k i hk hi

theorem mapM_range_ok {α : Type} {f : Nat → Except Err α} {g : Nat → α} : ∀ (ks : List Nat),
    (∀ k ∈ ks, f k = .ok (g k)) → ks.mapM f = .ok (ks.map g) := by
  intro ks
  induction ks with
  | nil => intro _; rfl
  | cons k ks ih =>
    intro h
    rw [List.mapM_cons, h k (by simp), ih fun j hj => h j (by simp [hj])]
    rfl

/-- C117: `lineouts` draws one line for every position along the other direction; the points of line `k` are the values
at that position, each at the position of its cell; the colour bar goes from the first to the last position. -/
theorem C117_lines {axes : List (PlotAxis F)} (hax : ∀ a ∈ axes, a.OK) {nc : Nat} {values : NArr F}
    (hv : IsDataset axes nc values) {a b : PlotAxis F} (ha : axes.filter (fun a => decide (1 < a.n)) = [a, b])
    (s : Scales F) (dir : Fin 2) {comp : Nat} (hc : comp < nc)
    {along other : PlotAxis F} (hal : along = if dir = 0 then a else b) (hot : other = if dir = 0 then b else a) :
    ∃ p ls lo hi, prepare (axes.map (·.nodes)) (axes.map (·.n)) values = .ok p ∧
      lineouts (1 / 2) s p dir comp = .ok (ls, (lo + s.yshift) * s.yscale, (hi + s.yshift) * s.yscale) ∧
      other.IsPos 0 lo ∧ other.IsPos (other.n - 1) hi ∧ ls.length = other.n ∧
      ∀ k, k < other.n → ∃ l, ls[k]? = some l ∧ l.shade = (k : F) / ((other.n - 1 : Nat) : F) ∧
        l.xs.length = along.n ∧ l.ys.length = along.n ∧
        ∀ i, i < along.n → ∃ x v, along.IsPos i x ∧
          values.get? (fullIndex (axes.map (·.n)) (if dir = 0 then [i, k] else [k, i]) ++ [comp]) = some v ∧
          l.xs[i]? = some ((x + s.xshift) * s.xscale) ∧ l.ys[i]? = some ((v + s.yshift) * s.yscale) := by
  obtain ⟨v, gx, gy, hp, hw, hs, hg, hng, ⟨hxl, hxp⟩, hyl, hyp⟩ := plane_ok hax hv ha
  have han : 1 < a.n := by
    have := (List.mem_filter.1 (show a ∈ axes.filter (fun a => decide (1 < a.n)) by rw [ha]; simp)).2
    simpa using this
  have hbn : 1 < b.n := by
    have := (List.mem_filter.1 (show b ∈ axes.filter (fun a => decide (1 < a.n)) by rw [ha]; simp)).2
    simpa using this
  -- positions along and across
  obtain ⟨ga, hga, hgal, hgap⟩ : ∃ ga, ga = (if dir = 0 then gx else gy) ∧ ga.length = along.n ∧
      ∀ i, i < along.n → ∃ x, ga[i]? = some x ∧ along.IsPos i x := by
    by_cases h0 : dir = 0
    · rw [if_pos h0] at hal; subst hal; exact ⟨gx, by rw [if_pos h0], hxl, hxp⟩
    · rw [if_neg h0] at hal; subst hal; exact ⟨gy, by rw [if_neg h0], hyl, hyp⟩
  obtain ⟨gb, hgb, hgbl, hgbp⟩ : ∃ gb, gb = (if dir = 0 then gy else gx) ∧ gb.length = other.n ∧
      ∀ i, i < other.n → ∃ x, gb[i]? = some x ∧ other.IsPos i x := by
    by_cases h0 : dir = 0
    · rw [if_pos h0] at hot; subst hot; exact ⟨gy, by rw [if_pos h0], hyl, hyp⟩
    · rw [if_neg h0] at hot; subst hot; exact ⟨gx, by rw [if_neg h0], hxl, hxp⟩
  have hon : 1 < other.n := by
    by_cases h0 : dir = 0
    · rw [hot, if_pos h0]; exact hbn
    · rw [hot, if_neg h0]; exact han
  have hdim : ∀ (A B : PlotAxis F), ((dir : Nat) = 0) = (dir = 0) := fun _ _ => by
    rw [eq_iff_iff]; exact ⟨fun h => Fin.ext h, fun h => by rw [h]; rfl⟩
  have hnat : ((dir : Nat) = 0) = (dir = 0) := hdim a b
  have hon' : (if dir = 0 then b.n else a.n) = other.n := by rw [hot]; split <;> rfl
  have hal' : (if dir = 0 then a.n else b.n) = along.n := by rw [hal]; split <;> rfl
  obtain ⟨lo, hlo, hlop⟩ := hgbp 0 (by omega)
  obtain ⟨hi, hhi, hhip⟩ := hgbp (other.n - 1) (by omega)
  have hnum : numLines v dir = other.n := by
    simp only [numLines, hs, hnat, hon']
  have hloop : lineLoop s v dir comp ga other.n = .ok ((List.range other.n).map fun (k : Nat) =>
      ⟨(k : F) / ((other.n - 1 : Nat) : F), ga.map (place s.xshift s.xscale),
        (lineValues v dir k comp).map (place s.yshift s.yscale)⟩) := by
    unfold lineLoop
    apply mapM_range_ok
    intro k _
    simp only [shade, if_neg (show ¬ other.n = 1 by omega), bind, Except.bind, pure, Except.pure]
  refine ⟨_, (List.range other.n).map fun (k : Nat) =>
      ⟨(k : F) / ((other.n - 1 : Nat) : F), ga.map (place s.xshift s.xscale),
        (lineValues v dir k comp).map (place s.yshift s.yscale)⟩, lo, hi, hp, ?_, hlop, hhip,
      by rw [List.length_map, List.length_range], ?_⟩
  rotate_left
  · intro k hk
    obtain ⟨hll, hlg⟩ := lineValues_ok hw hs hc dir (k := k) (by rw [hon']; exact hk)
    rw [hal'] at hll hlg
    refine ⟨_, by rw [List.getElem?_map, List.getElem?_range hk]; rfl, rfl, by simpa using hgal, by simpa using hll, ?_⟩
    intro i hi
    obtain ⟨x, hx, hx'⟩ := hgap i hi
    have hi' := hlg i hi
    obtain ⟨y, hy⟩ : ∃ y, (lineValues v dir k comp)[i]? = some y :=
      ⟨_, List.getElem?_eq_getElem (by rw [hll]; exact hi)⟩
    refine ⟨x, y, hx', ?_, by simp [hx, place], by simp [hy, place]⟩
    rw [← hy, hi']
    by_cases h0 : dir = 0
    · simp only [h0, if_true]
      rw [h0, if_pos rfl] at hal' hon'
      rw [hg _ _ _ (by omega) (by omega)]
    · simp only [h0, if_false]
      rw [if_neg h0] at hal' hon'
      rw [hg _ _ _ (by omega) (by omega)]
  · have hh : gb.head? = some lo := by rw [List.head?_eq_getElem?]; exact hlo
    have ht : gb.getLast? = some hi := by rw [List.getLast?_eq_getElem?, hgbl]; exact hhi
    simp only [lineouts, hng, hnat, ← hga, ← hgb, hh, ht, hnum, hloop, bind, Except.bind, pure, Except.pure]
    rfl

/-- On equally spaced nodes the positions are equally spaced. -/
theorem Spec.Equidistant.pos [CharZero F] {ax : PlotAxis F} {h : F} (he : Equidistant ax.nodes h) : ∃ c : F, ∀ i x, i < ax.n →
    ax.IsPos i x → x = c + (i : F) * h := by
  obtain ⟨-, a, ha⟩ := he
  by_cases hl : ax.nodes.length = ax.n
  · refine ⟨a, fun i x hi hp => ?_⟩
    rcases hp with ⟨-, hx⟩ | ⟨h', -⟩
    · rw [ha i (by omega)] at hx
      exact (Option.some.inj hx).symm
    · omega
  · refine ⟨a + h / 2, fun i x hi hp => ?_⟩
    rcases hp with ⟨h', -⟩ | ⟨h', l, r, hl', hr', rfl⟩
    · exact absurd h' hl
    · rw [ha i (by omega)] at hl'
      rw [ha (i + 1) (by omega)] at hr'
      rw [← Option.some.inj hl', ← Option.some.inj hr']
      push_cast
      field_simp
      ring

/-- C117: on an equally spaced grid the shade of every line is the one the colour bar shows at its position. Partial: on
a grid that is not equally spaced it is not, see `C117_shades_fails`. -/
theorem C117_shades_partial [CharZero F] {other : PlotAxis F} {h : F} (he : Equidistant other.nodes h) (hn : 1 < other.n)
    {k : Nat} (hk : k < other.n) {lo hi y : F} (hlo : other.IsPos 0 lo) (hhi : other.IsPos (other.n - 1) hi)
    (hy : other.IsPos k y) {shift scale : F} (hs : scale ≠ 0) :
    (k : F) / ((other.n - 1 : Nat) : F) =
      barShade ((lo + shift) * scale) ((hi + shift) * scale) ((y + shift) * scale) := by
  obtain ⟨c, hc⟩ := he.pos
  rw [hc 0 lo (by omega) hlo, hc _ hi (by omega) hhi, hc k y hk hy]
  have hne : ((other.n - 1 : Nat) : F) ≠ 0 := by
    rw [Nat.cast_ne_zero]; omega
  have hh := he.1
  unfold barShade
  generalize ((other.n - 1 : Nat) : F) = N at *
  have : (c + N * h + shift) * scale - (c + ((0 : Nat) : F) * h + shift) * scale = N * h * scale := by push_cast; ring
  rw [this]
  have : (c + (k : F) * h + shift) * scale - (c + ((0 : Nat) : F) * h + shift) * scale = k * h * scale := by push_cast; ring
  rw [this]
  field_simp

end lineouts

/-- With nodes at 0, 1 and 9 the middle line has the shade that the colour bar shows at 4.5. -/
theorem C117_shades_fails : ∃ ls, lineouts (F := ℚ) (1 / 2) ⟨0, 1, 0, 1, 0, 1⟩ ⟨[[0, 1], [0, 1, 9]], [2, 3], ⟨[2, 3, 1],
      [1, 2, 3, 4, 5, 6]⟩⟩ 0 0 = .ok (ls, 0, 9) ∧ (ls.map (·.shade))[1]? = some (1 / 2) ∧
    barShade (F := ℚ) 0 9 1 = 1 / 9 := by
  refine ⟨[⟨0, [0, 1], [1, 4]⟩, ⟨1 / 2, [0, 1], [2, 5]⟩, ⟨1, [0, 1], [3, 6]⟩], ?_, rfl, by norm_num [barShade]⟩
  decide +kernel

/-! ## C118: colours -/

section colours
variable {F : Type} [_root_.Field F] [LinearOrder F] [IsStrictOrderedRing F]

theorem absOf_eq (x : F) : absOf x = |x| := by
  unfold absOf
  split
  · rename_i h; rw [abs_of_neg h]
  · rename_i h; rw [abs_of_nonneg (not_lt.1 h)]

/-- `m` is the largest magnitude in `z`. -/
theorem maxAbs_ok {z : List F} (hz : z ≠ []) : ∃ m, maxOf (z.map absOf) = .ok m ∧ (∀ x ∈ z, |x| ≤ m) ∧ ∃ x ∈ z, |x| = m := by
  have key : ∀ (ys : List F) (a : F), (∀ y ∈ ys, y ≤ ys.foldl (fun m y => if m < y then y else m) a) ∧
      a ≤ ys.foldl (fun m y => if m < y then y else m) a ∧
      (ys.foldl (fun m y => if m < y then y else m) a = a ∨ ys.foldl (fun m y => if m < y then y else m) a ∈ ys) := by
    intro ys
    induction ys with
    | nil => intro a; simp
    | cons y ys ih =>
      intro a
      obtain ⟨h1, h2, h3⟩ := ih (if a < y then y else a)
      rw [List.foldl_cons]
      refine ⟨?_, ?_, ?_⟩
      · intro w hw
        rcases List.mem_cons.1 hw with rfl | hw
        · refine le_trans ?_ h2
          split
          · exact le_refl _
          · rename_i h; exact not_lt.1 h
        · exact h1 w hw
      · refine le_trans ?_ h2
        split
        · rename_i h; exact le_of_lt h
        · exact le_refl _
      · rcases h3 with h3 | h3
        · rw [h3]
          split
          · right; simp
          · left; rfl
        · right; exact List.mem_cons_of_mem _ h3
  cases z with
  | nil => exact absurd rfl hz
  | cons x xs =>
    obtain ⟨h1, h2, h3⟩ := key (xs.map absOf) (absOf x)
    refine ⟨_, rfl, ?_, ?_⟩
    · intro w hw
      rw [← absOf_eq]
      rcases List.mem_cons.1 hw with rfl | hw
      · exact h2
      · exact h1 _ (List.mem_map_of_mem hw)
    · rcases h3 with h3 | h3
      · exact ⟨x, by simp, by rw [← absOf_eq]; exact h3.symm⟩
      · obtain ⟨w, hw, he⟩ := List.mem_map.1 h3
        exact ⟨w, by simp [hw], by rw [← absOf_eq]; exact he⟩

/-- C118: with `diverging` the colours of every panel run from `-m` to `m`, where `m` is the largest magnitude among the
values drawn in the panel: zero is in the middle of the colour map and every value has its own colour. -/
theorem C118_diverging : ∀ (zs : List (List F)) (lims : Option F × Option F), (∀ z ∈ zs, z ≠ []) →
    ∃ out, colourLoop true false lims zs = .ok out ∧
      List.Forall₂ (fun z (o : Norm F × (Bool × Bool)) => ∃ m, o.1 = .linear (some (-m)) (some m) ∧
        (∀ x ∈ z, -m ≤ x ∧ x ≤ m) ∧ ∃ x ∈ z, |x| = m) zs out := by
  intro zs
  induction zs with
  | nil => intro _ _; exact ⟨[], rfl, .nil⟩
  | cons z zs ih =>
    intro lims h
    obtain ⟨m, hm, h1, h2⟩ := maxAbs_ok (h z (by simp))
    obtain ⟨out, ho, hf⟩ := ih (some (-m), some m) fun w hw => h w (by simp [hw])
    refine ⟨(.linear (some (-m)) (some m), extends_ lims) :: out, ?_, .cons ⟨m, rfl, ?_, h2⟩ hf⟩
    · simp only [colourLoop, colours, hm, ho, bind, Except.bind, pure, Except.pure, if_true, Bool.false_eq_true, if_false]
    · intro x hx
      exact abs_le.1 (h1 x hx)

/-- C118: likewise on a logarithmic scale, if every panel has a value other than 0; the scale is linear below a
thousandth of the largest magnitude. -/
theorem C118_diverging_log : ∀ (zs : List (List F)) (lims : Option F × Option F), (∀ z ∈ zs, ∃ x ∈ z, x ≠ 0) →
    ∃ out, colourLoop true true lims zs = .ok out ∧
      List.Forall₂ (fun z (o : Norm F × (Bool × Bool)) => ∃ m, 0 < m ∧ o.1 = .symlog (m / 1000) (-m) m ∧
        (∀ x ∈ z, -m ≤ x ∧ x ≤ m) ∧ ∃ x ∈ z, |x| = m) zs out := by
  intro zs
  induction zs with
  | nil => intro _ _; exact ⟨[], rfl, .nil⟩
  | cons z zs ih =>
    intro lims h
    obtain ⟨w, hw, hw0⟩ := h z (by simp)
    obtain ⟨m, hm, h1, h2⟩ := maxAbs_ok (List.ne_nil_of_mem hw)
    have hpos : 0 < m := lt_of_lt_of_le (abs_pos.2 hw0) (h1 w hw)
    have hpos' : 0 < m / 1000 := div_pos hpos (by norm_num)
    obtain ⟨out, ho, hf⟩ := ih (some (-m), some m) fun w hw => h w (by simp [hw])
    refine ⟨(.symlog (m / 1000) (-m) m, extends_ lims) :: out, ?_, .cons ⟨m, hpos, rfl, ?_, h2⟩ hf⟩
    · simp only [colourLoop, colours, hm, ho, bind, Except.bind, pure, Except.pure, if_true, if_pos hpos']
    · intro x hx
      exact abs_le.1 (h1 x hx)

/-- C118: without `diverging` the limits given (by the user, or by `--globalrange`) are used for every panel, and exactly
the ends with a given limit are marked on its colour bar; without a limit the colours reach to the extreme value. -/
theorem C118_limits (logz : Bool) (lo hi : Option F) (zs : List (List F)) :
    colourLoop false logz (lo, hi) zs =
      .ok (zs.map fun _ => (if logz then .log lo hi else .linear lo hi, (lo.isSome, hi.isSome))) := by
  induction zs with
  | nil => rfl
  | cons z zs ih =>
    cases logz <;>
      simp only [colourLoop, colours, ih, extends_, bind, Except.bind, pure, Except.pure, if_true, Bool.false_eq_true,
        if_false, List.map_cons]

end colours

/-- With `diverging` limits given by the user or by `--globalrange` are not used, the panels have different colour ranges,
and the colour bars from the second one on are marked as if there were values outside their range. -/
theorem C118_diverging_fails : colourLoop (F := ℚ) true false (some 0, some 5) [[1, 2], [3, -4]] =
      .ok [(.linear (some (-2)) (some 2), (true, true)), (.linear (some (-4)) (some 4), (true, true))] ∧
    colourLoop (F := ℚ) true false (none, none) [[1, 2], [3, -4]] =
      .ok [(.linear (some (-2)) (some 2), (false, false)), (.linear (some (-4)) (some 4), (true, true))] := by
  decide +kernel

/-! Non-vacuity: two components on 1 × 16 × 3 cells, and their lines. -/
section Ex
def exPlane : List (PlotAxis ℚ) :=
  [⟨[0, 1], 1⟩, ⟨(List.range 17).map fun (i : Nat) => (i : ℚ), 16⟩, ⟨[0, 2, 4, 6], 3⟩]

def exVectors : NArr ℚ := ⟨[1, 16, 3, 2], (List.range 96).map fun (i : Nat) => (i : ℚ)⟩

example : (∀ a ∈ exPlane, a.OK) ∧ IsDataset exPlane 2 exVectors := by
  refine ⟨?_, rfl, rfl⟩
  intro a ha
  simp only [exPlane, List.mem_cons, List.not_mem_nil, or_false] at ha
  rcases ha with rfl | rfl | rfl <;> exact ⟨by decide, by right; rfl⟩

example : (exPlane.filter fun a => decide (1 < a.n)).length = 2 ∧ 15 ≤ ((List.range 17).map fun (i : Nat) => (i : ℚ)).length :=
  by decide +kernel

example : Equidistant ([0, 2, 4, 6] : List ℚ) 2 :=
  ⟨by norm_num, 0, by intro i hi; simp at hi; interval_cases i <;> norm_num⟩
end Ex

end Pgkyl
