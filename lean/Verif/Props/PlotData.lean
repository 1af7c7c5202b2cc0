import Mathlib.Algebra.Order.Field.Basic
import Mathlib.Algebra.Order.Ring.Rat
import Mathlib.Tactic.Ring
import Mathlib.Tactic.Linarith
import Mathlib.Tactic.LinearCombination
import Mathlib.Tactic.NormNum
import Verif.Model.Plot
import Verif.Spec.Plot
import Verif.Lemmas.NArr
/-! # C67, C68: values are drawn where they belong; the common colour range covers them -/

namespace Pgkyl
open Spec Plot NArr

section pos
variable {F : Type} [_root_.Field F]

theorem centres_ok {a : PlotAxis F} (h : a.OK) : ∃ xs, centres (1 / 2 : F) a.nodes a.n = .ok xs ∧
    xs.length = a.n ∧ ∀ i, i < a.n → ∃ x, xs[i]? = some x ∧ a.IsPos i x := by
  obtain ⟨h1, h2 | h2⟩ := h
  · refine ⟨a.nodes, by simp [centres, h2], h2, fun i hi => ?_⟩
    have : i < a.nodes.length := by omega
    exact ⟨_, List.getElem?_eq_getElem this, Or.inl ⟨h2, List.getElem?_eq_getElem this⟩⟩
  · refine ⟨mids (1 / 2) a.nodes, by simp [centres, h2], by simp [mids, h2], fun i hi => ?_⟩
    have e1 : i < a.nodes.length := by omega
    have e2 : i + 1 < a.nodes.length := by omega
    refine ⟨1 / 2 * (a.nodes[i] + a.nodes[i + 1]), ?_, Or.inr ⟨h2, _, _, List.getElem?_eq_getElem e1,
      List.getElem?_eq_getElem e2, by ring⟩⟩
    rw [mids, List.getElem?_zipWith, List.getElem?_dropLast, List.getElem?_tail, if_pos (by omega),
      List.getElem?_eq_getElem e1, List.getElem?_eq_getElem e2]

/-- index bookkeeping of removed directions -/
theorem squeeze_ravel : ∀ (ns rest idx r : List Nat), (∀ n ∈ ns, 1 ≤ n) →
    inRange (ns.filter fun n => decide (1 < n)) idx = true →
    inRange (ns ++ rest) (fullIndex ns idx ++ r) = inRange ((ns.filter fun n => decide (1 < n)) ++ rest) (idx ++ r) ∧
    ravel (ns ++ rest) (fullIndex ns idx ++ r) = ravel ((ns.filter fun n => decide (1 < n)) ++ rest) (idx ++ r) := by
  intro ns rest
  induction ns with
  | nil =>
    intro idx r _ h
    cases idx with
    | nil => simp [fullIndex]
    | cons _ _ => simp [inRange] at h
  | cons n ns ih =>
    intro idx r hns h
    have hns' : ∀ m ∈ ns, 1 ≤ m := fun m hm => hns m (by simp [hm])
    have hprod : (ns ++ rest).prod = ((ns.filter fun n => decide (1 < n)) ++ rest).prod := by
      clear ih h hns
      induction ns with
      | nil => rfl
      | cons m ms ih' =>
        have := hns' m (by simp)
        have ih' := ih' fun k hk => hns' k (by simp [hk])
        by_cases hm : 1 < m
        · simp only [List.cons_append, List.prod_cons, List.filter_cons, hm, decide_true, if_true, ih']
        · have : m = 1 := by omega
          subst this
          simpa using ih'
    by_cases hn : 1 < n
    · simp only [List.filter_cons, hn, decide_true, if_true] at h ⊢
      cases idx with
      | nil => simp [inRange] at h
      | cons i is =>
        simp only [inRange, Bool.and_eq_true, decide_eq_true_eq] at h
        obtain ⟨ih1, ih2⟩ := ih is r hns' h.2
        simp only [fullIndex, hn, if_true, List.headD_cons, List.tail_cons, List.cons_append, inRange, ravel, ih1, ih2,
          hprod, and_self]
    · have : n = 1 := by have := hns n (by simp); omega
      subst this
      simp only [List.filter_cons, Nat.lt_irrefl, decide_false, Bool.false_eq_true, if_false] at h ⊢
      obtain ⟨ih1, ih2⟩ := ih idx r hns' h
      simp only [fullIndex, Nat.lt_irrefl, if_false, List.cons_append, inRange, ravel, ih1, ih2]
      simp

omit [_root_.Field F] in
theorem keepLarge_map {α : Type} (axes : List (PlotAxis F)) (f : PlotAxis F → α) :
    keepLarge (axes.map f) (axes.map (·.n)) = (axes.filter fun a => decide (1 < a.n)).map f := by
  induction axes with
  | nil => rfl
  | cons a as ih =>
    simp only [keepLarge, List.map_cons, List.zip_cons_cons, List.filter_cons] at ih ⊢
    by_cases h : 1 < a.n
    · simp only [h, decide_true, if_true, List.map_cons, ih]
    · simp only [h, decide_false, Bool.false_eq_true, if_false, ih]

omit [_root_.Field F] in
theorem filter_map_n (axes : List (PlotAxis F)) :
    (axes.map (·.n)).filter (fun n => decide (1 < n)) = (axes.filter fun a => decide (1 < a.n)).map (·.n) := by
  induction axes with
  | nil => rfl
  | cons a as ih =>
    simp only [List.map_cons, List.filter_cons]
    by_cases h : 1 < a.n <;> simp [h, ih]

omit [_root_.Field F] in
/-- The data that are drawn: the directions of more than one cell, and the values along them. -/
theorem prepare_ok {axes : List (PlotAxis F)} (hax : ∀ a ∈ axes, a.OK) {nc : Nat} {values : NArr F}
    (hv : IsDataset axes nc values) (hk : (axes.filter fun a => decide (1 < a.n)).length ≤ 2)
    (hne : (axes.filter fun a => decide (1 < a.n)) ≠ []) :
    ∃ v, prepare (axes.map (·.nodes)) (axes.map (·.n)) values =
        .ok ⟨(axes.filter fun a => decide (1 < a.n)).map (·.nodes), (axes.filter fun a => decide (1 < a.n)).map (·.n), v⟩ ∧
      v.WF ∧ v.shape = (axes.filter fun a => decide (1 < a.n)).map (·.n) ++ [nc] ∧
      ∀ idx c, inRange ((axes.filter fun a => decide (1 < a.n)).map (·.n)) idx = true →
        v.get? (idx ++ [c]) = values.get? (fullIndex (axes.map (·.n)) idx ++ [c]) := by
  have hpos : ∀ n ∈ axes.map (·.n), 1 ≤ n := by
    intro n hn
    obtain ⟨a, ha, rfl⟩ := List.mem_map.1 hn
    exact (hax a ha).1
  have hdim : ((axes.map (·.n)).filter fun n => decide (n ≠ 1)) = (axes.map (·.n)).filter fun n => decide (1 < n) := by
    apply List.filter_congr
    intro n hn
    have := hpos n hn
    simp only [decide_eq_decide]
    omega
  have hdims : ((axes.map (·.n)).filter fun n => decide (n ≠ 1)).length =
      (axes.filter fun a => decide (1 < a.n)).length := by
    rw [hdim, filter_map_n, List.length_map]
  have hget : ∀ (v : NArr F), v.data = values.data →
      v.shape = (axes.filter fun a => decide (1 < a.n)).map (·.n) ++ [nc] →
      ∀ idx c, inRange ((axes.filter fun a => decide (1 < a.n)).map (·.n)) idx = true →
        v.get? (idx ++ [c]) = values.get? (fullIndex (axes.map (·.n)) idx ++ [c]) := by
    intro v hd hs idx c hi
    rw [← filter_map_n] at hi hs
    obtain ⟨e1, e2⟩ := squeeze_ravel (axes.map (·.n)) [nc] idx [c] hpos hi
    simp only [get?, hs, hd, hv.shape, e1, e2]
  by_cases hall : (axes.map (·.n)).all (fun n => decide (1 < n)) = true
  · have hf : axes.filter (fun a => decide (1 < a.n)) = axes := by
      rw [List.filter_eq_self]
      intro a ha
      exact List.all_eq_true.1 hall _ (List.mem_map_of_mem ha)
    refine ⟨values, ?_, hv.wf, by rw [hf]; exact hv.shape, hget values rfl (by rw [hf]; exact hv.shape)⟩
    rw [hf] at hk hdims
    unfold prepare prepareDims
    simp only [hdims, List.length_map, hf]
    rw [if_neg (by omega), if_neg (by omega)]
  · have hlt : (axes.filter fun a => decide (1 < a.n)).length < axes.length := by
      rcases Nat.lt_or_ge (axes.filter fun a : PlotAxis F => decide (1 < a.n)).length axes.length with h | h
      · exact h
      · exfalso
        apply hall
        have := List.filter_sublist (p := fun a : PlotAxis F => decide (1 < a.n)) (l := axes)
        have he := this.eq_of_length_le h
        rw [List.all_eq_true]
        intro n hn
        obtain ⟨a, ha, rfl⟩ := List.mem_map.1 hn
        rw [← he] at ha
        exact (List.mem_filter.1 ha).2
    have hsq : squeezeValues values (axes.map (·.n)) =
        .ok ⟨(axes.filter fun a => decide (1 < a.n)).map (·.n) ++ [nc], values.data⟩ := by
      unfold squeezeValues
      rw [if_pos, hv.shape]
      · rw [List.take_left' (by simp), List.drop_left' (by simp), keepLarge_map]
      · rw [hv.shape, List.all_eq_true]
        intro p hp
        have : List.zip (axes.map (·.n) ++ [nc]) (axes.map (·.n)) = axes.map fun a => (a.n, a.n) := by
          clear * -
          induction axes with
          | nil => rfl
          | cons a as ih => simp only [List.map_cons, List.cons_append, List.zip_cons_cons, ih]
        rw [this] at hp
        obtain ⟨a, ha, rfl⟩ := List.mem_map.1 hp
        have := (hax a ha).1
        simp only [decide_eq_true_eq]
        omega
    refine ⟨⟨(axes.filter fun a => decide (1 < a.n)).map (·.n) ++ [nc], values.data⟩, ?_, ?_, rfl, hget _ rfl rfl⟩
    · unfold prepare prepareDims
      simp only [hdims, List.length_map]
      rw [if_neg (by omega), if_pos hlt, if_neg (by simpa using hall)]
      simp only [hsq, keepLarge_map, bind, Except.bind, pure, Except.pure]
      rw [if_neg (by simpa using hne), filter_map_n]
    · have hw := hv.wf
      simp only [WF, hv.shape] at hw ⊢
      rw [hw, ← filter_map_n]
      have : ∀ ns : List Nat, (∀ n ∈ ns, 1 ≤ n) →
          (ns ++ [nc]).prod = ((ns.filter fun n => decide (1 < n)) ++ [nc]).prod := by
        intro ns
        induction ns with
        | nil => intro _; rfl
        | cons m ms ih =>
          intro h
          have hm1 := h m (by simp)
          have ih := ih fun k hk => h k (by simp [hk])
          by_cases hm : 1 < m
          · simp only [List.cons_append, List.prod_cons, List.filter_cons, hm, decide_true, if_true, ih]
          · have : m = 1 := by omega
            subst this
            simpa using ih
      exact this _ hpos

theorem nodalGrid_ok {axes : List (PlotAxis F)} (hax : ∀ a ∈ axes, a.OK) :
    ∃ g, nodalGrid (1 / 2 : F) (axes.map (·.nodes)) (axes.map (·.n)) = .ok g ∧
      List.Forall₂ (fun (a : PlotAxis F) xs => xs.length = a.n ∧ ∀ i, i < a.n → ∃ x, xs[i]? = some x ∧ a.IsPos i x)
        axes g := by
  unfold nodalGrid
  rw [if_neg (by simp)]
  induction axes with
  | nil => exact ⟨[], rfl, .nil⟩
  | cons a as ih =>
    obtain ⟨xs, h1, h2⟩ := centres_ok (hax a (by simp))
    obtain ⟨g, h3, h4⟩ := ih fun b hb => hax b (by simp [hb])
    refine ⟨xs :: g, ?_, .cons h2 h4⟩
    simp only [List.map_cons, List.zip_cons_cons, List.mapM_cons, h1, h3]
    rfl

/-- C67: one-dimensional data (any number of directions, all but one with a single cell) are drawn as one point per
value: the abscissa is the position of the value, the ordinate the value, both shifted and scaled as asked. -/
theorem C67_line {axes : List (PlotAxis F)} (hax : ∀ a ∈ axes, a.OK) {nc : Nat} {values : NArr F}
    (hv : IsDataset axes nc values) {a : PlotAxis F} (ha : axes.filter (fun a => decide (1 < a.n)) = [a])
    (s : Scales F) {comp : Nat} (hc : comp < nc) :
    ∃ p xs ys, prepare (axes.map (·.nodes)) (axes.map (·.n)) values = .ok p ∧ line (1 / 2) s p comp = .ok (xs, ys) ∧
      xs.length = a.n ∧ ys.length = a.n ∧
      ∀ i, i < a.n → ∃ x v, a.IsPos i x ∧ values.get? (fullIndex (axes.map (·.n)) [i] ++ [comp]) = some v ∧
        xs[i]? = some ((x + s.xshift) * s.xscale) ∧ ys[i]? = some ((v + s.yshift) * s.yscale) := by
  obtain ⟨v, hp, hw, hs, hg⟩ := prepare_ok hax hv (by rw [ha]; simp) (by rw [ha]; simp)
  rw [ha] at hp hs hg
  have haok : a.OK := hax a (List.mem_of_mem_filter (by rw [ha]; simp))
  obtain ⟨g, hng, hfa⟩ := nodalGrid_ok (axes := [a]) (by simpa using haok)
  obtain ⟨xs, rfl⟩ : ∃ xs, g = [xs] := by
    cases hfa with
    | cons h t => cases t; exact ⟨_, rfl⟩
  obtain ⟨hlen, hpos⟩ : xs.length = a.n ∧ ∀ i, i < a.n → ∃ x, xs[i]? = some x ∧ a.IsPos i x := by
    cases hfa with
    | cons h t => exact h
  have hsh : v.shape = [a.n, nc] := hs
  have hsome : ∀ idx, inRange [a.n] idx = true → (v.get? (idx ++ [comp])).isSome := by
    intro idx hi
    apply get?_isSome hw
    rw [hsh]
    rw [inRange_iff_forall₂] at hi ⊢
    exact List.rel_append hi (List.Forall₂.cons hc .nil)
  have hcomp : component v comp = NArr.ofFn [a.n] fun idx => v.get? (idx ++ [comp]) := by
    simp [component, hsh]
  have hcw : (component v comp).WF := by rw [hcomp]; exact ofFn_WF hsome
  have hcs : (component v comp).shape = [a.n] := by rw [hcomp]; rfl
  refine ⟨_, xs.map (place s.xshift s.xscale), (component v comp).data.map (place s.yshift s.yscale), hp, ?_, by simpa,
    ?_, ?_⟩
  · simp only [line]
    rw [hng]
    rfl
  · rw [List.length_map, hcw, hcs]; simp
  · intro i hi
    obtain ⟨x, hx, hxp⟩ := hpos i hi
    have hir : inRange [a.n] [i] = true := by simp [inRange, hi]
    have h1 : (component v comp).get? [i] = v.get? ([i] ++ [comp]) := by rw [hcomp]; exact ofFn_get? hsome hir
    have h2 : (component v comp).get? [i] = (component v comp).data[i]? := by
      simp only [get?, hcs, hir, if_true, ravel, List.prod_nil, Nat.mul_one, Nat.add_zero]
    obtain ⟨y, hy⟩ := Option.isSome_iff_exists.1 (hsome [i] hir)
    refine ⟨x, y, hxp, ?_, ?_, ?_⟩
    · rw [← hg [i] comp (by simpa using hir), hy]
    · simp [hx, place]
    · rw [List.getElem?_map, ← h2, h1, hy]; rfl

theorem zValues_ok {v : NArr F} (hw : v.WF) {m n nc : Nat} (hs : v.shape = [m, n, nc]) (s : Scales F) {comp : Nat}
    (hc : comp < nc) : (zValues s v comp).WF ∧ (zValues s v comp).shape = [n, m] ∧
      ∀ i j, i < m → j < n → ∃ x, v.get? [i, j, comp] = some x ∧
        (zValues s v comp).get? [j, i] = some ((x + s.zshift) * s.zscale) := by
  have hz : zValues s v comp = NArr.ofFn [n, m] fun idx => (v.get? (idx.reverse ++ [comp])).map
      (place s.zshift s.zscale) := by simp [zValues, hs]
  have hsome' : ∀ i j, i < m → j < n → (v.get? [i, j, comp]).isSome := by
    intro i j hi hj
    apply get?_isSome hw
    simp [hs, inRange, hi, hj, hc]
  have hsome : ∀ idx, inRange [n, m] idx = true →
      ((v.get? (idx.reverse ++ [comp])).map (place s.zshift s.zscale)).isSome := by
    intro idx h
    have hl := inRange_length h
    match idx, hl, h with
    | [j, i], _, h =>
      simp only [inRange, Bool.and_true, Bool.and_eq_true, decide_eq_true_eq] at h
      rw [Option.isSome_map]
      exact hsome' i j h.2 h.1
  rw [hz]
  refine ⟨ofFn_WF hsome, rfl, fun i j hi hj => ?_⟩
  obtain ⟨x, hx⟩ := Option.isSome_iff_exists.1 (hsome' i j hi hj)
  refine ⟨x, hx, ?_⟩
  rw [ofFn_get? hsome (by simp [inRange, hi, hj])]
  show (v.get? [i, j, comp]).map _ = _
  rw [hx]
  rfl

/-- C67: contours of two-dimensional data: the value at row `j` and column `i` of the matrix handed over is the value
of cell `(i, j)`, and its position is that of the cell. -/
theorem C67_contour {axes : List (PlotAxis F)} (hax : ∀ a ∈ axes, a.OK) {nc : Nat} {values : NArr F}
    (hv : IsDataset axes nc values) {a b : PlotAxis F} (ha : axes.filter (fun a => decide (1 < a.n)) = [a, b])
    (s : Scales F) {comp : Nat} (hc : comp < nc) :
    ∃ p xs ys z, prepare (axes.map (·.nodes)) (axes.map (·.n)) values = .ok p ∧
      contour (1 / 2) s p comp = .ok (xs, ys, z) ∧ xs.length = a.n ∧ ys.length = b.n ∧ z.WF ∧ z.shape = [b.n, a.n] ∧
      ∀ i j, i < a.n → j < b.n → ∃ x y v, a.IsPos i x ∧ b.IsPos j y ∧
        values.get? (fullIndex (axes.map (·.n)) [i, j] ++ [comp]) = some v ∧
        xs[i]? = some ((x + s.xshift) * s.xscale) ∧ ys[j]? = some ((y + s.yshift) * s.yscale) ∧
        z.get? [j, i] = some ((v + s.zshift) * s.zscale) := by
  obtain ⟨v, hp, hw, hs, hg⟩ := prepare_ok hax hv (by rw [ha]; simp) (by rw [ha]; simp)
  rw [ha] at hp hs hg
  have hin : ∀ c ∈ [a, b], c.OK := fun c hc => hax c (List.mem_of_mem_filter (by rw [ha]; exact hc))
  obtain ⟨g, hng, hfa⟩ := nodalGrid_ok (axes := [a, b]) hin
  obtain ⟨xs, ys, rfl, ⟨hxl, hxp⟩, hyl, hyp⟩ : ∃ xs ys, g = [xs, ys] ∧
      (xs.length = a.n ∧ ∀ i, i < a.n → ∃ x, xs[i]? = some x ∧ a.IsPos i x) ∧
      (ys.length = b.n ∧ ∀ i, i < b.n → ∃ x, ys[i]? = some x ∧ b.IsPos i x) := by
    cases hfa with
    | cons h t => cases t with
      | cons h' t' => cases t'; exact ⟨_, _, rfl, h, h'⟩
  obtain ⟨zw, zs, zg⟩ := zValues_ok hw (show v.shape = [a.n, b.n, nc] from hs) s hc
  refine ⟨_, xs.map (place s.xshift s.xscale), ys.map (place s.yshift s.yscale), zValues s v comp, hp, ?_, by simpa,
    by simpa, zw, zs, ?_⟩
  · simp only [contour]
    rw [hng]
    rfl
  · intro i j hi hj
    obtain ⟨x, hx, hx'⟩ := hxp i hi
    obtain ⟨y, hy, hy'⟩ := hyp j hj
    obtain ⟨w, hw1, hw2⟩ := zg i j hi hj
    refine ⟨x, y, w, hx', hy', ?_, by simp [hx, place], by simp [hy, place], hw2⟩
    rw [← hg [i, j] comp (by simp [inRange, hi, hj]), ← hw1]
    rfl

/-- C67: colour plots of two-dimensional cell data: the nodes of both directions are handed over, so that the value at
row `j` and column `i` of the matrix fills the cell `(i, j)`, of which it is the value. -/
theorem C67_mesh {axes : List (PlotAxis F)} (hax : ∀ a ∈ axes, a.OK) {nc : Nat} {values : NArr F}
    (hv : IsDataset axes nc values) {a b : PlotAxis F} (ha : axes.filter (fun a => decide (1 < a.n)) = [a, b])
    (hca : a.nodes.length = a.n + 1) (hcb : b.nodes.length = b.n + 1)
    (s : Scales F) {comp : Nat} (hc : comp < nc) :
    ∃ p z, prepare (axes.map (·.nodes)) (axes.map (·.n)) values = .ok p ∧
      mesh (1 / 2) s p comp = .ok (a.nodes.map (fun x => (x + s.xshift) * s.xscale),
        b.nodes.map (fun y => (y + s.yshift) * s.yscale), z) ∧ z.WF ∧ z.shape = [b.n, a.n] ∧
      ∀ i j, i < a.n → j < b.n → ∃ v, values.get? (fullIndex (axes.map (·.n)) [i, j] ++ [comp]) = some v ∧
        z.get? [j, i] = some ((v + s.zshift) * s.zscale) := by
  obtain ⟨v, hp, hw, hs, hg⟩ := prepare_ok hax hv (by rw [ha]; simp) (by rw [ha]; simp)
  rw [ha] at hp hs hg
  obtain ⟨zw, zs, zg⟩ := zValues_ok hw (show v.shape = [a.n, b.n, nc] from hs) s hc
  refine ⟨_, zValues s v comp, hp, ?_, zw, zs, ?_⟩
  · simp only [mesh, List.map_cons, zs, List.getElem?_cons_succ, List.getElem?_cons_zero, Option.some.injEq, hca, hcb]
    rw [if_neg (by omega)]
    rfl
  · intro i j hi hj
    obtain ⟨w, hw1, hw2⟩ := zg i j hi hj
    refine ⟨w, ?_, hw2⟩
    rw [← hg [i, j] comp (by simp [inRange, hi, hj]), ← hw1]
    rfl

/-- C67: if the values of one of the directions live on its nodes, positions of values are handed over. -/
theorem C67_mesh_nodal {axes : List (PlotAxis F)} (hax : ∀ a ∈ axes, a.OK) {nc : Nat} {values : NArr F}
    (hv : IsDataset axes nc values) {a b : PlotAxis F} (ha : axes.filter (fun a => decide (1 < a.n)) = [a, b])
    (hn : a.nodes.length = a.n ∨ b.nodes.length = b.n) (s : Scales F) {comp : Nat} (hc : comp < nc) :
    ∃ p, prepare (axes.map (·.nodes)) (axes.map (·.n)) values = .ok p ∧
      mesh (1 / 2) s p comp = contour (1 / 2) s p comp := by
  obtain ⟨v, hp, hw, hs, hg⟩ := prepare_ok hax hv (by rw [ha]; simp) (by rw [ha]; simp)
  rw [ha] at hp hs hg
  obtain ⟨zw, zs, zg⟩ := zValues_ok hw (show v.shape = [a.n, b.n, nc] from hs) s hc
  refine ⟨_, hp, ?_⟩
  simp only [mesh, List.map_cons, zs, List.getElem?_cons_succ, List.getElem?_cons_zero, Option.some.injEq]
  rw [if_pos hn]

omit [_root_.Field F] in
/-- Data with more than two directions of more than one cell are rejected. -/
theorem C67_three_dims_rejected {axes : List (PlotAxis F)}
    (h : 2 < (axes.filter fun a => decide (1 < a.n)).length) (values : NArr F) :
    prepare (axes.map (·.nodes)) (axes.map (·.n)) values = .error .valueError := by
  unfold prepare prepareDims
  simp only
  rw [if_pos]
  refine lt_of_lt_of_le h ?_
  rw [← List.length_map (f := (·.n)), ← filter_map_n]
  have : (axes.map (·.n)).filter (fun n => decide (1 < n)) =
      ((axes.map (·.n)).filter fun n => decide (n ≠ 1)).filter fun n => decide (1 < n) := by
    rw [List.filter_filter]
    apply List.filter_congr
    intro n _
    by_cases h : 1 < n
    · have : n ≠ 1 := by omega
      simp [h, this]
    · simp [h]
  rw [this]
  exact List.length_filter_le _ _

/-- C67 on mapped grids: the position given to a value is the mean of two opposite corners of its cell.  It is the mean
of all four corners whenever the cell is a parallelogram. -/
theorem C67_mapped [CharZero F] {g : NArr F} (hw : g.WF) {m n : Nat} (hs : g.shape = [m + 1, n + 1]) {d : Nat}
    (hd : d < 2) : ∃ c, centres2 (1 / 2) g d ([m, n].getD d 0) = .ok c ∧ c.WF ∧ c.shape = [m, n] ∧
      ∀ i j, i < m → j < n → ∃ x₀₀ x₁₀ x₀₁ x₁₁, g.get? [i, j] = some x₀₀ ∧ g.get? [i + 1, j] = some x₁₀ ∧
        g.get? [i, j + 1] = some x₀₁ ∧ g.get? [i + 1, j + 1] = some x₁₁ ∧ c.get? [i, j] = some ((x₀₀ + x₁₁) / 2) ∧
        (x₀₀ + x₁₁ = x₁₀ + x₀₁ → c.get? [i, j] = some ((x₀₀ + x₁₀ + x₀₁ + x₁₁) / 4)) := by
  have hget : ∀ i j, i < m + 1 → j < n + 1 → ∃ x, g.get? [i, j] = some x := fun i j hi hj =>
    Option.isSome_iff_exists.1 (get?_isSome hw (by simp [hs, inRange, hi, hj]))
  have hdm : diagMean (1 / 2) g = NArr.ofFn [m, n] fun idx =>
      match idx with
      | [i, j] => do
        let a ← g.get? [i, j]
        let b ← g.get? [i + 1, j + 1]
        return 1 / 2 * (a + b)
      | _ => none := by
    unfold diagMean
    rw [hs]
    rfl
  have hsome : ∀ idx, inRange [m, n] idx = true → ((match idx with
      | [i, j] => do
        let a ← g.get? [i, j]
        let b ← g.get? [i + 1, j + 1]
        return 1 / 2 * (a + b)
      | _ => none : Option F)).isSome := by
    intro idx h
    have hl := inRange_length h
    match idx, hl, h with
    | [i, j], _, h =>
      simp only [inRange, Bool.and_true, Bool.and_eq_true, decide_eq_true_eq] at h
      obtain ⟨x, hx⟩ := hget i j (by omega) (by omega)
      obtain ⟨y, hy⟩ := hget (i + 1) (j + 1) (by omega) (by omega)
      simp [hx, hy]
  refine ⟨diagMean (1 / 2) g, ?_, ?_, ?_, ?_⟩
  · unfold centres2
    rcases (by omega : d = 0 ∨ d = 1) with rfl | rfl <;> simp [hs]
  · rw [hdm]; exact ofFn_WF hsome
  · rw [hdm]; rfl
  · intro i j hi hj
    obtain ⟨x₀₀, h₀₀⟩ := hget i j (by omega) (by omega)
    obtain ⟨x₁₀, h₁₀⟩ := hget (i + 1) j (by omega) (by omega)
    obtain ⟨x₀₁, h₀₁⟩ := hget i (j + 1) (by omega) (by omega)
    obtain ⟨x₁₁, h₁₁⟩ := hget (i + 1) (j + 1) (by omega) (by omega)
    have hc : (diagMean (1 / 2) g).get? [i, j] = some ((x₀₀ + x₁₁) / 2) := by
      rw [hdm, ofFn_get? hsome (by simp [inRange, hi, hj])]
      simp [h₀₀, h₁₁]
      ring
    refine ⟨x₀₀, x₁₀, x₀₁, x₁₁, h₀₀, h₁₀, h₀₁, h₁₁, hc, fun he => ?_⟩
    rw [hc]
    congr 1
    linear_combination (1 / 4 : F) * he

end pos

/-! ## The common colour range -/

section range
variable {F : Type} [_root_.Field F] [LinearOrder F]

omit [_root_.Field F] in
theorem minOf_spec {l : List F} (h : l ≠ []) : ∃ m, minOf l = .ok m ∧ m ∈ l ∧ ∀ x ∈ l, m ≤ x := by
  cases l with
  | nil => exact absurd rfl h
  | cons x xs =>
    refine ⟨_, rfl, ?_⟩
    clear h
    induction xs generalizing x with
    | nil => simp
    | cons y ys ih =>
      simp only [List.foldl_cons]
      obtain ⟨h1, h2⟩ := ih (if y < x then y else x)
      refine ⟨?_, ?_⟩
      · rcases List.mem_cons.1 h1 with h | h
        · rw [h]; split <;> simp
        · simp [h]
      · have h0 := h2 _ (List.mem_cons_self)
        intro z hz
        simp only [List.mem_cons] at hz
        rcases hz with rfl | rfl | hz
        · refine h0.trans ?_
          split
          · rename_i h; exact h.le
          · exact le_rfl
        · refine h0.trans ?_
          split
          · exact le_rfl
          · rename_i h; exact not_lt.1 h
        · exact h2 z (by simp [hz])

omit [_root_.Field F] in
theorem maxOf_spec {l : List F} (h : l ≠ []) : ∃ m, maxOf l = .ok m ∧ m ∈ l ∧ ∀ x ∈ l, x ≤ m := by
  cases l with
  | nil => exact absurd rfl h
  | cons x xs =>
    refine ⟨_, rfl, ?_⟩
    clear h
    induction xs generalizing x with
    | nil => simp
    | cons y ys ih =>
      simp only [List.foldl_cons]
      obtain ⟨h1, h2⟩ := ih (if x < y then y else x)
      refine ⟨?_, ?_⟩
      · rcases List.mem_cons.1 h1 with h | h
        · rw [h]; split <;> simp
        · simp [h]
      · have h0 := h2 _ (List.mem_cons_self)
        intro z hz
        simp only [List.mem_cons] at hz
        rcases hz with rfl | rfl | hz
        · refine le_trans ?_ h0
          split
          · rename_i h; exact h.le
          · exact le_rfl
        · refine le_trans ?_ h0
          split
          · exact le_rfl
          · rename_i h; exact not_lt.1 h
        · exact h2 z (by simp [hz])

/-- the running range -/
theorem widen_fold (zscale : F) : ∀ (ds : List (List F)) (r : Option (F × F)), (∀ d ∈ ds, d ≠ []) →
    (r = none → ds ≠ []) →
    ∃ lo hi, ds.foldlM (widen zscale) r = .ok (some (lo, hi)) ∧
      (∀ d ∈ ds, ∀ x ∈ d, lo ≤ x * zscale ∧ x * zscale ≤ hi) ∧
      (∀ a b, r = some (a, b) → lo ≤ a ∧ b ≤ hi) ∧
      ((∃ d ∈ ds, ∃ x ∈ d, lo = x * zscale) ∨ ∃ b, r = some (lo, b)) ∧
      ((∃ d ∈ ds, ∃ x ∈ d, hi = x * zscale) ∨ ∃ a, r = some (a, hi)) := by
  intro ds
  induction ds with
  | nil =>
    intro r _ h
    cases r with
    | none => exact absurd rfl (h rfl)
    | some r =>
      obtain ⟨a, b⟩ := r
      exact ⟨a, b, rfl, by simp, by rintro a' b' h; cases h; simp, Or.inr ⟨b, rfl⟩, Or.inr ⟨a, rfl⟩⟩
  | cons d ds ih =>
    intro r hne _
    have hd : d.map (· * zscale) ≠ [] := by simpa using hne d (by simp)
    obtain ⟨m, hm, hm1, hm2⟩ := minOf_spec hd
    obtain ⟨M, hM, hM1, hM2⟩ := maxOf_spec hd
    obtain ⟨xm, hxm, exm⟩ := List.mem_map.1 hm1
    obtain ⟨xM, hxM, exM⟩ := List.mem_map.1 hM1
    have hnew : ∃ a b, widen zscale r d = .ok (some (a, b)) ∧ a ≤ m ∧ M ≤ b ∧
        (∀ a' b', r = some (a', b') → a ≤ a' ∧ b' ≤ b) ∧ (a = m ∨ ∃ b', r = some (a, b')) ∧
        (b = M ∨ ∃ a', r = some (a', b)) := by
      cases r with
      | none =>
        refine ⟨m, M, ?_, le_rfl, le_rfl, by simp, Or.inl rfl, Or.inl rfl⟩
        simp [widen, hm, hM, bind, Except.bind, pure, Except.pure]
      | some r =>
        obtain ⟨a, b⟩ := r
        refine ⟨if m < a then m else a, if b < M then M else b, ?_, ?_, ?_, ?_, ?_, ?_⟩
        · simp [widen, hm, hM, bind, Except.bind, pure, Except.pure]
        · split
          · exact le_rfl
          · rename_i h; exact not_lt.1 h
        · split
          · exact le_rfl
          · rename_i h; exact not_lt.1 h
        · rintro a' b' h
          cases h
          constructor
          · split
            · rename_i h; exact h.le
            · exact le_rfl
          · split
            · rename_i h; exact h.le
            · exact le_rfl
        · split
          · exact Or.inl rfl
          · exact Or.inr ⟨_, rfl⟩
        · split
          · exact Or.inl rfl
          · exact Or.inr ⟨_, rfl⟩
    obtain ⟨a, b, hw, ha, hb, hab, ea, eb⟩ := hnew
    obtain ⟨lo, hi, h1, h2, h3, h4, h5⟩ := ih (some (a, b)) (fun d hd => hne d (by simp [hd])) (by simp)
    obtain ⟨hla, hbh⟩ := h3 a b rfl
    refine ⟨lo, hi, ?_, ?_, ?_, ?_, ?_⟩
    · rw [List.foldlM_cons, hw]; exact h1
    · intro e he x hx
      rcases List.mem_cons.1 he with rfl | he
      · exact ⟨(hla.trans ha).trans (hm2 _ (List.mem_map_of_mem hx)), (hM2 _ (List.mem_map_of_mem hx)).trans (hb.trans hbh)⟩
      · exact h2 e he x hx
    · intro a' b' h
      obtain ⟨e1, e2⟩ := hab a' b' h
      exact ⟨hla.trans e1, e2.trans hbh⟩
    · rcases h4 with ⟨e, he, x, hx, h⟩ | ⟨b', h⟩
      · exact Or.inl ⟨e, by simp [he], x, hx, h⟩
      · cases h
        rcases ea with rfl | ⟨b', h⟩
        · exact Or.inl ⟨d, by simp, xm, hxm, exm.symm⟩
        · exact Or.inr ⟨b', h⟩
    · rcases h5 with ⟨e, he, x, hx, h⟩ | ⟨b', h⟩
      · exact Or.inl ⟨e, by simp [he], x, hx, h⟩
      · cases h
        rcases eb with rfl | ⟨b', h⟩
        · exact Or.inl ⟨d, by simp, xM, hxM, exM.symm⟩
        · exact Or.inr ⟨b', h⟩

/-- C68 for plots without a shift of the values (`zshift` is ignored by the code): with `--globalrange` the colour
range of every plot contains every plotted value `(x + zshift) * zscale` of every dataset, and both ends are plotted
values. -/
theorem C68_global_range_partial {datasets : List (List F)} (hne : ∀ d ∈ datasets, d ≠ []) (h0 : datasets ≠ [])
    (zscale : F) {zshift : F} (hz : zshift = 0) :
    ∃ lo hi, globalRange zscale none none datasets = .ok (some lo, some hi) ∧
      (∀ d ∈ datasets, ∀ x ∈ d, lo ≤ (x + zshift) * zscale ∧ (x + zshift) * zscale ≤ hi) ∧
      (∃ d ∈ datasets, ∃ x ∈ d, lo = (x + zshift) * zscale) ∧
      (∃ d ∈ datasets, ∃ x ∈ d, hi = (x + zshift) * zscale) := by
  subst hz
  obtain ⟨lo, hi, h1, h2, -, h4, h5⟩ := widen_fold zscale datasets none hne (fun _ => h0)
  refine ⟨lo, hi, ?_, by simpa using h2, ?_, ?_⟩
  · simp [globalRange, h1, bind, Except.bind, pure, Except.pure]
  · rcases h4 with h | ⟨b, h⟩
    · simpa using h
    · cases h
  · rcases h5 with h | ⟨b, h⟩
    · simpa using h
    · cases h

/-- C68: limits given by the user are kept. -/
theorem C68_user_limits {datasets : List (List F)} (hne : ∀ d ∈ datasets, d ≠ []) (h0 : datasets ≠ [])
    (zscale lo hi : F) : globalRange zscale (some lo) (some hi) datasets = .ok (some lo, some hi) := by
  obtain ⟨a, b, h1, -⟩ := widen_fold zscale datasets none hne (fun _ => h0)
  simp [globalRange, h1, bind, Except.bind, pure, Except.pure]

/-- Full C68 is false of the code: with a shift of the values the range is that of the unshifted values.  One dataset
with the values 0 and 1, shifted by 5: the range is 0 to 1, the plotted values are 5 and 6. -/
theorem C68_shift_fails : globalRange (1 : ℚ) none none [[0, 1]] = .ok (some 0, some 1) ∧
    ¬ ((0 + 5) * 1 : ℚ) ≤ 1 := by
  refine ⟨?_, by norm_num⟩
  obtain ⟨lo, hi, h, h2, ⟨d, hd, x, hx, e⟩, ⟨d', hd', x', hx', e'⟩⟩ := C68_global_range_partial (F := ℚ)
    (datasets := [[0, 1]]) (by simp) (by simp) 1 (zshift := 0) rfl
  have := h2 [0, 1] (by simp)
  have a0 := this 0 (by simp)
  have a1 := this 1 (by simp)
  simp only [List.mem_singleton] at hd hd'
  subst hd hd'
  simp only [List.mem_cons, List.not_mem_nil, or_false] at hx hx'
  rw [h]
  rcases hx with rfl | rfl <;> rcases hx' with rfl | rfl <;> simp_all <;> linarith

end range

/-! Non-vacuity: a 3 × 1 × 2 dataset with one component, cell data along the first and nodal data along the last
direction. -/
namespace PlotEx

def ax : PlotAxis ℚ := ⟨[0, 1, 2, 4], 3⟩
def ay : PlotAxis ℚ := ⟨[0, 1], 1⟩
def az : PlotAxis ℚ := ⟨[5, 7], 2⟩
def vals : NArr ℚ := ⟨[3, 1, 2, 1], [1, 2, 3, 4, 5, 6]⟩

theorem ok : ∀ a ∈ [ax, ay, az], a.OK := by
  simp [PlotAxis.OK, ax, ay, az]

theorem isD : IsDataset [ax, ay, az] 1 vals := ⟨rfl, rfl⟩

def s : Scales ℚ := ⟨0, 1, 0, 1, 0, 1⟩

example : ∃ p xs ys z, prepare ([ax, ay, az].map (·.nodes)) ([ax, ay, az].map (·.n)) vals = .ok p ∧
    contour (1 / 2) s p 0 = .ok (xs, ys, z) ∧ z.get? [1, 2] = some 6 ∧ xs[2]? = some 3 := by
  obtain ⟨p, xs, ys, z, h1, h2, -, -, -, -, h3⟩ := C67_contour ok isD (a := ax) (b := az) (by simp [ax, ay, az]) s
    (comp := 0) (by decide)
  refine ⟨p, xs, ys, z, h1, h2, ?_⟩
  obtain ⟨x, y, v, hx, hy, hv, e1, e2, e3⟩ := h3 2 1 (by decide) (by decide)
  have hv' : v = 6 := by
    have : vals.get? (fullIndex ([ax, ay, az].map (·.n)) [2, 1] ++ [0]) = some 6 := by decide +kernel
    rw [this] at hv
    exact (Option.some.inj hv).symm
  have hx' : x = 3 := by
    rcases hx with ⟨h, -⟩ | ⟨-, l, r, hl, hr, rfl⟩
    · simp [ax] at h
    · simp [ax] at hl hr
      subst hl hr
      norm_num
  subst hv' hx'
  exact ⟨by rw [e3]; norm_num [s], by rw [e1]; norm_num [s]⟩

example : ∃ p xs ys, prepare ([ay, ax].map (·.nodes)) ([ay, ax].map (·.n)) (⟨[1, 3, 1], [1, 2, 3]⟩ : NArr ℚ) = .ok p ∧
    line (1 / 2) s p 0 = .ok (xs, ys) ∧ xs.length = 3 ∧ ys.length = 3 := by
  obtain ⟨p, xs, ys, h1, h2, h3, h4, -⟩ := C67_line (axes := [ay, ax]) (by simp [PlotAxis.OK, ax, ay])
    (values := ⟨[1, 3, 1], [1, 2, 3]⟩) (nc := 1) ⟨rfl, rfl⟩ (a := ax) (by simp [ax, ay]) s (comp := 0) (by decide)
  exact ⟨p, xs, ys, h1, h2, h3, h4⟩

example : ∃ p z, prepare ([ax, ax].map (·.nodes)) ([ax, ax].map (·.n))
    (⟨[3, 3, 1], [1, 2, 3, 4, 5, 6, 7, 8, 9]⟩ : NArr ℚ) = .ok p ∧
    mesh (1 / 2) s p 0 = .ok (ax.nodes.map (fun x => (x + 0) * 1), ax.nodes.map (fun x => (x + 0) * 1), z) ∧
    z.shape = [3, 3] := by
  obtain ⟨p, z, h1, h2, -, h3, -⟩ := C67_mesh (axes := [ax, ax]) (by simp [PlotAxis.OK, ax])
    (values := ⟨[3, 3, 1], [1, 2, 3, 4, 5, 6, 7, 8, 9]⟩) (nc := 1) ⟨rfl, rfl⟩ (a := ax) (b := ax) (by simp [ax])
    rfl rfl s (comp := 0) (by decide)
  exact ⟨p, z, h1, h2, h3⟩

end PlotEx
end Pgkyl
