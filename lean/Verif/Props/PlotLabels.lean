import Mathlib.Algebra.Order.Ring.Rat
import Mathlib.Tactic.Ring
import Verif.Model.PlotKinds
import Verif.Spec.PlotKinds
/-! # C115: axis labels name the directions that are drawn, with the shift and scale that are applied -/

namespace Pgkyl
open Spec Plot

theorem deleteSmall_range (f : Nat → Text) : ∀ (cells : List Nat) (a n : Nat), cells.length ≤ n →
    deleteSmall ((List.range' a n).map f) cells =
      ((cells.zipIdx a).filter fun p => decide (1 < p.1)).map (fun p => f p.2) ++
        (List.range' (a + cells.length) (n - cells.length)).map f := by
  intro cells
  induction cells with
  | nil => intro a n _; simp [deleteSmall]
  | cons c cs ih =>
    intro a n hn
    obtain ⟨m, rfl⟩ : ∃ m, n = m + 1 := ⟨n - 1, by simp at hn; omega⟩
    have hm : cs.length ≤ m := by simpa using hn
    have e : a + (cs.length + 1) = a + 1 + cs.length := by omega
    have e' : m + 1 - (cs.length + 1) = m - cs.length := by omega
    rw [List.range'_succ, List.map_cons, deleteSmall, ih (a + 1) m hm]
    simp only [List.zipIdx_cons, List.length_cons, e, e']
    by_cases h : c ≤ 1
    · rw [if_pos h, List.filter_cons_of_neg (by simpa using h)]
    · rw [if_neg h, List.filter_cons_of_pos (by simpa using Nat.lt_of_not_le h)]
      rfl

theorem deleteSmall_all {α : Type} : ∀ (cells : List Nat) (l : List α), (∀ c ∈ cells, 1 < c) →
    deleteSmall l cells = l := by
  intro cells
  induction cells with
  | nil => intro l _; cases l <;> rfl
  | cons c cs ih =>
    intro l h
    have hc := h c (by simp)
    cases l with
    | nil => rfl
    | cons x l =>
      rw [deleteSmall, if_neg (by omega), ih l fun d hd => h d (by simp [hd])]

theorem labelsLeft_eq {cells : List Nat} (hpos : ∀ c ∈ cells, 1 ≤ c) :
    labelsLeft cells.length cells = deleteSmall axesLabels cells := by
  unfold labelsLeft
  split
  · rfl
  · rename_i h
    have hle : cells.length ≤ (cells.filter fun c => decide (c ≠ 1)).length := by omega
    have he := (List.filter_sublist (p := fun c => decide (c ≠ 1)) (l := cells)).eq_of_length_le hle
    rw [deleteSmall_all]
    intro c hc
    have h1 := hpos c hc
    rw [← he] at hc
    have h2 := (List.mem_filter.1 hc).2
    simp only [decide_eq_true_eq] at h2
    omega

theorem numDims_eq {cells : List Nat} (hpos : ∀ c ∈ cells, 1 ≤ c) :
    (cells.filter fun c => decide (c ≠ 1)).length = (directionsShown cells).length := by
  have : ∀ (cs : List Nat) (a : Nat), (∀ c ∈ cs, 1 ≤ c) → (cs.filter fun c => decide (c ≠ 1)).length =
      ((cs.zipIdx a).filter fun p => decide (1 < p.1)).length := by
    intro cs
    induction cs with
    | nil => intro a _; rfl
    | cons c cs ih =>
      intro a h
      have hc := h c (by simp)
      have ih := ih (a + 1) fun d hd => h d (by simp [hd])
      rw [List.zipIdx_cons]
      by_cases h1 : 1 < c
      · rw [List.filter_cons_of_pos (by simp; omega), List.filter_cons_of_pos (by simpa using h1)]
        simp only [List.length_cons, ih]
      · rw [List.filter_cons_of_neg (by simp; omega), List.filter_cons_of_neg (by simpa using h1)]
        exact ih
  rw [directionsShown, List.length_map]
  exact this cells 0 hpos

theorem label_at {cells : List Nat} (hpos : ∀ c ∈ cells, 1 ≤ c) (h6 : cells.length ≤ 6) {k d : Nat}
    (hd : (directionsShown cells)[k]? = some d) :
    (labelsLeft cells.length cells)[k]? = some (directionName d) := by
  rw [labelsLeft_eq hpos, axesLabels, List.range_eq_range', deleteSmall_range _ _ _ _ h6]
  have hk : k < (directionsShown cells).length := (List.getElem?_eq_some_iff.1 hd).1
  rw [List.getElem?_append_left (by simpa [directionsShown] using hk)]
  rw [directionsShown, List.getElem?_map, Option.map_eq_some_iff] at hd
  obtain ⟨p, hp, rfl⟩ := hd
  rw [List.getElem?_map, hp]
  rfl

section
variable {F : Type} [_root_.Field F] [DecidableEq F]

theorem xLabel_reads (fmt : F → Text) {labels : List Text} {lineouts : Option Nat} {name : Text}
    (h : labels[if lineouts = some 1 then 1 else 0]? = some name) (s k : F) :
    ∃ t, xLabel fmt labels lineouts s k = .ok t ∧ Reads fmt name t fun x => (x + s) * k := by
  unfold xLabel
  rw [h]
  refine ⟨_, rfl, ?_⟩
  by_cases hs : s = 0
  · by_cases hk : k = 1
    · rw [if_neg (by simp [hs]), if_neg (by simp [hs]), if_neg (by simp [hk])]
      subst hs hk
      simpa using Reads.plain (fmt := fmt) (name := name)
    · rw [if_neg (by simp [hs]), if_neg (by simp [hs]), if_pos hk]
      subst hs
      simpa using Reads.scaled (fmt := fmt) (name := name) k
  · by_cases hk : k = 1
    · rw [if_neg (by simp [hk]), if_pos hs]
      subst hk
      simpa using Reads.shifted (fmt := fmt) (name := name) s
    · rw [if_pos ⟨hs, hk⟩]
      exact Reads.both (fmt := fmt) (name := name) s k

/-- The vertical label says what is done to the coordinate unless exactly one of its shift and scale is set; in that
case it depends on the settings of the horizontal axis. -/
theorem yLabel_reads (fmt : F → Text) {labels : List Text} {name : Text} (h : labels[1]? = some name)
    (xs xk s k : F) (h1 : s ≠ 0 → k = 1 → xs ≠ 0) (h2 : s = 0 → k ≠ 1 → xs = 0 ∧ xk ≠ 1) :
    ∃ t, yLabel fmt labels xs xk s k = .ok t ∧ Reads fmt name t fun x => (x + s) * k := by
  unfold yLabel
  rw [h]
  refine ⟨_, rfl, ?_⟩
  by_cases hs : s = 0
  · rw [if_neg (by simp [hs])]
    by_cases hk : k = 1
    · subst hs hk
      by_cases hxs : xs = 0
      · rw [if_neg (by simp [hxs])]
        by_cases hxk : xk = 1
        · rw [if_neg (by simp [hxk])]
          simpa using Reads.plain (fmt := fmt) (name := name)
        · rw [if_pos hxk]
          simpa using Reads.scaled (fmt := fmt) (name := name) (1 : F)
      · rw [if_pos hxs]
        simpa using Reads.shifted (fmt := fmt) (name := name) (0 : F)
    · obtain ⟨hxs, hxk⟩ := h2 hs hk
      rw [if_neg (by simp [hxs]), if_pos hxk]
      subst hs
      simpa using Reads.scaled (fmt := fmt) (name := name) k
  · by_cases hk : k = 1
    · rw [if_neg (by simp [hk]), if_pos (h1 hs hk)]
      subst hk
      simpa using Reads.shifted (fmt := fmt) (name := name) s
    · rw [if_pos ⟨hs, hk⟩]
      exact Reads.both (fmt := fmt) (name := name) s k

/-- C115 for line plots: data with one direction of more than one value get a horizontal label that names this direction
and says what is done to its coordinate; there is no vertical label unless the user gives one. -/
theorem C115_line (fmt : F → Text) (yl : Option Text) {cells : List Nat} (hpos : ∀ c ∈ cells, 1 ≤ c)
    (h6 : cells.length ≤ 6) {d : Nat} (hd : directionsShown cells = [d]) {lineouts : Option Nat} (hl : lineouts ≠ some 1)
    (xshift xscale yshift yscale : F) :
    ∃ t, axisLabels fmt none yl cells.length cells lineouts xshift xscale yshift yscale = .ok (t, yl) ∧
      Reads fmt (directionName d) t fun x => (x + xshift) * xscale := by
  have h0 := label_at hpos h6 (k := 0) (d := d) (by rw [hd]; rfl)
  obtain ⟨t, ht, hr⟩ := xLabel_reads fmt (lineouts := lineouts) (by rw [if_neg hl]; exact h0) xshift xscale
  refine ⟨t, ?_, hr⟩
  have hn : (cells.filter fun c => decide (c ≠ 1)).length = 1 := by rw [numDims_eq hpos, hd]; rfl
  cases yl with
  | some y => simp only [axisLabels, ht, bind, Except.bind, pure, Except.pure]
  | none =>
    simp only [axisLabels, ht, bind, Except.bind, pure, Except.pure]
    rw [if_neg (by rw [hn]; simp)]

/-- C115 for two-dimensional plots: the horizontal label names the first direction of more than one value, the vertical
one the second, and both say what is done to the coordinates.  Partial: if only the shift or only the scale of the
vertical axis is set, the settings of the horizontal axis must agree (see `C115_vertical_fails`). -/
theorem C115_plane_partial (fmt : F → Text) {cells : List Nat} (hpos : ∀ c ∈ cells, 1 ≤ c)
    (h6 : cells.length ≤ 6) {d e : Nat} (hd : directionsShown cells = [d, e])
    {xshift xscale yshift yscale : F} (h1 : yshift ≠ 0 → yscale = 1 → xshift ≠ 0)
    (h2 : yshift = 0 → yscale ≠ 1 → xshift = 0 ∧ xscale ≠ 1) :
    ∃ t u, axisLabels fmt none none cells.length cells none xshift xscale yshift yscale = .ok (t, some u) ∧
      Reads fmt (directionName d) t (fun x => (x + xshift) * xscale) ∧
      Reads fmt (directionName e) u (fun y => (y + yshift) * yscale) := by
  have ha := label_at hpos h6 (k := 0) (d := d) (by rw [hd]; rfl)
  have hb := label_at hpos h6 (k := 1) (d := e) (by rw [hd]; rfl)
  obtain ⟨t, ht, hr⟩ := xLabel_reads fmt (lineouts := none) (by rw [if_neg (by simp)]; exact ha) xshift xscale
  obtain ⟨u, hu, hr'⟩ := yLabel_reads fmt hb xshift xscale yshift yscale h1 h2
  refine ⟨t, u, ?_, hr, hr'⟩
  have hn : (cells.filter fun c => decide (c ≠ 1)).length = 2 := by rw [numDims_eq hpos, hd]; rfl
  simp only [axisLabels, ht, bind, Except.bind, pure, Except.pure]
  rw [if_pos ⟨hn, trivial⟩, hu]
  rfl

/-- C115 for line-outs: the horizontal label names the direction along which the lines run. -/
theorem C115_lineouts (fmt : F → Text) (yl : Option Text) {cells : List Nat} (hpos : ∀ c ∈ cells, 1 ≤ c)
    (h6 : cells.length ≤ 6) {d e : Nat} (hd : directionsShown cells = [d, e]) (dir : Fin 2)
    (xshift xscale yshift yscale : F) :
    ∃ t, axisLabels fmt none yl cells.length cells (some dir) xshift xscale yshift yscale = .ok (t, yl) ∧
      Reads fmt (directionName (if dir = 0 then d else e)) t fun x => (x + xshift) * xscale := by
  have h0 : (labelsLeft cells.length cells)[if (some (dir : Nat)) = some 1 then 1 else 0]? =
      some (directionName (if dir = 0 then d else e)) := by
    match dir with
    | 0 => exact label_at hpos h6 (k := 0) (d := d) (by rw [hd]; rfl)
    | 1 => exact label_at hpos h6 (k := 1) (d := e) (by rw [hd]; rfl)
  obtain ⟨t, ht, hr⟩ := xLabel_reads fmt h0 xshift xscale
  refine ⟨t, ?_, hr⟩
  cases yl with
  | some y => simp only [axisLabels, ht, bind, Except.bind, pure, Except.pure]
  | none =>
    simp only [axisLabels, ht, bind, Except.bind, pure, Except.pure]
    rw [if_neg (by simp)]

/-- C115: labels given by the user are used as they are. -/
theorem C115_given (fmt : F → Text) (x y : Text) (cells : List Nat) (lineouts : Option Nat)
    (xshift xscale yshift yscale : F) :
    axisLabels fmt (some x) (some y) cells.length cells lineouts xshift xscale yshift yscale = .ok (x, some y) := rfl

/-- C115: the colour bar keeps its label and says by what the values are multiplied. -/
theorem C115_colour_bar (fmt3 : F → Text) {c : Text} (hc : c ≠ []) (zscale : F) :
    ∃ t, colourLabel fmt3 (some c) zscale = some t ∧ Reads fmt3 c t fun z => z * zscale := by
  unfold colourLabel
  by_cases hz : zscale = 1
  · rw [if_neg (by simp [hz])]
    subst hz
    exact ⟨c, rfl, by simpa using Reads.plain (fmt := fmt3) (name := c)⟩
  · rw [if_pos hz]
    cases c with
    | nil => exact absurd rfl hc
    | cons x xs => exact ⟨_, rfl, Reads.scaled (fmt := fmt3) (name := x :: xs) zscale⟩

/-- With only the vertical shift set, the vertical label is the plain name of the direction: nothing tells that the
coordinate is shifted. -/
theorem C115_vertical_fails (fmt : F → Text) {cells : List Nat} (hpos : ∀ c ∈ cells, 1 ≤ c) (h6 : cells.length ≤ 6)
    {d e : Nat} (hd : directionsShown cells = [d, e]) (yshift : F) :
    ∃ t, axisLabels fmt none none cells.length cells none 0 1 yshift 1 = .ok (t, some (directionName e)) := by
  have ha := label_at hpos h6 (k := 0) (d := d) (by rw [hd]; rfl)
  have hb := label_at hpos h6 (k := 1) (d := e) (by rw [hd]; rfl)
  obtain ⟨t, ht, -⟩ := xLabel_reads fmt (lineouts := none) (by rw [if_neg (by simp)]; exact ha) (0 : F) 1
  refine ⟨t, ?_⟩
  have hn : (cells.filter fun c => decide (c ≠ 1)).length = 2 := by rw [numDims_eq hpos, hd]; rfl
  simp only [axisLabels, ht, bind, Except.bind, pure, Except.pure]
  rw [if_pos ⟨hn, trivial⟩, yLabel, hb]
  simp [Except.map]

end

/-! Non-vacuity: a dataset of 1 × 4 × 1 × 6 cells, drawn as a plane of directions 1 and 3. -/
example : directionsShown [1, 4, 1, 6] = [1, 3] ∧ (∀ c ∈ [1, 4, 1, 6], 1 ≤ c) := by decide
example : directionsShown [1, 4, 1] = [1] := by decide
example : axisLabels (F := ℚ) (fun _ => "3e0".toList) none none 4 [1, 4, 1, 6] none 3 1 3 3 =
    .ok ("$z_1$ + 3e0".toList, some "($z_3$ + 3e0) $\\times$ 3e0".toList) := by decide +kernel

end Pgkyl
