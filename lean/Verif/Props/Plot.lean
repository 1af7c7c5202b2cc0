import Mathlib.Algebra.Order.Field.Basic
import Mathlib.Tactic.Ring
import Mathlib.Data.Nat.Sqrt
import Mathlib.Tactic.Linarith
import Verif.Model.Plot
import Verif.Spec.Plot
import Verif.Lemmas.NArr
/-! # C50: room for every panel -/

namespace Pgkyl
open Spec Plot NArr

theorem ceilDiv_spec {n k : Nat} (hk : 0 < k) : n ≤ k * ceilDiv n k ∧ (1 ≤ n → 1 ≤ ceilDiv n k ∧ k * (ceilDiv n k - 1) < n) := by
  unfold ceilDiv
  have h := Nat.div_add_mod (n + k - 1) k
  have h2 := Nat.mod_lt (n + k - 1) hk
  generalize (n + k - 1) / k = q at *
  generalize (n + k - 1) % k = r at *
  refine ⟨by omega, fun hn => ?_⟩
  have hq : 1 ≤ q := by
    rcases Nat.eq_zero_or_pos q with rfl | h
    · simp at h; omega
    · exact h
  refine ⟨hq, ?_⟩
  obtain ⟨m, rfl⟩ : ∃ m, q = m + 1 := ⟨q - 1, by omega⟩
  simp only [Nat.add_sub_cancel]
  rw [Nat.mul_succ] at h
  omega

/-- C50: the automatic layout has room for every panel, and its last row is not empty (nor its last column). -/
theorem C50_layout {n : Nat} (hn : 1 ≤ n) : ∃ r c, layout none none n = .ok (r, c) ∧ Room n r c ∧ Room n c r := by
  have h1 := Nat.sqrt_le n
  have h2 := Nat.lt_succ_sqrt n
  simp only [layout]
  generalize Nat.sqrt n = s at *
  have hs : 1 ≤ s := by
    rcases Nat.eq_zero_or_pos s with rfl | h
    · simp at h2; omega
    · exact h
  obtain ⟨m, rfl⟩ : ∃ m, s = m + 1 := ⟨s - 1, by omega⟩
  simp only [Nat.succ_eq_add_one] at h2
  unfold Room
  by_cases hsq : (m + 1) * (m + 1) = n
  · refine ⟨_, _, if_pos hsq, ?_, ?_⟩ <;> refine ⟨by omega, by omega, ?_⟩ <;> simp only [Nat.add_sub_cancel] <;> nlinarith
  · simp only [hsq, if_false]
    by_cases hge : (m + 1 + 1) * (m + 1) ≥ n
    · refine ⟨_, _, if_pos hge, ?_, ?_⟩ <;> refine ⟨by nlinarith, by omega, ?_⟩ <;> simp only [Nat.add_sub_cancel] <;>
        first | nlinarith | (have : (m + 1) * (m + 1) < n := by omega
                             nlinarith)
    · refine ⟨_, _, if_neg hge, ?_, ?_⟩ <;> refine ⟨by nlinarith, by omega, ?_⟩ <;> simp only [Nat.add_sub_cancel] <;>
        nlinarith

/-- C50: a given number of rows is kept, with just enough columns. -/
theorem C50_rows {n r : Nat} (hn : 1 ≤ n) (hr : 1 ≤ r) (cols : Option Nat) :
    ∃ c, layout (some r) cols n = .ok (r, c) ∧ Room n c r := by
  obtain ⟨k, rfl⟩ : ∃ k, r = k + 1 := ⟨r - 1, by omega⟩
  obtain ⟨h1, h2⟩ := ceilDiv_spec (n := n) (k := k + 1) (by omega)
  exact ⟨_, rfl, by rw [Nat.mul_comm]; exact h1, (h2 hn).1, by rw [Nat.mul_comm]; exact (h2 hn).2⟩

/-- C50: a given number of columns is kept, with just enough rows. -/
theorem C50_cols {n c : Nat} (hn : 1 ≤ n) (hc : 1 ≤ c) :
    ∃ r, layout none (some c) n = .ok (r, c) ∧ Room n r c := by
  obtain ⟨k, rfl⟩ : ∃ k, c = k + 1 := ⟨c - 1, by omega⟩
  obtain ⟨h1, h2⟩ := ceilDiv_spec (n := n) (k := k + 1) (by omega)
  exact ⟨_, rfl, by rw [Nat.mul_comm]; exact h1, (h2 hn).1, by rw [Nat.mul_comm]; exact (h2 hn).2⟩

theorem layout_room {n : Nat} (hn : 1 ≤ n) {rows cols : Option Nat} (hr : rows ≠ some 0) (hc : cols ≠ some 0) :
    ∃ r c, layout rows cols n = .ok (r, c) ∧ n ≤ r * c := by
  cases rows with
  | some r =>
    obtain ⟨c, h, hroom⟩ := C50_rows hn (r := r) (by rcases r with - | r; exact absurd rfl hr; omega) cols
    exact ⟨_, _, h, by rw [Nat.mul_comm]; exact hroom.1⟩
  | none =>
    cases cols with
    | some c =>
      obtain ⟨r, h, hroom⟩ := C50_cols hn (c := c) (by rcases c with - | c; exact absurd rfl hc; omega)
      exact ⟨_, _, h, hroom.1⟩
    | none =>
      obtain ⟨r, c, h, hroom, -⟩ := C50_layout hn
      exact ⟨_, _, h, hroom.1⟩

theorem panelsOf_ok {o : Opts} (hs : o.squeeze = false) {axes : Nat} {cs : List Nat}
    (h : ∀ c ∈ cs, c + o.startAxes < axes) : panelsOf o axes cs = .ok (cs.map (· + o.startAxes)) := by
  induction cs with
  | nil => rfl
  | cons c cs ih =>
    have h0 := h c (by simp)
    simp [panelsOf, hs, h0, ih fun d hd => h d (by simp [hd]), bind, Except.bind, pure, Except.pure]

/-- drawing on after the first dataset -/
theorem plotAll_rest {o : Opts} (hsq : o.squeeze = false) (hv : o.vectors = false) {n : Nat} (hn : 1 ≤ n)
    (ho : o.numAxes = some n) : ∀ (ncs : List Nat) (o' : Opts) (axes : Nat),
      o' = { o with startAxes := o'.startAxes } → n ≤ axes → o'.startAxes + ncs.sum ≤ n →
      ∃ pss, plotAll o' true axes ncs = .ok pss ∧ pss.flatten = List.range' o'.startAxes ncs.sum ∧
        pss.map List.length = ncs := by
  intro ncs
  induction ncs with
  | nil => intro o' axes _ _ _; exact ⟨[], rfl, by simp, rfl⟩
  | cons nc ncs ih =>
    intro o' axes ho' hax hsum
    have hsq' : o'.squeeze = false := by rw [ho']; exact hsq
    have hv' : o'.vectors = false := by rw [ho']; exact hv
    have hna' : o'.numAxes = some n := by rw [ho']; exact ho
    obtain ⟨m, rfl⟩ : ∃ m, n = m + 1 := ⟨n - 1, by omega⟩
    have hw : panelsWanted o' nc = m + 1 := by simp [panelsWanted, hna']
    have hi : idxComps o' nc = List.range nc := by simp [idxComps, hv']
    have hfa : figureAxes o' nc axes = .ok axes := by
      simp only [figureAxes, hw, hsq', true_and]
      rw [if_pos (by omega), if_neg (by omega)]
    rw [List.sum_cons] at hsum
    have hp : panelsOf o' axes (List.range nc) = .ok ((List.range nc).map (· + o'.startAxes)) :=
      panelsOf_ok hsq' fun c hc => by rw [List.mem_range] at hc; omega
    obtain ⟨pss, h1, h2, h3⟩ := ih { o' with startAxes := o'.startAxes + nc }
      (axes + (if o'.colorbar then nc else 0)) (by rw [ho']) (by split <;> omega) (by simp only; omega)
    refine ⟨(List.range nc).map (· + o'.startAxes) :: pss, ?_, ?_, ?_⟩
    · simp only [plotAll, plotOne, hfa, hi, hp, bind, Except.bind, pure, Except.pure, List.length_map,
        List.length_range, if_true, h1]
    · rw [List.flatten_cons, h2, List.sum_cons, ← List.range'_append, Nat.one_mul]
      congr 1
      rw [List.range'_eq_map_range]
      exact List.map_congr_left fun i _ => Nat.add_comm _ _
    · simp [h3]

/-- C50 for `--subplots`: the components of all datasets, in order, get the panels 0, 1, 2, ... one each. -/
theorem C50_subplots {o : Opts} (hsq : o.squeeze = false) (hv : o.vectors = false) (hr : o.rows ≠ some 0)
    (hc : o.cols ≠ some 0) {ncs : List Nat} (hn : 1 ≤ ncs.sum) :
    ∃ pss, plotSubplots o ncs = .ok pss ∧ pss.flatten = List.range ncs.sum ∧ pss.map List.length = ncs := by
  obtain ⟨r, c, hl, hroom⟩ := layout_room hn hr hc
  -- the first call makes the axes
  have key : ∀ nc rest, ncs = nc :: rest → plotSubplots o ncs =
      plotAll { o with numAxes := some ncs.sum, startAxes := 0 } true (r * c) ncs := by
    intro nc rest he
    obtain ⟨m, hm⟩ : ∃ m, ncs.sum = m + 1 := ⟨ncs.sum - 1, by omega⟩
    simp only [plotSubplots]
    conv_lhs => rw [he]
    conv_rhs => rw [he]
    simp only [plotAll]
    rw [← he]
    have hf : figureAxes { o with numAxes := some ncs.sum, startAxes := 0 } nc 0 = .ok (r * c) := by
      have hw : panelsWanted { o with numAxes := some ncs.sum, startAxes := 0 } nc = ncs.sum := by
        simp [panelsWanted, hm]
      unfold figureAxes
      rw [hw]
      simp only [hsq, hl]
      rfl
    have hf' : figureAxes { o with numAxes := some ncs.sum, startAxes := 0 } nc (r * c) = .ok (r * c) := by
      have hw : panelsWanted { o with numAxes := some ncs.sum, startAxes := 0 } nc = ncs.sum := by
        simp [panelsWanted, hm]
      unfold figureAxes
      rw [hw]
      rw [if_pos (by omega), if_neg (by omega)]
    simp only [plotOne, hf, hf']
  cases hncs : ncs with
  | nil => rw [hncs] at hn; simp at hn
  | cons nc rest =>
    rw [← hncs, key nc rest hncs]
    obtain ⟨pss, h1, h2, h3⟩ := plotAll_rest (o := { o with numAxes := some ncs.sum, startAxes := 0 }) hsq hv hn rfl ncs
      { o with numAxes := some ncs.sum, startAxes := 0 } (r * c) rfl hroom (by simp)
    exact ⟨pss, h1, by rw [h2, List.range_eq_range'], h3⟩

/-- C50 for one dataset on its own figure: component (or pair) `c` gets panel `c`. -/
theorem C50_own_figure {o : Opts} (hsq : o.squeeze = false) (hna : o.numAxes = none) (hst : o.startAxes = 0)
    (hr : o.rows ≠ some 0) (hc : o.cols ≠ some 0) {nc : Nat} (hn : 1 ≤ nc / (if o.vectors then 2 else 1)) :
    ∃ axes, plotOne o nc 0 = .ok (axes, List.range (nc / (if o.vectors then 2 else 1))) := by
  obtain ⟨r, c, hl, hroom⟩ := layout_room hn hr hc
  have hw : panelsWanted o nc = nc / (if o.vectors then 2 else 1) := by simp [panelsWanted, hna, idxComps]
  have hf : figureAxes o nc 0 = .ok (r * c) := by
    simp only [figureAxes, hw, hsq, hl]; rfl
  have hp : panelsOf o (r * c) (idxComps o nc) = .ok ((idxComps o nc).map (· + o.startAxes)) :=
    panelsOf_ok hsq fun k hk => by
      rw [idxComps, List.mem_range] at hk; omega
  simp only [plotOne, hf, hp, bind, Except.bind, pure, Except.pure, hst, Nat.add_zero, List.map_id']
  exact ⟨_, rfl⟩

/-- With `--squeeze` everything is drawn in the one panel. -/
theorem C50_squeeze {o : Opts} (hsq : o.squeeze = true) (nc : Nat) :
    ∃ axes ps, plotOne o nc 0 = .ok (axes, ps) ∧ ∀ p ∈ ps, p = 0 := by
  have hp : ∀ cs, panelsOf o 1 cs = .ok (cs.map fun _ => 0) := by
    intro cs
    induction cs with
    | nil => rfl
    | cons c cs ih => simp [panelsOf, hsq, ih, bind, Except.bind, pure, Except.pure]
  have hf : figureAxes o nc 0 = .ok 1 := by simp [figureAxes, hsq]
  refine ⟨1 + (if o.colorbar then ((idxComps o nc).map fun _ => 0).length else 0), (idxComps o nc).map fun _ => 0, ?_,
    by simp⟩
  simp only [plotOne, hf, hp, bind, Except.bind, pure, Except.pure]

/-- Two-dimensional datasets drawn one over the other in one figure: the check for enough panels counts colour bars as
panels. A dataset with more components than the first is drawn over the first one's colour bar instead of being
rejected: with one and two components there is one panel, and the second component of the second dataset goes to axes
1, which is the colour bar. -/
theorem C50_colorbar_panels_fails : layout none none 1 = .ok (1, 1) ∧
    plotAll { colorbar := true } false 0 [1, 2] = .ok [[0], [0, 1]] := by decide +kernel

/-! Non-vacuity: layouts, and three datasets with 2, 1 and 4 components. -/
example : layout none none 7 = .ok (3, 3) := by decide +kernel
example : layout none none 6 = .ok (2, 3) := by decide +kernel
example : layout (some 2) none 7 = .ok (2, 4) := by decide +kernel
example : plotSubplots { rows := some 2 } [2, 1, 4] = .ok [[0, 1], [2], [3, 4, 5, 6]] := by decide +kernel
example : ∃ pss, plotSubplots {} [2, 1, 4] = .ok pss ∧ pss.flatten = List.range 7 ∧ pss.map List.length = [2, 1, 4] :=
  C50_subplots rfl rfl (by simp) (by simp) (by decide)

end Pgkyl
