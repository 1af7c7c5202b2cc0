import Verif.Spec.GkFigure
import Verif.Props.GkNodes
import Verif.Props.Contour
import Verif.Props.Picture
import Verif.Lemmas.Info
/-!
# C154: the figure of `gk_nodes`

Numbers are the elements of a linearly ordered field (exact arithmetic).
-/

namespace Pgkyl
open Spec Gk

section
variable {F : Type}

theorem entries_mem {a : NArr F} {sh : List Nat} {g : List Nat → F} (h : HasEntries a sh g) (x : F) :
    x ∈ a.data ↔ ∃ j, inRange sh j = true ∧ g j = x := by
  obtain ⟨h1, h2, h3⟩ := h
  subst h2
  constructor
  · intro hx
    obtain ⟨k, hk, rfl⟩ := List.getElem_of_mem hx
    obtain ⟨u1, u2⟩ := Text.unravel_ok a.shape k (by rw [← h1]; exact hk)
    refine ⟨_, u1, ?_⟩
    have := h3 _ u1
    rw [NArr.get?, if_pos u1, u2, List.getElem?_eq_getElem hk] at this
    exact (Option.some.inj this).symm
  · rintro ⟨j, hj, rfl⟩
    have := h3 j hj
    rw [NArr.get?, if_pos hj] at this
    exact List.mem_of_getElem? this

variable [_root_.Field F] [LinearOrder F]

/-! ## Layout -/

omit [_root_.Field F] in
theorem Gk.widenEx_ok (ex : F × F) {l : List F} (hl : l ≠ []) : ∃ e, widenEx ex l = .ok e ∧ e.1 ≤ ex.1 ∧ ex.2 ≤ e.2 ∧
    (∀ x ∈ l, e.1 ≤ x ∧ x ≤ e.2) ∧ (e.1 = ex.1 ∨ e.1 ∈ l) ∧ (e.2 = ex.2 ∨ e.2 ∈ l) := by
  obtain ⟨a, a1, a2, a3⟩ := minOf_spec hl
  obtain ⟨b, b1, b2, b3⟩ := maxOf_spec hl
  refine ⟨(if a < ex.1 then a else ex.1, if ex.2 < b then b else ex.2),
    by simp only [widenEx, a1, b1, bind, Except.bind, pure, Except.pure], ?_⟩
  by_cases h1 : a < ex.1 <;> by_cases h2 : ex.2 < b <;> simp only [h1, h2, if_true, if_false]
  · exact ⟨h1.le, h2.le, fun x hx => ⟨a3 x hx, b3 x hx⟩, .inr a2, .inr b2⟩
  · exact ⟨h1.le, le_refl _, fun x hx => ⟨a3 x hx, (b3 x hx).trans (not_lt.1 h2)⟩, .inr a2, .inl trivial⟩
  · exact ⟨le_refl _, h2.le, fun x hx => ⟨(not_lt.1 h1).trans (a3 x hx), b3 x hx⟩, .inl trivial, .inr b2⟩
  · exact ⟨le_refl _, le_refl _, fun x hx => ⟨(not_lt.1 h1).trans (a3 x hx), (b3 x hx).trans (not_lt.1 h2)⟩, .inl trivial, .inl trivial⟩

/-- What is known of one coordinate after some blocks. -/
structure Gk.Widened (bs : List Nat) (cells : Nat → List Nat) (pos : Nat → List Nat → F) (ex e : F × F) : Prop where
  low : e.1 ≤ ex.1
  high : ex.2 ≤ e.2
  all : ∀ b ∈ bs, ∀ j, inRange (planeOf (cells b)) j = true → e.1 ≤ pos b j ∧ pos b j ≤ e.2
  attained : e.1 = ex.1 ∨ ∃ b ∈ bs, ∃ j, inRange (planeOf (cells b)) j = true ∧ pos b j = e.1
  attained' : e.2 = ex.2 ∨ ∃ b ∈ bs, ∃ j, inRange (planeOf (cells b)) j = true ∧ pos b j = e.2

omit [_root_.Field F] in
theorem Gk.widened_cons {b : Nat} {bs : List Nat} {cells : Nat → List Nat} {pos : Nat → List Nat → F} {ex e e' : F × F}
    {a : NArr F} (ha : HasEntries a (planeOf (cells b)) (pos b)) (hne : a.data ≠ []) (h1 : widenEx ex a.data = .ok e)
    (h2 : Widened bs cells pos e e') : Widened (b :: bs) cells pos ex e' := by
  obtain ⟨e0, h0, c1, c2, c3, c4, c5⟩ := Gk.widenEx_ok ex hne
  obtain rfl : e0 = e := by rw [h1] at h0; exact (Except.ok.inj h0).symm
  refine ⟨h2.low.trans c1, c2.trans h2.high, fun b' hb' j hj => ?_, ?_, ?_⟩
  · rcases List.mem_cons.1 hb' with rfl | hb'
    · have := c3 _ ((entries_mem ha _).2 ⟨j, hj, rfl⟩)
      exact ⟨h2.low.trans this.1, this.2.trans h2.high⟩
    · exact h2.all b' hb' j hj
  · rcases h2.attained with h | ⟨b', hb', j, hj, e⟩
    · rcases c4 with h' | h'
      · exact .inl (h.trans h')
      · obtain ⟨j, hj, e⟩ := (entries_mem ha _).1 h'
        exact .inr ⟨b, by simp, j, hj, by rw [e, h]⟩
    · exact .inr ⟨b', by simp [hb'], j, hj, e⟩
  · rcases h2.attained' with h | ⟨b', hb', j, hj, e⟩
    · rcases c5 with h' | h'
      · exact .inl (h.trans h')
      · obtain ⟨j, hj, e⟩ := (entries_mem ha _).1 h'
        exact .inr ⟨b, by simp, j, hj, by rw [e, h]⟩
    · exact .inr ⟨b', by simp [hb'], j, hj, e⟩

omit [_root_.Field F] [LinearOrder F] in
theorem Gk.plane_pos {v : NArr F} {cells : List Nat} {p : List Nat → Nat → F} (h : NodesOf v cells p) :
    inRange (planeOf cells) ((planeOf cells).map fun _ => 0) = true := by
  obtain ⟨-, hm, hl, hh⟩ := h
  match cells, hl, hh with
  | [a], _, _ => have := hm a (by simp); simp [planeOf, inRange]; omega
  | [a, b], _, _ =>
    have h1 := hm a (by simp)
    have h2 := hm b (by simp)
    simp [planeOf, inRange]; omega
  | [a, b, c], _, _ =>
    have h1 := hm a (by simp)
    have h2 := hm c (by simp)
    simp [planeOf, inRange]; omega

omit [_root_.Field F] in
theorem Gk.widened_extremes {bs : List Nat} (hne : bs ≠ []) {cells : Nat → List Nat} {pos : Nat → List Nat → F} {ex e : F × F}
    (hp : ∀ b ∈ bs, inRange (planeOf (cells b)) ((planeOf (cells b)).map fun _ => 0) = true)
    (hb : ∀ b ∈ bs, ∀ j, inRange (planeOf (cells b)) j = true → pos b j ≤ ex.1 ∧ ex.2 ≤ pos b j)
    (h : Widened bs cells pos ex e) : NodeExtremes bs cells pos e.1 e.2 := by
  obtain ⟨b, hbm⟩ := List.exists_mem_of_ne_nil bs hne
  refine ⟨?_, ?_, h.all⟩
  · rcases h.attained with h' | h'
    · have := h.all b hbm _ (hp b hbm)
      exact ⟨b, hbm, _, hp b hbm, le_antisymm (by rw [h']; exact (hb b hbm _ (hp b hbm)).1) this.1⟩
    · exact h'
  · rcases h.attained' with h' | h'
    · have := h.all b hbm _ (hp b hbm)
      exact ⟨b, hbm, _, hp b hbm, le_antisymm this.2 (by rw [h']; exact (hb b hbm _ (hp b hbm)).2)⟩
    · exact h'

variable [IsStrictOrderedRing F]

/-- **C154.**  The layout of the figure comes from the extreme positions of all nodes drawn, of all blocks (positions up to
`10 ^ 9` in size). -/
theorem C154_extremes (sqrt : F → F) (read : Str → Option (NArr F × Ctx F)) {o : Files} (hp : '*' ∉ o.path) (hn : '*' ∉ o.name)
    {multib : Str} {numFiles : Nat} {bs : List Nat} (hne : bs ≠ [])
    (hb : Blocks numFiles multib (bs.map Int.ofNat) ∨ ∃ b : Nat, bs = [b] ∧ multib = dec b)
    (v : Nat → NArr F) (ctx : Nat → Ctx F) (m : Nat → Bool) (cells : Nat → List Nat) (p : Nat → List Nat → Nat → F)
    (hread : ∀ b ∈ bs, read (blockFile o.path o.name (decide (multib ≠ "-10".toList)) b "nodes.gkyl") = some (v b, ctx b))
    (hv : ∀ b ∈ bs, NodesOf (v b) (cells b) (p b)) (hm : ∀ b ∈ bs, CartesianNodes (ctx b) (m b))
    (hR : ∀ b ∈ bs, ∀ j, inRange (planeOf (cells b)) j = true →
      |majorRadius sqrt (m b) (p b (planeNode (cells b) j))| ≤ 10 ^ 9 ∧ |elevation (m b) (p b (planeNode (cells b) j))| ≤ 10 ^ 9)
    (indent add : F) :
    ∃ rlo rhi zlo zhi, figureOf sqrt read o multib [] numFiles indent add = .ok (layoutOf indent add ((rlo, rhi), (zlo, zhi))) ∧
      NodeExtremes bs cells (fun b j => majorRadius sqrt (m b) (p b (planeNode (cells b) j))) rlo rhi ∧
      NodeExtremes bs cells (fun b j => elevation (m b) (p b (planeNode (cells b) j))) zlo zhi := by
  have hblocks : getBlockIndices multib numFiles = .ok (bs.map Int.ofNat) := by
    rcases hb with hb | ⟨b, rfl, rfl⟩
    · exact (C46_blocks hb).1
    · have := (C46_one_block numFiles (i := (b : Int)) (by omega)).1
      rw [pyStr_ofNat] at this
      exact this
  have hfile : ∀ b : Nat, replaceStar (nodesFile o multib []) (pyStr (b : Int)) =
      blockFile o.path o.name (decide (multib ≠ "-10".toList)) b "nodes.gkyl" := by
    intro b
    rw [← blockPrefix_eq hp hn]
    simp only [nodesFile, replaceStar_append, blockPrefix]
    rw [replaceStar_noStar (s := "nodes.gkyl".toList) (by decide)]
  have key : ∀ (bs' : List Nat), (∀ b ∈ bs', b ∈ bs) → ∀ ex : (F × F) × (F × F), ∃ e,
      (bs'.map Int.ofNat).foldlM (widenBlock sqrt read (nodesFile o multib [])) ex = .ok e ∧
      Widened bs' cells (fun b j => majorRadius sqrt (m b) (p b (planeNode (cells b) j))) ex.1 e.1 ∧
      Widened bs' cells (fun b j => elevation (m b) (p b (planeNode (cells b) j))) ex.2 e.2 := by
    intro bs'
    induction bs' with
    | nil =>
      intro _ ex
      refine ⟨ex, rfl, ⟨le_refl _, le_refl _, by simp, .inl rfl, .inl rfl⟩, ⟨le_refl _, le_refl _, by simp, .inl rfl, .inl rfl⟩⟩
    | cons b bs' ih =>
      intro hsub ex
      have hbm := hsub b (by simp)
      obtain ⟨r, z, hrz, hr, hz⟩ := C120_rz sqrt (hv b hbm) (m b)
      have h0 := Gk.plane_pos (hv b hbm)
      have hr0 : r.data ≠ [] := List.ne_nil_of_mem ((entries_mem hr _).2 ⟨_, h0, rfl⟩)
      have hz0 : z.data ≠ [] := List.ne_nil_of_mem ((entries_mem hz _).2 ⟨_, h0, rfl⟩)
      obtain ⟨er, hre, -⟩ := Gk.widenEx_ok ex.1 hr0
      obtain ⟨ez, hze, -⟩ := Gk.widenEx_ok ex.2 hz0
      obtain ⟨e, h1, h2, h3⟩ := ih (fun x hx => hsub x (by simp [hx])) (er, ez)
      refine ⟨e, ?_, Gk.widened_cons (b := b) hr hr0 hre h2, Gk.widened_cons (b := b) hz hz0 hze h3⟩
      rw [List.map_cons, List.foldlM_cons]
      show (widenBlock sqrt read (nodesFile o multib []) ex (b : Int) >>= _) = _
      have hstep : widenBlock sqrt read (nodesFile o multib []) ex (b : Int) = .ok (er, ez) := by
        simp only [widenBlock, hfile, hread b hbm, Gk.squeeze_nodes (hv b hbm), Gk.isGeo_ok (hm b hbm), hrz, hre, hze,
          bind, Except.bind, pure, Except.pure]
      rw [hstep]
      exact h1
  obtain ⟨e, h1, h2, h3⟩ := key bs (fun _ h => h) (startEx, startEx)
  refine ⟨e.1.1, e.1.2, e.2.1, e.2.2, ?_, ?_, ?_⟩
  · simp only [figureOf, hblocks, bind, Except.bind, h1, pure, Except.pure]
  · refine Gk.widened_extremes hne (fun b hb => Gk.plane_pos (hv b hb)) (fun b hb j hj => ?_) h2
    have := abs_le.1 (hR b hb j hj).1
    have e : (((10 ^ 9 : Nat) : F)) = 10 ^ 9 := by norm_num
    simp only [startEx, e]
    exact ⟨this.2, this.1⟩
  · refine Gk.widened_extremes hne (fun b hb => Gk.plane_pos (hv b hb)) (fun b hb j hj => ?_) h3
    have := abs_le.1 (hR b hb j hj).2
    have e : (((10 ^ 9 : Nat) : F)) = 10 ^ 9 := by norm_num
    simp only [startEx, e]
    exact ⟨this.2, this.1⟩

theorem Gk.axesPart_eq {a : F} (ha : 0 < a) : axesPart a * (cent 836 * a + cent 250) = cent 836 * a ∧ 0 < axesPart a := by
  have h : (0 : F) < cent 836 * a + cent 250 := by
    simp only [cent]; push_cast; positivity
  refine ⟨div_mul_cancel₀ _ h.ne', div_pos ?_ h⟩
  simp only [cent]; push_cast; positivity

/-- **C154.**  Without corrections by the user the drawing is not distorted. -/
theorem C154_undistorted {rlo rhi zlo zhi : F} (hr : rlo < rhi) (hz : zlo < zhi) :
    Undistorted (layoutOf 0 0 ((rlo, rhi), (zlo, zhi))) (rhi - rlo) (zhi - zlo) := by
  have h1 : 0 < rhi - rlo := sub_pos.2 hr
  have h2 : 0 < zhi - zlo := sub_pos.2 hz
  have h3 := (Gk.axesPart_eq (div_pos h1 h2)).1
  simp only [Undistorted, layoutOf, axesBox, add_zero, h3]
  simp only [cent]
  push_cast
  field_simp
  norm_num

omit [LinearOrder F] [IsStrictOrderedRing F] in
/-- **C154.**  `--indent_left` moves the axes, `--add_width` widens them, and the colour bar stays beside them; the size of the
figure does not change. -/
theorem C154_corrections (indent add : F) (ex : (F × F) × (F × F)) :
    (layoutOf indent add ex).axes = ⟨(layoutOf 0 0 ex).axes.left + indent, (layoutOf 0 0 ex).axes.bottom,
      (layoutOf 0 0 ex).axes.width + add, (layoutOf 0 0 ex).axes.height⟩ ∧
    (layoutOf indent add ex).bar.left = (layoutOf indent add ex).axes.left + (layoutOf indent add ex).axes.width + 1 / 100 ∧
    (layoutOf indent add ex).bar.bottom = (layoutOf indent add ex).axes.bottom ∧
    (layoutOf indent add ex).bar.height = (layoutOf indent add ex).axes.height ∧
    (layoutOf indent add ex).width = (layoutOf 0 0 ex).width ∧ (layoutOf indent add ex).height = (layoutOf 0 0 ex).height := by
  simp [layoutOf, axesBox, barBox, cent]

/-- **C154.**  The axes and the colour bar lie inside the figure if the drawing is at most 1.36 times as wide as high. -/
theorem C154_inside_partial {rlo rhi zlo zhi : F} (hr : rlo < rhi) (hz : zlo < zhi) (h : rhi - rlo ≤ 136 / 100 * (zhi - zlo)) :
    Inside (layoutOf 0 0 ((rlo, rhi), (zlo, zhi))).axes ∧ Inside (layoutOf 0 0 ((rlo, rhi), (zlo, zhi))).bar := by
  have h1 : 0 < rhi - rlo := sub_pos.2 hr
  have h2 : 0 < zhi - zlo := sub_pos.2 hz
  obtain ⟨h3, h4⟩ := Gk.axesPart_eq (div_pos h1 h2)
  have h5 : (rhi - rlo) / (zhi - zlo) ≤ 136 / 100 := (div_le_iff₀ h2).2 h
  have h6 : 0 < (rhi - rlo) / (zhi - zlo) := div_pos h1 h2
  simp only [Inside, layoutOf, axesBox, barBox]
  generalize (rhi - rlo) / (zhi - zlo) = a at *
  generalize axesPart a = w at *
  simp only [cent] at *
  push_cast at *
  refine ⟨⟨?_, ?_, ?_, ?_⟩, ⟨?_, ?_, ?_, ?_⟩⟩ <;> nlinarith

/-- **C154.**  The left end of the axes lies outside the figure if the drawing is at least 1.37 times as wide as high. -/
theorem C154_inside_fails {rlo rhi zlo zhi : F} (hz : zlo < zhi) (h : 137 / 100 * (zhi - zlo) ≤ rhi - rlo) :
    ¬ Inside (layoutOf 0 0 ((rlo, rhi), (zlo, zhi))).axes := by
  have h2 : 0 < zhi - zlo := sub_pos.2 hz
  have h1 : 0 < rhi - rlo := lt_of_lt_of_le (by positivity) h
  obtain ⟨h3, h4⟩ := Gk.axesPart_eq (div_pos h1 h2)
  have h5 : 137 / 100 ≤ (rhi - rlo) / (zhi - zlo) := (le_div_iff₀ h2).2 h
  rintro ⟨h6, -⟩
  simp only [layoutOf, axesBox] at h6
  generalize (rhi - rlo) / (zhi - zlo) = a at *
  generalize axesPart a = w at *
  simp only [cent] at *
  push_cast at *
  nlinarith

end

/-! ## Lines -/

section
variable {F : Type} [_root_.Field F]

omit [_root_.Field F] in
theorem Gk.linesOf_eq {s : NArr F} {k l : Nat} (hs : s.shape = [k, l, 2]) {g : Nat → Nat → F × F}
    (h : ∀ i < k, ∀ j < l, s.get? [i, j, 0] = some (g i j).1 ∧ s.get? [i, j, 1] = some (g i j).2) :
    linesOf s = (List.range k).map fun i => (List.range l).map fun j => g i j := by
  simp only [linesOf, hs]
  refine List.map_congr_left fun i hi => ?_
  rw [← List.filterMap_eq_map]
  refine List.filterMap_congr fun j hj => ?_
  obtain ⟨h1, h2⟩ := h i (List.mem_range.1 hi) j (List.mem_range.1 hj)
  simp [pointAt, h1, h2]

omit [_root_.Field F] in
/-- **C154.**  The lines drawn of a block with two or three directions go through the nodes, along the second direction and along the
first; every node is on one line of each kind. -/
theorem C154_lines {r z : NArr F} {k l : Nat} {R Z : List Nat → F} (hr : HasEntries r [k, l] R) (hz : HasEntries z [k, l] Z)
    {cdim : Nat} (hc : cdim ≠ 1) : strokes cdim r z = .ok (nodeLines k l R Z) := by
  obtain ⟨s, h1, h2, h3, h4⟩ := Gk.segments_ok hr hz
  simp only [strokes, hc, if_false, h1, Except.map, nodeLines]
  rw [Gk.linesOf_eq h2 (g := fun i j => (R [i, j], Z [i, j])) fun i hi j hj => ⟨(h4 i hi j hj).1, (h4 i hi j hj).2.1⟩,
    Gk.linesOf_eq h3 (g := fun j i => (R [i, j], Z [i, j])) fun j hj i hi => ⟨(h4 i hi j hj).2.2.1, (h4 i hi j hj).2.2.2⟩]

omit [_root_.Field F] in
theorem Gk.entries_list {a : NArr F} {k : Nat} {g : List Nat → F} (h : HasEntries a [k] g) :
    a.data = (List.range k).map fun i => g [i] := by
  obtain ⟨h1, h2, h3⟩ := h
  have hl : a.data.length = k := by rw [h1, h2]; simp
  apply List.ext_getElem?
  intro i
  by_cases hi : i < k
  · have := h3 [i] (by simp [inRange, hi])
    rw [NArr.get?, h2, if_pos (by simp [inRange, hi])] at this
    simp only [ravel, List.prod_nil, mul_one, add_zero] at this
    rw [this, List.getElem?_map, List.getElem?_range hi]; rfl
  · rw [List.getElem?_eq_none (by omega), List.getElem?_eq_none (by simpa using hi)]

omit [_root_.Field F] in
/-- **C154.**  Of a one-dimensional grid one line is drawn, from node to node. -/
theorem C154_line {r z : NArr F} {k : Nat} {R Z : List Nat → F} (hr : HasEntries r [k] R) (hz : HasEntries z [k] Z) :
    strokes 1 r z = .ok [(List.range k).map fun i => (R [i], Z [i])] := by
  simp only [strokes, if_true, Gk.entries_list hr, Gk.entries_list hz]
  rw [List.zip_map']

/-- **C154.**  The blocks take the colours in turn, or all the first one. -/
theorem C154_colours {colors : List Str} (hc : colors ≠ []) (k : Nat) :
    (∃ c, colors[k % colors.length]? = some c ∧ blockColor colors false k = .ok c) ∧
    ∃ c, colors.head? = some c ∧ blockColor colors true k = .ok c := by
  cases colors with
  | nil => exact absurd rfl hc
  | cons c cs =>
    refine ⟨?_, c, rfl, rfl⟩
    have hl : k % (c :: cs).length < (c :: cs).length := Nat.mod_lt _ (by simp)
    refine ⟨(c :: cs)[k % (c :: cs).length], List.getElem?_eq_getElem hl, ?_⟩
    simp only [blockColor, Bool.false_eq_true, if_false, List.getD_eq_getElem?_getD, List.getElem?_eq_getElem hl, Option.getD_some]

end

/-! ## Flux -/

section
variable {F : Type} [_root_.Field F]

theorem Gk.notMem_join {c : Char} (hc : c ≠ ',') : ∀ {ts : List Str}, (∀ t ∈ ts, c ∉ t) → c ∉ joinWith ',' ts
  | [], _ => by simp [joinWith]
  | [t], h => by simpa [joinWith] using h t (by simp)
  | t :: u :: us, h => by
    have := Gk.notMem_join hc (ts := u :: us) fun t ht => h t (by simp [ht])
    simp only [joinWith, List.mem_append, List.mem_cons, not_or]
    exact ⟨h t (by simp), hc, this⟩

theorem Gk.centres_nodes (a : Axis F) : centres (1 / 2) a.nodes = (List.range a.cells).map a.mid := by
  apply List.ext_getElem?
  intro i
  by_cases hi : i < a.cells
  · have h1 := node_get (a := a) (i := i) (by omega)
    have h2 := node_get (a := a) (i := i + 1) (by omega)
    have h3 : a.nodes.tail[i]? = some (a.node (i + 1)) := by rw [List.getElem?_tail]; exact h2
    simp only [centres, List.getElem?_map, (List.getElem?_zip_eq_some (z := (a.node i, a.node (i + 1)))).2 ⟨h1, h3⟩,
      List.getElem?_range hi, Option.map_some, Axis.mid]
    congr 1
    ring
  · rw [List.getElem?_eq_none (by simp [centres, nodes_length]; omega), List.getElem?_eq_none (by simpa using hi)]

variable [CharZero F]

/-- The interpolated flux. -/
theorem Gk.readInterp_ok {q : DgCase F} {d : GData F} (h : q.Fits (some 2) (some "mt") none d) {a c : Axis F} (ha : q.fine = [a, c])
    (hpos : ∀ a ∈ q.axes, 1 ≤ a.cells) :
    ∃ gx gy v, readInterp 2 "mt" 0 d = .ok ([gx, gy], v.squeeze) ∧ gx.data = a.nodes ∧ gy.data = c.nodes ∧
      IsField v [a.cells, c.cells] 1 (fun idx _ => q.at 0 idx) ∧ a.cells ≠ 1 ∧ c.cells ≠ 1 := by
  obtain ⟨src, o, h0, h1, -, h3, e1, e2, e3, e4⟩ := Cmd.dgOf_source h
  have hfine := Pgkyl.fine_cells h.1.cells_eq
  have hl := fine_pos hpos h.2.1.two
  obtain ⟨hs, hc, hsup⟩ := h
  obtain ⟨f1, f2⟩ := hsup.fields
  obtain ⟨g, w, hw, hg, hf⟩ := C36_interpolate h1 h3 (by rw [e1, e2]; exact hsup.fns)
    (fun hd he => by
      have := hsup.line hd
      rw [e2] at he
      rw [he] at this
      exact absurd this (by decide))
    (by rw [e1, e2]; exact hsup.zero) e3 hc.two (comp := .int 0) (cs := [0]) rfl (fun x hx => by
      have : x = 0 := by simpa using hx
      subst this
      simpa using f2)
  rw [e2] at hg hf
  change IsMesh g q.fine at hg
  rw [← hfine, ha] at hf
  rw [ha] at hg
  have hgx := mesh_nodes hg
  subst hgx
  refine ⟨(NArr.ofList a.nodes).squeeze, (NArr.ofList c.nodes).squeeze, w, ?_, rfl, rfl, ?_, (hl a (by rw [ha]; simp)).ne',
    (hl c (by rw [ha]; simp)).ne'⟩
  · simp only [readInterp, h0, h3, hw, bind, Except.bind, pure, Except.pure, List.map_cons, List.map_nil]
  · refine hf.congr fun i _ k hk => ?_
    have : k = 0 := by simpa using hk
    subst this
    rfl

/-- **C154.**  The flux is drawn on the mesh with three points per cell and direction: each of its cells is coloured by the value of
the expansion (order 2, tensor basis) at its midpoint. -/
theorem C154_flux (toFloat : Str → Option F) {q : DgCase F} {d : GData F} (h : q.Fits (some 2) (some "mt") none d) {a c : Axis F}
    (ha : q.fine = [a, c]) (hpos : ∀ a ∈ q.axes, 1 ≤ a.cells) (clevels : Option Str) (cnlevels : Int) :
    ∃ z, fluxPicture (1 / 2) toFloat false clevels cnlevels d = .ok ⟨a.nodes, c.nodes, z, none, true⟩ ∧
      z.shape = [c.cells, a.cells] ∧ ∀ i < a.cells, ∀ j < c.cells, z.get? [j, i] = some (q.at 0 [i, j]) := by
  obtain ⟨gx, gy, v, h1, h2, h3, h4, h5, h6⟩ := Gk.readInterp_ok h ha hpos
  obtain ⟨s1, s2⟩ := C120_flux_swapped (1 / 2) false [] h4 h5 h6
  exact ⟨v.squeeze.transpose, by simp only [fluxPicture, h1, bind, Except.bind, pure, Except.pure, h2, h3, Bool.false_eq_true, if_false],
    s1, s2⟩

/-- **C154.**  Contours of the flux are drawn through the same values, at the midpoints of the cells, with the levels asked for; the
colour bar is left out for a single level. -/
theorem C154_flux_contours (toFloat : Str → Option F) {q : DgCase F} {d : GData F} (h : q.Fits (some 2) (some "mt") none d)
    {a c : Axis F} (ha : q.fine = [a, c]) (hpos : ∀ a ∈ q.axes, 1 ≤ a.cells) {clevels : Option Str} {cnlevels : Int}
    {l : Plot.Levels F} (hl : psiLevels toFloat clevels cnlevels = .ok l) :
    ∃ z bar, fluxPicture (1 / 2) toFloat true clevels cnlevels d =
        .ok ⟨(List.range a.cells).map a.mid, (List.range c.cells).map c.mid, z, some l, bar⟩ ∧
      (bar = false ↔ ∃ x, l = .values [x]) ∧
      z.shape = [c.cells, a.cells] ∧ ∀ i < a.cells, ∀ j < c.cells, z.get? [j, i] = some (q.at 0 [i, j]) := by
  obtain ⟨gx, gy, v, h1, h2, h3, h4, h5, h6⟩ := Gk.readInterp_ok h ha hpos
  obtain ⟨s1, s2⟩ := C120_flux_swapped (1 / 2) false [] h4 h5 h6
  refine ⟨v.squeeze.transpose, Plot.levelsBar true l, ?_, C123_bar l, s1, s2⟩
  simp only [fluxPicture, h1, bind, Except.bind, pure, Except.pure, h2, h3, if_true, hl, Gk.centres_nodes]

omit [CharZero F] in
/-- **C154.**  Levels listed with commas are used as they are; without them the number of levels is the one of `--cnlevels`. -/
theorem C154_levels (toFloat : Str → Option F) {ts : List Str} (hc : ∀ t ∈ ts, ',' ∉ t) (hcol : ∀ t ∈ ts, ':' ∉ t) {xs : List F}
    (hx : xs ≠ []) (h : (ts.filter (· ≠ [])).map toFloat = xs.map some) (n : Int) :
    psiLevels toFloat (some (joinWith ',' ts)) n = .ok (.values xs) ∧ psiLevels toFloat none n = .ok (.count n) := by
  refine ⟨?_, rfl⟩
  have h1 := C123_listed toFloat hc hcol hx h
  have h2 := Gk.notMem_join (c := ':') (by decide) hcol
  cases ht : joinWith ',' ts with
  | nil =>
    rw [ht] at h1
    simp [Plot.contourLevels] at h1
  | cons x xs' =>
    rw [ht] at h1 h2
    simpa [psiLevels, Plot.contourLevels, h2] using h1

omit [CharZero F] in
/-- **C154.**  A range of levels `start:end:number`, which the help of the command offers, always ends in an error. -/
theorem C154_levels_fails (toFloat : Str → Option F) {t : Str} (h : ':' ∈ t) (n : Int) :
    psiLevels toFloat (some t) n = .error .fail := by
  cases t with
  | nil => simp at h
  | cons c cs => simp only [psiLevels, h, if_true]

omit [_root_.Field F] [CharZero F] in
/-- **C154.**  `--xlim a,b` and `--ylim a,b` set the limits to `a` and `b`; otherwise they are left to Matplotlib. -/
theorem C154_limits (toFloat : Str → Option F) {a b : Str} (ha : ',' ∉ a) (hb : ',' ∉ b) {lo hi : F} (hlo : toFloat a = some lo)
    (hhi : toFloat b = some hi) :
    axisLimits toFloat (some (a ++ ',' :: b)) = .ok (some (lo, hi)) ∧ axisLimits toFloat none = .ok none := by
  refine ⟨?_, rfl⟩
  have hs : splitOn ',' (a ++ ',' :: b) = [a, b] := splitOn_joinWith [a, b] (by simp) (by simp [ha, hb])
  cases ht : a ++ ',' :: b with
  | nil => simp at ht
  | cons c cs =>
    rw [ht] at hs
    simp only [axisLimits, hs, Plot.asFloat, hlo, hhi, bind, Except.bind, pure, Except.pure]

end

/-! ## Examples -/

namespace GkFigureEx

/-- A drawing twice as high as wide. -/
example : Undistorted (layoutOf 0 0 (((1 : ℚ), 2), (-1, 1))) 1 2 ∧
    Inside (layoutOf 0 0 (((1 : ℚ), 2), (-1, 1))).axes := by
  have h1 := C154_undistorted (F := ℚ) (rlo := 1) (rhi := 2) (zlo := -1) (zhi := 1) (by norm_num) (by norm_num)
  have h2 := (C154_inside_partial (F := ℚ) (rlo := 1) (rhi := 2) (zlo := -1) (zhi := 1) (by norm_num) (by norm_num) (by norm_num)).1
  norm_num at h1
  exact ⟨h1, h2⟩

/-- A drawing twice as wide as high sticks out. -/
example : ¬ Inside (layoutOf 0 0 (((1 : ℚ), 5), (-1, 1))).axes :=
  C154_inside_fails (by norm_num) (by norm_num)

/-- Two nodes of a block: R = 3, 4 and Z = 0, 6 in the first block, R = 2, 3 and Z = -1, 0 in the second (Cartesian coordinates). -/
def exBlock (b : Nat) : NArr ℚ := if b = 0 then ⟨[2, 3], [3, 0, 0, 4, 0, 6]⟩ else ⟨[2, 3], [2, 0, -1, 3, 0, 0]⟩

def exSqrt (x : ℚ) : ℚ := if x = 4 then 2 else if x = 9 then 3 else if x = 16 then 4 else 0

def exRead (s : Str) : Option (NArr ℚ × Ctx ℚ) :=
  if s = "./sim_b0-nodes.gkyl".toList then some (exBlock 0, {})
  else if s = "./sim_b1-nodes.gkyl".toList then some (exBlock 1, {}) else none

/-- The layout of a figure with two blocks comes from both. -/
example : figureOf exSqrt exRead ⟨".".toList, "sim".toList, [], [], [], [], [], [], []⟩ "-1".toList [] 2 0 0 =
    .ok (layoutOf 0 0 ((2, 4), (-1, 6))) := by decide +kernel

/-- The hypotheses of `C154_extremes` on the data are met by both blocks. -/
example (b : Nat) : (NodesOf (exBlock b) [2] fun i c => ((exBlock b).get? (i ++ [c])).getD 0) ∧
    CartesianNodes ({} : Ctx ℚ) true ∧ Blocks 2 "-1".toList ([0, 1].map Int.ofNat) := by
  have hw : (exBlock b).WF ∧ (exBlock b).shape = [2, 3] := by by_cases h : b = 0 <;> simp [exBlock, h, NArr.WF]
  refine ⟨⟨⟨hw.1, hw.2, fun i hi c hc => ?_⟩, by decide, by decide, by decide⟩, .inl ⟨rfl, .inl rfl⟩, Blocks.all⟩
  have := NArr.get?_isSome hw.1 (idx := i ++ [c]) (by
    rw [hw.2]
    show inRange ([2] ++ [3]) _ = true
    rw [inRange_iff_forall₂] at hi ⊢
    exact List.rel_append hi (.cons (by simpa using hc) .nil))
  obtain ⟨x, hx⟩ := Option.isSome_iff_exists.1 this
  simp [hx]

/-- Lines of three nodes along two lines. -/
example : strokes 2 (⟨[2, 3], [1, 2, 3, 4, 5, 6]⟩ : NArr ℚ) ⟨[2, 3], [0, 0, 0, 1, 1, 1]⟩ =
    .ok [[(1, 0), (2, 0), (3, 0)], [(4, 1), (5, 1), (6, 1)], [(1, 0), (4, 1)], [(2, 0), (5, 1)], [(3, 0), (6, 1)]] := by
  decide +kernel

/-- Flux of order 2 in the tensor basis on 2 × 3 cells. -/
def psi : GData ℚ :=
  { tag := "psi".toList
    grid := some (DgEx.src (DgEx.axes : List (Axis ℚ)) 9 DgEx.coef).grid
    values := some (DgEx.src (DgEx.axes : List (Axis ℚ)) 9 DgEx.coef).values
    ctx := { cells := some [2, 3], numComps := some 9, other := [("grid_type", "uniform")] } }

def psiFns : List Dg.Poly :=
  match Dg.interpFns 2 2 "tensor" true with
  | .ok f => f
  | .error _ => []

def psiCase : DgCase ℚ := ⟨[2, 3], DgEx.axes, 9, DgEx.coef, 2, "tensor", psiFns, 3⟩

/-- The hypotheses of `C154_flux` are met: six by nine cells are drawn. -/
example : psiCase.Fits (some 2) (some "mt") none psi ∧ psiCase.fine = [⟨0, 1 / 3, 6⟩, ⟨-1, 1 / 6, 9⟩] ∧
    ∀ a ∈ psiCase.axes, 1 ≤ a.cells := by
  have ho := DgEx.src_onMesh (F := ℚ) (axes := DgEx.axes) DgEx.axes_dx (by simp [DgEx.axes]) 9 DgEx.coef
  refine ⟨⟨⟨⟨_, ⟨rfl, by simp [DgEx.src, psiCase, DgEx.axes], (Cmd.mesh_length ho.grid).2, _, rfl, ho.values⟩, ho.grid⟩, ⟨rfl, rfl⟩, ?_, rfl,
    DgEx.axes_dx, by simp [psiCase]⟩, ⟨.inl rfl, .inl ⟨"mt", rfl, by decide⟩, .inr ⟨rfl, rfl⟩, by simp [psiCase]⟩,
    ⟨by decide +kernel, fun h => by simp [psiCase] at h, fun h => by simp [psiCase] at h, by decide +kernel⟩⟩, ?_, by decide +kernel⟩
  · show Dict.get? [("grid_type", "uniform")] "grid_type" = some "uniform"
    decide +kernel
  · simp [DgCase.fine, refineAll, psiCase, DgEx.axes, perCell, Axis.refine]
    norm_num

/-- Three levels of contours. -/
example (toFloat : Str → Option ℚ) (h : toFloat "1".toList = some 1 ∧ toFloat "2".toList = some 2) :
    psiLevels toFloat (some "1,2,".toList) 5 = .ok (.values [1, 2]) :=
  (C154_levels toFloat (ts := ["1".toList, "2".toList, []]) (by decide) (by decide) (by decide)
    (by simpa [List.filter] using h) 5).1

end GkFigureEx
end Pgkyl
