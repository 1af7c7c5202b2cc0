import Verif.Lemmas.Picture
import Verif.Props.FileInterp
/-!
# C153: from an expansion to a picture

Numbers are the elements of a field of characteristic 0, for selections of a linearly ordered field (exact arithmetic).
-/

namespace Pgkyl
open Spec Cmd Plot GkylReader

section
variable {F : Type} [_root_.Field F]

theorem fine_cells {q : DgCase F} (h : q.axes.map (·.cells) = q.cells) :
    q.fine.map (·.cells) = List.zipWith (· * ·) q.cells (perCell q.basis q.cells.length q.points) := by
  rw [DgCase.fine, refineAll, List.map_zipWith, ← h, List.zipWith_map_left]
  rfl

theorem fine_pos {q : DgCase F} (h : ∀ a ∈ q.axes, 1 ≤ a.cells) (hp : 2 ≤ q.points) : ∀ a ∈ q.fine, 1 < a.cells := by
  intro a ha
  obtain ⟨i, hi, rfl⟩ := List.getElem_of_mem ha
  simp only [DgCase.fine, refineAll, List.getElem_zipWith, Axis.refine]
  simp only [DgCase.fine, refineAll, List.length_zipWith] at hi
  have h1 := h q.axes[i] (List.getElem_mem _)
  have h2 := Gk.perCell_two (b := q.basis) (D := q.cells.length) hp
    (perCell q.basis q.cells.length q.points)[i] (List.getElem_mem _)
  exact lt_of_lt_of_le (by omega) (Nat.mul_le_mul h1 h2)

theorem filter_fine {q : DgCase F} (h : ∀ a ∈ q.axes, 1 ≤ a.cells) (hp : 2 ≤ q.points) :
    q.fine.filter (fun a => decide (1 < a.cells)) = q.fine :=
  List.filter_eq_self.2 fun a ha => by simpa using fine_pos h hp a ha

theorem fullIndex_large : ∀ {ns idx : List Nat}, (∀ n ∈ ns, 1 < n) → idx.length = ns.length → fullIndex ns idx = idx := by
  intro ns
  induction ns with
  | nil => intro idx _ h; cases idx with
    | nil => rfl
    | cons _ _ => simp at h
  | cons n ns ih =>
    intro idx h1 h2
    cases idx with
    | nil => simp at h2
    | cons i is =>
      simp only [fullIndex, h1 n (by simp), if_true, List.headD_cons, List.tail_cons]
      rw [ih (fun m hm => h1 m (by simp [hm])) (by simpa using h2)]

variable [CharZero F] [Min F] [Max F]

/-- The interpolated dataset. -/
theorem interp_holds (h5 : Except Err (List (List F))) {q : DgCase F} {po : Option Nat} {b : Option String} {ni : Option Nat}
    {d : GData F} (h : q.Fits po b ni d) :
    ∃ g v r, interpolateOf h5 po b ni d = .ok (g, v) ∧ d.push g v = .ok r ∧
      Holds r q.fine (q.m / q.fns.length) fun idx j => q.at j idx := by
  obtain ⟨g, v, e1, hm, hf⟩ := interpolateOf_ok h5 h
  have hc := fine_cells h.1.cells_eq
  have hf' : IsField v (q.fine.map (·.cells)) (q.m / q.fns.length) fun idx j => q.at j idx := by rw [hc]; exact hf
  obtain ⟨r, e2, -⟩ := push_field (g := g) (cells := q.fine.map (·.cells))
    (by rw [List.length_map, (mesh_length hm).1]) (mesh_length hm).2 hf' d
  exact ⟨g, v, r, e1, e2, holds_push e2 hm hf'⟩

/-- **C153.**  The line drawn of interpolated one-dimensional data goes through one point per refined cell: at the midpoint of
the cell, with the value of the expansion there, both shifted and scaled as asked for. -/
theorem C153_line (h5 : Except Err (List (List F))) {q : DgCase F} {po : Option Nat} {b : Option String} {ni : Option Nat}
    {d : GData F} (h : q.Fits po b ni d) {a : Axis F} (ha : q.fine = [a]) (hpos : ∀ a ∈ q.axes, 1 ≤ a.cells)
    {j : Nat} (hj : j < q.m / q.fns.length) (s : Scales F) :
    ∃ g v r, interpolateOf h5 po b ni d = .ok (g, v) ∧ d.push g v = .ok r ∧
      lineOf (1 / 2) s r j = .ok ((List.range a.cells).map (fun i => (a.mid i + s.xshift) * s.xscale),
        (List.range a.cells).map fun i => (q.at j [i] + s.yshift) * s.yscale) := by
  obtain ⟨g, v, r, e1, e2, hh⟩ := interp_holds h5 h
  have hl := fine_pos hpos h.2.1.two
  refine ⟨g, v, r, e1, e2, ?_⟩
  rw [lineOf_holds hh (fun a ha => (hl a ha).le) (by rw [filter_fine hpos h.2.1.two, ha]) s hj]
  have : 1 < a.cells := hl a (by rw [ha]; simp)
  simp [ha, fullIndex, this]

/-- **C153.**  What is drawn of interpolated two-dimensional data is the refined mesh, each of its cells coloured by the value
of the expansion at its midpoint; for contours, the midpoints and these values. -/
theorem C153_mesh (h5 : Except Err (List (List F))) {q : DgCase F} {po : Option Nat} {b : Option String} {ni : Option Nat}
    {d : GData F} (h : q.Fits po b ni d) {a c : Axis F} (ha : q.fine = [a, c]) (hpos : ∀ a ∈ q.axes, 1 ≤ a.cells)
    {k : Nat} (hk : k < q.m / q.fns.length) (s : Scales F) :
    ∃ g v r z, interpolateOf h5 po b ni d = .ok (g, v) ∧ d.push g v = .ok r ∧
      meshOf (1 / 2) s r k = .ok (a.nodes.map (fun x => (x + s.xshift) * s.xscale),
        c.nodes.map (fun y => (y + s.yshift) * s.yscale), z) ∧
      contourOf (1 / 2) s r k = .ok ((List.range a.cells).map (fun i => (a.mid i + s.xshift) * s.xscale),
        (List.range c.cells).map (fun j => (c.mid j + s.yshift) * s.yscale), z) ∧
      z.WF ∧ z.shape = [c.cells, a.cells] ∧
      ∀ i j, i < a.cells → j < c.cells → z.get? [j, i] = some ((q.at k [i, j] + s.zshift) * s.zscale) := by
  obtain ⟨g, v, r, e1, e2, hh⟩ := interp_holds h5 h
  have hl := fine_pos hpos h.2.1.two
  have hf : q.fine.filter (fun a => decide (1 < a.cells)) = [a, c] := by rw [filter_fine hpos h.2.1.two, ha]
  obtain ⟨z, m1, m2, m3, m4⟩ := meshOf_holds hh (fun a ha => (hl a ha).le) hf s hk
  obtain ⟨z', c1, c2, c3, c4⟩ := contourOf_holds hh (fun a ha => (hl a ha).le) hf s hk
  have h1 : 1 < a.cells := hl a (by rw [ha]; simp)
  have h2 : 1 < c.cells := hl c (by rw [ha]; simp)
  obtain rfl : z = z' := by
    refine NArr.ext_get? m2 c2 (by rw [m3, c3]) ?_
    intro idx hi
    rw [m3] at hi
    match idx, hi with
    | [j, i], hi =>
      simp [inRange] at hi
      rw [m4 i j hi.2 hi.1, c4 i j hi.2 hi.1]
    | [_], hi => simp [inRange] at hi
    | _ :: _ :: _ :: _, hi => simp [inRange] at hi
  refine ⟨g, v, r, z, e1, e2, m1, c1, m2, m3, fun i j hi hj => ?_⟩
  rw [m4 i j hi hj]
  simp [ha, fullIndex, h1, h2]

end

section
variable {F : Type} [_root_.Field F] [LinearOrder F] [IsStrictOrderedRing F]

/-- The axis with the selection on it. -/
def Spec.Cut.sel (c : Cut F) : SelAxis F := ⟨c.axis.nodes, c.axis.cells, c.z, c.lo, c.hi⟩

theorem cut_ok {c : Cut F} (h : c.OK) : c.sel.OK := ⟨nodes_increasing h.dx, .inl (nodes_length _), h.asks, h.some⟩

omit [IsStrictOrderedRing F] in
theorem cut_out {c : Cut F} (h : c.OK) : c.sel.nodesOut = (c.axis.window c.lo c.hi).nodes := by
  have hl : c.sel.nodes.length ≠ c.sel.n := by
    simp only [Cut.sel, nodes_length]; omega
  rw [SelAxis.nodesOut, if_neg hl]
  exact window_nodes h.some.le (denotes_le h.asks)

omit [IsStrictOrderedRing F] in
theorem cut_inRange : ∀ {cuts : List (Cut F)} {idx : List Nat}, (∀ c ∈ cuts, c.OK) →
    inRange (cuts.map fun c => c.hi - c.lo) idx = true →
    inRange (cuts.map (·.axis.cells)) (List.zipWith (· + ·) idx (cuts.map (·.lo))) = true := by
  intro cuts
  induction cuts with
  | nil => intro idx _ h; cases idx <;> simp [inRange] at *
  | cons c cs ih =>
    intro idx hc h
    cases idx with
    | nil => simp [inRange] at h
    | cons i is =>
      simp only [List.map_cons, inRange, Bool.and_eq_true, decide_eq_true_eq] at h
      have h1 := denotes_le (hc c (by simp)).asks
      simp only [List.map_cons, List.zipWith_cons_cons, inRange, Bool.and_eq_true, decide_eq_true_eq]
      exact ⟨by omega, ih (fun c hcc => hc c (by simp [hcc])) h.2⟩

/-- What a selection in place leaves. -/
theorem select_holds (pf : List Char → Option F) {r : GData F} {cuts : List (Cut F)} {m : Nat} {f : List Nat → Nat → F}
    (h : Holds r (cuts.map (·.axis)) m f) (hok : ∀ c ∈ cuts, c.OK) (hne : cuts ≠ []) (h6 : cuts.length ≤ 6)
    {comp : Option (IdxArg F)} {cs : List Nat} (hc : CompDenotes m comp cs) :
    ∃ g v r', select pf r comp (cuts.map (·.z)) true = .ok (g, v, r') ∧
      Holds r' (cuts.map fun c => c.axis.window c.lo c.hi) cs.length
        fun idx k => f (List.zipWith (· + ·) idx (cuts.map (·.lo))) (cs.getD k 0) := by
  obtain ⟨hg, ⟨v, hv, hf⟩, hcells, -⟩ := h
  rw [List.map_map] at hg hcells hf
  have hsel : ∀ a ∈ cuts.map Cut.sel, a.OK := by
    intro a ha; obtain ⟨c, hc, rfl⟩ := List.mem_map.1 ha; exact cut_ok (hok c hc)
  have hH : HasAxes r (cuts.map Cut.sel) m v :=
    ⟨by rw [hg, List.map_map]; rfl, hv, hf.wf, by rw [hf.shape, List.map_map]; rfl, by simp [GData.numDims, hcells],
      by simpa using hne, by simpa using h6⟩
  obtain ⟨out, e1, hp⟩ := C11_select_partial pf r _ m v hH hsel comp cs hc []
  have hz : (cuts.map Cut.sel).map (·.z) ++ [] = cuts.map (·.z) := by rw [List.append_nil, List.map_map]; rfl
  rw [hz] at e1
  obtain ⟨r', e2, k1, k2, -, -⟩ := select_overwrite_of_ok pf hsel hp e1
  have c12 := C12_select_overwrite pf r _ _ _ _ _ e2
  obtain ⟨p1, p2, p3⟩ := hp
  simp only [List.map_map, Function.comp_def, Cut.sel] at p2 p3
  have hwc : (cuts.map fun c => c.axis.window c.lo c.hi).map (·.cells) = cuts.map fun c => c.hi - c.lo := by
    rw [List.map_map]; rfl
  refine ⟨_, out, r', e2, ⟨?_, ⟨out, k2, p1, by rw [p2, hwc], ?_⟩, ?_, ?_⟩⟩
  · rw [k1, List.map_map, List.map_map]
    exact congrArg _ (List.map_congr_left fun c hcc => by simp only [Function.comp_apply, cut_out (hok c hcc)])
  · intro idx hi k hk
    rw [hwc] at hi
    have hk' : cs[k]? = some (cs.getD k 0) := by
      rw [List.getD_eq_getElem?_getD, List.getElem?_eq_getElem hk]; rfl
    rw [p3 idx k _ hi hk']
    exact hf.get _ (cut_inRange hok hi) _ (compDenotes_lt hc _ (List.mem_of_getElem? hk'))
  · rw [hwc, GData.numCells, c12.2.2.1, p2, List.dropLast_concat]
  · obtain ⟨l, u, -, -, hb⟩ := c12.2.2.2.2.2.1
    exact ⟨_, hb⟩

omit [LinearOrder F] [IsStrictOrderedRing F] in
theorem window_mid [CharZero F] (a : Axis F) (lo hi i : Nat) : (a.window lo hi).mid i = a.mid (lo + i) := by
  simp only [Axis.mid, Axis.window, Axis.node]
  push_cast
  ring

/-- **C153.**  A line along one direction through interpolated data of any dimension: after selecting, from the interpolated
data, one cell along every direction but one, and components, the line drawn goes through one point per selected cell of
the remaining direction: at the midpoint of the cell along this direction, with the value of the expansion at the midpoint of
the refined cell that lies, along the other directions, where asked for. -/
theorem C153_line_through (pf : List Char → Option F) (h5 : Except Err (List (List F))) {q : DgCase F} {po : Option Nat}
    {b : Option String} {ni : Option Nat} {d : GData F} (h : q.Fits po b ni d) {cuts : List (Cut F)}
    (hcuts : q.fine = cuts.map (·.axis)) (hok : ∀ c ∈ cuts, c.OK) (h6 : cuts.length ≤ 6)
    {c : Cut F} (hc : cuts.filter (fun c => decide (1 < c.hi - c.lo)) = [c])
    {comp : Option (IdxArg F)} {cs : List Nat} (hcs : CompDenotes (q.m / q.fns.length) comp cs) {k j : Nat}
    (hk : cs[k]? = some j) (s : Scales F) :
    ∃ g v r g' v' r', interpolateOf h5 po b ni d = .ok (g, v) ∧ d.push g v = .ok r ∧
      select pf r comp (cuts.map (·.z)) true = .ok (g', v', r') ∧
      lineOf (1 / 2) s r' k = .ok ((List.range (c.hi - c.lo)).map (fun i => (c.axis.mid (c.lo + i) + s.xshift) * s.xscale),
        (List.range (c.hi - c.lo)).map fun i => (q.at j (cutIndex cuts [i]) + s.yshift) * s.yscale) := by
  obtain ⟨g, v, r, e1, e2, hh⟩ := interp_holds h5 h
  rw [hcuts] at hh
  have hne : cuts ≠ [] := by rintro rfl; simp at hc
  obtain ⟨g', v', r', e3, hh'⟩ := select_holds pf hh hok hne h6 hcs
  refine ⟨g, v, r, g', v', r', e1, e2, e3, ?_⟩
  have hf : (cuts.map fun c => c.axis.window c.lo c.hi).filter (fun a => decide (1 < a.cells)) = [c.axis.window c.lo c.hi] := by
    rw [List.filter_map]
    simp only [Function.comp_def, Axis.window]
    rw [hc]; rfl
  have hkl : k < cs.length := (List.getElem?_eq_some_iff.1 hk).1
  rw [lineOf_holds hh' (fun a ha => by
    obtain ⟨c, hcc, rfl⟩ := List.mem_map.1 ha
    have := (hok c hcc).some
    simp only [Axis.window]; omega) hf s hkl]
  simp only [window_mid, List.map_map, Function.comp_def]
  simp only [List.getD_eq_getElem?_getD, hk, Option.getD_some]
  rfl

/-- **C153.**  The same with two directions left: the cells selected from the refined mesh, each coloured by the value of the
expansion at its midpoint. -/
theorem C153_mesh_through (pf : List Char → Option F) (h5 : Except Err (List (List F))) {q : DgCase F} {po : Option Nat}
    {b : Option String} {ni : Option Nat} {d : GData F} (h : q.Fits po b ni d) {cuts : List (Cut F)}
    (hcuts : q.fine = cuts.map (·.axis)) (hok : ∀ c ∈ cuts, c.OK) (h6 : cuts.length ≤ 6)
    {c₀ c₁ : Cut F} (hc : cuts.filter (fun c => decide (1 < c.hi - c.lo)) = [c₀, c₁])
    {comp : Option (IdxArg F)} {cs : List Nat} (hcs : CompDenotes (q.m / q.fns.length) comp cs) {k l : Nat}
    (hk : cs[k]? = some l) (s : Scales F) :
    ∃ g v r g' v' r' z, interpolateOf h5 po b ni d = .ok (g, v) ∧ d.push g v = .ok r ∧
      select pf r comp (cuts.map (·.z)) true = .ok (g', v', r') ∧
      meshOf (1 / 2) s r' k = .ok ((c₀.axis.window c₀.lo c₀.hi).nodes.map (fun x => (x + s.xshift) * s.xscale),
        (c₁.axis.window c₁.lo c₁.hi).nodes.map (fun y => (y + s.yshift) * s.yscale), z) ∧
      z.WF ∧ z.shape = [c₁.hi - c₁.lo, c₀.hi - c₀.lo] ∧
      ∀ i j, i < c₀.hi - c₀.lo → j < c₁.hi - c₁.lo →
        z.get? [j, i] = some ((q.at l (cutIndex cuts [i, j]) + s.zshift) * s.zscale) := by
  obtain ⟨g, v, r, e1, e2, hh⟩ := interp_holds h5 h
  rw [hcuts] at hh
  have hne : cuts ≠ [] := by rintro rfl; simp at hc
  obtain ⟨g', v', r', e3, hh'⟩ := select_holds pf hh hok hne h6 hcs
  have hf : (cuts.map fun c => c.axis.window c.lo c.hi).filter (fun a => decide (1 < a.cells)) =
      [c₀.axis.window c₀.lo c₀.hi, c₁.axis.window c₁.lo c₁.hi] := by
    rw [List.filter_map]
    simp only [Function.comp_def, Axis.window]
    rw [hc]; rfl
  have hkl : k < cs.length := (List.getElem?_eq_some_iff.1 hk).1
  obtain ⟨z, m1, m2, m3, m4⟩ := meshOf_holds hh' (fun a ha => by
    obtain ⟨c, hcc, rfl⟩ := List.mem_map.1 ha
    have := (hok c hcc).some
    simp only [Axis.window]; omega) hf s hkl
  refine ⟨g, v, r, g', v', r', z, e1, e2, e3, m1, m2, m3, fun i j hi hj => ?_⟩
  rw [m4 i j hi hj]
  simp only [List.map_map, List.getD_eq_getElem?_getD, hk, Option.getD_some]
  rfl

end

section
variable {F : Type} [_root_.Field F] [CharZero F]
variable {unpack : Bytes → Except Err (Option (Dict String))} {dec : Word → F}

/-- **C153.**  From the bytes of a one-dimensional file to the line on the screen: `load`, of any part of the cells and
components, `interpolate` and `plot` draw, for every loaded cell, `p + 1` points of the function that the numbers of the file
are the coefficients of: at the midpoints of the equal parts that the cell is split into.  `n` is the number of cells of the
file, `l` and `u` are its bounds. -/
theorem C153_file [Min F] [Max F] {x : Spec.Field} {w : List Nat → Nat → Word} {f : Bytes} (hf : StoresWords x w f)
    (hx : x.OK (realSize x.realType)) {m : Dict String} (hm : x.metaBytes ≠ []) (hu : unpack x.metaBytes = .ok (some m))
    {p : Nat} {b : String} (hs : SaysDg m p b) (hp : 1 ≤ p) {n : Nat} {l u : Word} (hn : x.cells = [n]) (hl : x.lower = [l])
    (hup : x.upper = [u]) {r₀ cr : Restr} (hr : r₀.OK n) (hc : cr.OK x.comps) (hb : dec l ≠ dec u) {fns : List Dg.Poly}
    (hq : (windowCase dec x w [r₀] cr p b fns (p + 1)).Supported) (h5 : Except Err (List (List F)))
    (tag label : List Char) (ctx : Ctx F) {j : Nat} (hj : j < (cr.stop x.comps - cr.start) / fns.length) (s : Scales F) :
    ∃ d g v r, GData.ofFile unpack dec (Cfg.make [r₀.text] cr.text) tag label ctx f = .ok d ∧
      interpolateOf h5 none none none d = .ok (g, v) ∧ d.push g v = .ok r ∧
      lineOf (1 / 2) s r j = .ok
        ((List.range ((r₀.stop n - r₀.start) * (p + 1))).map (fun i =>
          (dec l + (((r₀.start * (p + 1) + i : Nat) : F) + 1 / 2) * ((dec u - dec l) / (n * (p + 1))) + s.xshift) * s.xscale),
         (List.range ((r₀.stop n - r₀.start) * (p + 1))).map fun i =>
          (expand fns (fun k => dec (w [i / (p + 1) + r₀.start] (cr.start + (j * fns.length + k))))
            [(2 * ((i % (p + 1) : Nat) : F) + 1) / (p + 1) - 1] + s.yshift) * s.yscale) := by
  have hfo : List.Forall₂ Restr.OK x.cells [r₀] := by rw [hn]; exact .cons hr .nil
  obtain ⟨d, hd, hst, hma, -, -⟩ := C127_load (dec := dec) hf hx hm hu hs.keys (by simp [hn]) (by simp [hn]) hfo hc
    (by rw [hl, hup]; exact .cons hb .nil) tag label ctx
  have hfits : (windowCase dec x w [r₀] cr p b fns (p + 1)).Fits none none none d :=
    ⟨hst _ _ _ _, says_chosen hs hp hma _ rfl rfl rfl, hq⟩
  have hlen : (windowCase dec x w [r₀] cr p b fns (p + 1)).cells.length = 1 := by simp [windowCase, hn]
  have hpc : perCell b 1 (p + 1) = [p + 1] := by
    have := hq.line hlen
    refine (Dg.perCell_plain (dims := 1) (n := p + 1) ?_ ?_).trans rfl <;>
    · rintro rfl
      revert this
      simp only [windowCase]
      decide
  have hax : windowAxes dec x.cells [r₀] x.lower x.upper =
      [⟨dec l + (r₀.start : F) * ((dec u - dec l) / (n : F)), (dec u - dec l) / (n : F), r₀.stop n - r₀.start⟩] := by
    rw [hn, hl, hup]; rfl
  obtain ⟨a, ha⟩ : ∃ a : Axis F, a = ⟨dec l + (r₀.start : F) * ((dec u - dec l) / (n : F)), (dec u - dec l) / (n : F),
    r₀.stop n - r₀.start⟩ := ⟨_, rfl⟩
  rw [← ha] at hax
  have hfine : (windowCase dec x w [r₀] cr p b fns (p + 1)).fine = [a.refine (p + 1)] := by
    rw [DgCase.fine, hlen]
    simp only [windowCase, hax, hpc, refineAll]
    rfl
  obtain ⟨h1, h2, -⟩ := id hr
  have hn0 : (n : F) ≠ 0 := by exact_mod_cast (by omega : n ≠ 0)
  have hp0 : ((p : F) + 1) ≠ 0 := by exact_mod_cast (by omega : p + 1 ≠ 0)
  have hdx : dec u - dec l ≠ 0 := sub_ne_zero.2 (Ne.symm hb)
  obtain ⟨g, v, r, e1, e2, e3⟩ := C153_line h5 hfits hfine (fun c hcc => by
    simp only [windowCase, hax, List.mem_singleton] at hcc
    rw [hcc, ha]; simp only; omega) (j := j) hj s
  refine ⟨d, g, v, r, hd, e1, e2, ?_⟩
  rw [e3]
  have hac : (a.refine (p + 1)).cells = (r₀.stop n - r₀.start) * (p + 1) := by rw [ha]; rfl
  rw [hac]
  congr 2
  · refine List.map_congr_left fun i _ => ?_
    congr 2
    rw [ha]
    simp only [Axis.mid, Axis.refine, Axis.node]
    push_cast
    field_simp
    ring
  · refine List.map_congr_left fun i _ => ?_
    congr 2
    rw [DgCase.at, hlen, hfine]
    simp only [windowCase, DgCase.value, cellValue, hax, hpc, List.zipWith_cons_cons, List.zipWith_nil_left, midPt, localPt,
      List.map_cons, List.map_nil]
    congr 2
    have e : ((i : Nat) : F) = ((p : F) + 1) * ((i / (p + 1) : Nat) : F) + ((i % (p + 1) : Nat) : F) := by
      exact_mod_cast (Nat.div_add_mod i (p + 1)).symm
    rw [ha]
    simp only [Axis.local, Axis.mid, Axis.refine, Axis.node]
    push_cast
    rw [e]
    field_simp
    ring

end

namespace PictureEx
open MappedLoadEx DgEx Pgkyl.FileInterpEx

/-- no shift, no scale -/
def plain : Scales ℚ := ⟨0, 1, 0, 1, 0, 1⟩

theorem fine_eq : (storedCase 2 : DgCase ℚ).fine = [⟨0, 1 / 2, 4⟩, ⟨-1, 1 / 4, 6⟩] := by
  have : perCell "serendipity" 2 2 = [2, 2] := by decide
  simp only [DgCase.fine, storedCase, List.length_cons, List.length_nil, this, refineAll, axes, List.zipWith_cons_cons,
    Axis.refine, List.zipWith_nil_right]
  norm_num

theorem some_field : 1 < (storedCase 2 : DgCase ℚ).m / (storedCase 2 : DgCase ℚ).fns.length := by
  show 1 < 8 / DgEx.fns.length
  rw [fns_length]; decide

/-- The hypotheses of `C153_mesh` are met by two fields on two by three cells: the second field. -/
example : ∃ g v r z, interpolateOf (.error .fail) none none none (stored : GData ℚ) = .ok (g, v) ∧
    (stored : GData ℚ).push g v = .ok r ∧
    contourOf (1 / 2) plain r 1 = .ok ([1 / 4, 3 / 4, 5 / 4, 7 / 4], [-7 / 8, -5 / 8, -3 / 8, -1 / 8, 1 / 8, 3 / 8], z) ∧
    z.get? [5, 3] = some ((storedCase 2 : DgCase ℚ).value 1 [1, 2] [7 / 4, 3 / 8]) := by
  obtain ⟨g, v, r, z, h1, h2, -, h3, -, -, h4⟩ := C153_mesh (.error .fail) (stored_fits true).1 fine_eq
    (by simp [storedCase, axes]) some_field plain
  refine ⟨g, v, r, z, h1, h2, ?_, ?_⟩
  · rw [h3]
    simp [List.range_succ, Axis.mid, Axis.node, plain]
    norm_num
  · rw [h4 3 5 (by simp) (by simp)]
    have : perCell "serendipity" 2 2 = [2, 2] := by decide
    rw [DgCase.at, fine_eq]
    simp only [storedCase, List.length_cons, List.length_nil, this, List.zipWith_cons_cons, List.zipWith_nil_right, midPt,
      Axis.mid, Axis.node, plain]
    norm_num

theorem ok_left {e : Except Err (List ℚ × List ℚ)} {xs xs' ys : List ℚ} (h : e = .ok (xs, ys)) (hx : xs = xs') : e = .ok (xs', ys) := by
  rw [h, hx]

/-- All cells of the first direction; the refined cell that contains 0.3 of the second. -/
def cuts : List (Cut ℚ) := [⟨⟨0, 1 / 2, 4⟩, none, 0, 4⟩, ⟨⟨-1, 1 / 4, 6⟩, some (.float (3 / 10)), 5, 6⟩]

theorem cuts_ok : ∀ c ∈ cuts, c.OK := by
  intro c hc
  simp only [cuts, List.mem_cons, List.not_mem_nil, or_false] at hc
  rcases hc with rfl | rfl
  · exact ⟨by norm_num, by norm_num, .all⟩
  · refine ⟨by norm_num, by norm_num, .coord _ 5 (by simp [Axis.nodes]) ⟨1 / 4, 1 / 2, ?_, ?_, by norm_num, .inl (by norm_num)⟩⟩ <;>
    · simp [Axis.nodes, List.range_succ, Axis.node]; norm_num

/-- The hypotheses of `C153_line_through` are met: the line at 0.3, of the second field. -/
example : ∃ g v r g' v' r' ys, interpolateOf (.error .fail) none none none (stored : GData ℚ) = .ok (g, v) ∧
    (stored : GData ℚ).push g v = .ok r ∧
    select (fun _ => none) r (some (.int 1)) [none, some (.float (3 / 10))] true = .ok (g', v', r') ∧
    lineOf (1 / 2) plain r' 0 = .ok ([1 / 4, 3 / 4, 5 / 4, 7 / 4], ys) ∧
    ys[3]? = some ((storedCase 2 : DgCase ℚ).value 1 [1, 2] [7 / 4, 3 / 8]) := by
  obtain ⟨g, v, r, g', v', r', h1, h2, h3, h4⟩ := C153_line_through (fun _ => none) (.error .fail) (stored_fits (F := ℚ) true).1
    (cuts := cuts) fine_eq cuts_ok (by simp [cuts]) (c := ⟨⟨0, 1 / 2, 4⟩, none, 0, 4⟩) (by simp [cuts])
    (.index 1 some_field) (k := 0) (j := 1) rfl plain
  refine ⟨g, v, r, g', v', r', _, h1, h2, h3, ok_left h4 ?_, ?_⟩
  · simp [List.range_succ, Axis.mid, Axis.node, plain]
    norm_num
  · have : perCell "serendipity" 2 2 = [2, 2] := by decide
    have hi : cutIndex cuts [3] = [3, 5] := by decide +kernel
    rw [List.getElem?_map, List.getElem?_range (by simp), Option.map_some, DgCase.at, fine_eq, hi]
    simp only [storedCase, List.length_cons, List.length_nil, this, List.zipWith_cons_cons, List.zipWith_nil_right, midPt,
      Axis.mid, Axis.node, plain]
    norm_num

/-- both directions in part: two of four, three of six -/
def cuts2 : List (Cut ℚ) := [⟨⟨0, 1 / 2, 4⟩, some (.str (dec 1 ++ ':' :: dec 3)), 1, 3⟩,
  ⟨⟨-1, 1 / 4, 6⟩, some (.str (dec 3 ++ [':'])), 3, 6⟩]

/-- The hypotheses of `C153_mesh_through` are met. -/
example : ∃ g v r g' v' r' z, interpolateOf (.error .fail) none none none (stored : GData ℚ) = .ok (g, v) ∧
    (stored : GData ℚ).push g v = .ok r ∧
    select (fun _ => none) r none (cuts2.map (·.z)) true = .ok (g', v', r') ∧
    meshOf (1 / 2) plain r' 1 = .ok ([1 / 2, 1, 3 / 2], [-1 / 4, 0, 1 / 4, 1 / 2], z) ∧
    z.get? [2, 1] = some ((storedCase 2 : DgCase ℚ).at 1 [2, 5]) := by
  obtain ⟨g, v, r, g', v', r', z, h1, h2, h3, h4, -, -, h5⟩ := C153_mesh_through (fun _ => none) (.error .fail)
    (stored_fits (F := ℚ) true).1 (cuts := cuts2) fine_eq (by
      intro c hc
      simp only [cuts2, List.mem_cons, List.not_mem_nil, or_false] at hc
      rcases hc with rfl | rfl
      · exact ⟨by norm_num, by norm_num, .range 1 3 (by norm_num) (by norm_num)⟩
      · exact ⟨by norm_num, by norm_num, .from 3 (by norm_num)⟩) (by simp [cuts2]) (c₀ := cuts2[0]) (c₁ := cuts2[1])
    (by simp [cuts2]) .all (k := 1) (l := 1) (List.getElem?_range some_field) plain
  refine ⟨g, v, r, g', v', r', z, h1, h2, h3, ?_, ?_⟩
  · rw [h4]
    simp [cuts2, Axis.nodes, Axis.window, List.range_succ, Axis.node, plain]
    norm_num
  · rw [h5 1 2 (by simp [cuts2]) (by simp [cuts2])]
    have hi : cutIndex cuts2 [1, 2] = [2, 5] := by decide +kernel
    rw [hi]
    simp [plain]

/-- the piecewise-linear functions on a line -/
def fns1 : List Dg.Poly :=
  match Dg.interpFns 1 1 "serendipity" true with
  | .ok f => f
  | .error _ => []

/-- a file with four cells from 0 to 8, two coefficients each -/
def line4 : Spec.Field := ⟨[7], 2, [4], [w 0], [w 8], 2⟩
def data4 : NArr Word := ⟨[4, 2], (List.range 8).map fun k => w (UInt8.ofNat (k + 1))⟩
def words4 (i : List Nat) (c : Nat) : Word := (data4.get? (i ++ [c])).getD []

/-- The hypotheses of `C153_file` are met, loading the cells 1 and 2. -/
example : ∃ d g v r ys, GData.ofFile unpackEx num (Cfg.make [some "1:3".toList] none) [] [] {} (fieldFile line4 data4) = .ok d ∧
    interpolateOf (.error .fail) none none none d = .ok (g, v) ∧ d.push g v = .ok r ∧
    lineOf (1 / 2) plain r 0 = .ok ([5 / 2, 7 / 2, 9 / 2, 11 / 2], ys) ∧
    ys[3]? = some (expand fns1 (fun k => num (words4 [2] k)) [1 / 2]) := by
  have hl : fns1.length = 2 := by decide +kernel
  obtain ⟨d, g, v, r, h1, h2, h3, h4⟩ := C153_file (F := ℚ) (unpack := unpackEx) (dec := num) (x := line4) (w := words4)
    (f := fieldFile line4 data4) (.one ⟨rfl, by decide⟩ rfl fun i c hi hc => by
      obtain ⟨y, hy⟩ := Option.isSome_iff_exists.1 (NArr.get?_isSome (a := data4) rfl (idx := i ++ [c])
        (inRange_snoc_iff.2 ⟨hi, hc⟩))
      simp only [words4, hy, Option.getD_some])
    ⟨.inr rfl, by decide, by decide, by decide, by decide, by decide, by decide, rfl, rfl, by decide, by decide⟩
    (by decide) rfl (p := 1) (b := "serendipity") q_ok.tells le_rfl (n := 4) (l := w 0) (u := w 8) rfl rfl rfl (r₀ := .range (some 1) (some 3)) (cr := .all)
    ⟨by decide, by decide, fun a k h => by cases h⟩ (all_ok (by decide)) (by decide +kernel) (fns := fns1)
    { fns := by decide +kernel, line := fun _ => by simp [windowCase]
      zero := fun h => by simp [windowCase] at h
      fields := by show 1 ≤ fns1.length ∧ fns1.length ≤ 2; rw [hl]; decide } (.error .fail) [] [] {} (j := 0)
    (by rw [hl]; decide) plain
  have e0 : num (w 0) = 0 := by decide +kernel
  have e8 : num (w 8) = 8 := by decide +kernel
  refine ⟨d, g, v, r, _, h1, h2, h3, ok_left h4 ?_, ?_⟩
  · simp [Restr.stop, Restr.start, List.range_succ, e0, e8, plain]
    norm_num
  · rw [List.getElem?_map, List.getElem?_range (by decide), Option.map_some]
    simp [Restr.start, plain]
    norm_num

end PictureEx
end Pgkyl
