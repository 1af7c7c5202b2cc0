import Verif.Spec.SelectInterp
import Verif.Props.Select
import Verif.Props.DgCommands
import Mathlib.Tactic.FieldSimp
import Mathlib.Tactic.Ring
import Mathlib.Tactic.Linarith
/-!
# C130: selecting cells and interpolating can be done in either order

Numbers are the elements of a linearly ordered field (exact arithmetic).
-/

namespace Pgkyl
open Spec Cmd

variable {F : Type} [_root_.Field F] [LinearOrder F] [IsStrictOrderedRing F]

omit [IsStrictOrderedRing F] [LinearOrder F] in
theorem mesh_nodes {g : List (NArr F)} {axes : List (Axis F)} (h : IsMesh g axes) :
    g = axes.map fun a => NArr.ofList a.nodes := by
  induction h with
  | nil => rfl
  | @cons x a g axes h1 _ ih =>
    rw [List.map_cons, ← ih]
    congr 1
    obtain ⟨s, d⟩ := x
    obtain ⟨h1, h2⟩ := h1
    simp only at h1 h2
    simp [NArr.ofList, Axis.nodes, h1, h2]

omit [IsStrictOrderedRing F] [LinearOrder F] in
theorem nodes_mesh (axes : List (Axis F)) : IsMesh (axes.map fun a => NArr.ofList a.nodes) axes := by
  induction axes with
  | nil => exact .nil
  | cons a axes ih => exact .cons ⟨by simp [NArr.ofList, Axis.nodes], rfl⟩ ih

theorem nodes_increasing {a : Axis F} (h : 0 < a.dx) : Increasing a.nodes := by
  unfold Increasing Axis.nodes
  rw [List.pairwise_map]
  refine List.Pairwise.imp ?_ List.pairwise_lt_range
  intro i j hij
  have : (i : F) < j := by exact_mod_cast hij
  unfold Axis.node
  have := mul_lt_mul_of_pos_right this h
  linarith

omit [IsStrictOrderedRing F] [LinearOrder F] in
/-- The nodes of a window. -/
theorem window_nodes {a : Axis F} {lo hi : Nat} (h : lo ≤ hi) (hn : hi ≤ a.cells) :
    (a.nodes.drop lo).take (hi - lo + 1) = (a.window lo hi).nodes := by
  apply List.ext_getElem
  · simp [Axis.nodes, Axis.window]; omega
  · intro k h1 h2
    simp only [Axis.nodes, Axis.window, List.getElem_take, List.getElem_drop, List.getElem_map, List.getElem_range, Axis.node]
    push_cast
    ring

/-- The axis with the first selection. -/
def Spec.Portion.selBefore (p : Portion F) : SelAxis F := ⟨p.axis.nodes, p.axis.cells, p.before, p.lo, p.hi⟩

/-- The refined axis with the second selection. -/
def Spec.Portion.selAfter (p : Portion F) (n : Nat) : SelAxis F :=
  ⟨(p.axis.refine n).nodes, (p.axis.refine n).cells, p.after, p.lo * n, p.hi * n⟩

omit [IsStrictOrderedRing F] [LinearOrder F] in
theorem nodes_length (a : Axis F) : a.nodes.length = a.cells + 1 := by simp [Axis.nodes]

theorem selBefore_ok {p : Portion F} {n : Nat} (h : p.OK n) : p.selBefore.OK :=
  ⟨nodes_increasing h.dx, .inl (nodes_length _), h.before, h.some⟩

theorem selAfter_ok {p : Portion F} {n : Nat} (h : p.OK n) (hn : 0 < n) : (p.selAfter n).OK :=
  ⟨nodes_increasing (div_pos h.dx (by exact_mod_cast hn)), .inl (nodes_length _), h.after, Nat.mul_lt_mul_of_pos_right h.some hn⟩

omit [IsStrictOrderedRing F] in
theorem selBefore_out {p : Portion F} {n : Nat} (h : p.OK n) : p.selBefore.nodesOut = (p.axis.window p.lo p.hi).nodes := by
  have hl : p.selBefore.nodes.length ≠ p.selBefore.n := by
    simp only [Portion.selBefore, nodes_length]; omega
  rw [SelAxis.nodesOut, if_neg hl]
  exact window_nodes h.some.le (denotes_le h.before)

theorem selAfter_out {p : Portion F} {n : Nat} (h : p.OK n) (hn : 0 < n) :
    (p.selAfter n).nodesOut = ((p.axis.window p.lo p.hi).refine n).nodes := by
  have hl : (p.selAfter n).nodes.length ≠ (p.selAfter n).n := by
    simp only [Portion.selAfter, nodes_length]; omega
  rw [SelAxis.nodesOut, if_neg hl]
  refine (window_nodes (Nat.mul_le_mul_right _ h.some.le) (denotes_le h.after)).trans ?_
  have hnF : (n : F) ≠ 0 := by exact_mod_cast (by omega : n ≠ 0)
  congr 1
  simp only [Axis.window, Axis.refine, Axis.node, Axis.mk.injEq, true_and]
  refine ⟨?_, by rw [Nat.sub_mul]⟩
  push_cast
  field_simp

/-- The local coordinates of the refined midpoints do not depend on where the part starts. -/
theorem part_local : ∀ {ps : List (Portion F)} {ns idx : List Nat}, List.Forall₂ Portion.OK ps ns → idx.length = ps.length →
    (∀ n ∈ ns, 0 < n) →
    localPt (ps.map fun p => p.axis.window p.lo p.hi) (List.zipWith (· / ·) idx ns)
      (midPt (refineAll (ps.map fun p => p.axis.window p.lo p.hi) ns) idx) =
    localPt (ps.map (·.axis))
      (List.zipWith (· / ·) (List.zipWith (· + ·) idx (List.zipWith (fun p n => p.lo * n) ps ns)) ns)
      (midPt (refineAll (ps.map (·.axis)) ns) (List.zipWith (· + ·) idx (List.zipWith (fun p n => p.lo * n) ps ns))) := by
  intro ps ns idx h
  induction h generalizing idx with
  | nil => intro _ _; rfl
  | @cons p n ps ns h1 _ ih =>
    intro hi hpos
    cases idx with
    | nil => simp at hi
    | cons i is =>
      have hq : 0 < n := hpos n (by simp)
      have e : (i + p.lo * n) / n = i / n + p.lo := Nat.add_mul_div_right _ _ hq
      have hqF : (n : F) ≠ 0 := by exact_mod_cast (by omega : n ≠ 0)
      have := ih (idx := is) (by simpa using hi) fun q hq => hpos q (by simp [hq])
      simp only [refineAll] at this
      simp only [refineAll, List.zipWith_cons_cons, List.map_cons, midPt, localPt, e]
      rw [this]
      congr 1
      simp only [Axis.local, Axis.mid, Axis.node, Axis.refine, Axis.window]
      congr 1
      push_cast
      field_simp
      ring

omit [IsStrictOrderedRing F] in
theorem part_cell : ∀ {ps : List (Portion F)} {ns idx : List Nat}, List.Forall₂ Portion.OK ps ns → idx.length = ps.length →
    (∀ n ∈ ns, 0 < n) →
    List.zipWith (· + ·) (List.zipWith (· / ·) idx ns) (ps.map (·.lo)) =
    List.zipWith (· / ·) (List.zipWith (· + ·) idx (List.zipWith (fun p n => p.lo * n) ps ns)) ns := by
  intro ps ns idx h
  induction h generalizing idx with
  | nil => intro hi _; cases idx <;> simp at hi ⊢
  | @cons p n ps ns h1 _ ih =>
    intro hi hpos
    cases idx with
    | nil => simp at hi
    | cons i is =>
      have hq : 0 < n := hpos n (by simp)
      simp only [List.zipWith_cons_cons, List.map_cons]
      rw [ih (by simpa using hi) fun q hq => hpos q (by simp [hq]), Nat.add_mul_div_right _ _ hq]

omit [IsStrictOrderedRing F] in
theorem part_inRange : ∀ {ps : List (Portion F)} {ns idx : List Nat}, List.Forall₂ Portion.OK ps ns →
    inRange (List.zipWith (· * ·) (ps.map fun p => p.hi - p.lo) ns) idx = true →
    inRange (List.zipWith (· * ·) (ps.map (·.axis.cells)) ns)
      (List.zipWith (· + ·) idx (List.zipWith (fun p n => p.lo * n) ps ns)) = true := by
  intro ps ns idx h
  induction h generalizing idx with
  | nil => intro hi; cases idx <;> simp [inRange] at hi ⊢
  | @cons p n ps ns h1 _ ih =>
    intro hi
    cases idx with
    | nil => simp [inRange] at hi
    | cons i is =>
      simp only [List.zipWith_cons_cons, List.map_cons, inRange, Bool.and_eq_true, decide_eq_true_eq] at hi ⊢
      refine ⟨?_, ih hi.2⟩
      have h2 := denotes_le h1.before
      have h3 := h1.some
      calc i + p.lo * n < (p.hi - p.lo) * n + p.lo * n := by omega
        _ = (p.hi - p.lo + p.lo) * n := by ring
        _ ≤ p.axis.cells * n := Nat.mul_le_mul_right _ (by omega)

omit [IsStrictOrderedRing F] in
theorem part_cells : ∀ {ps : List (Portion F)} {idx : List Nat} {ns : List Nat}, List.Forall₂ Portion.OK ps ns →
    inRange (ps.map fun p => p.hi - p.lo) idx = true →
    inRange (ps.map (·.axis.cells)) (List.zipWith (· + ·) idx (ps.map (·.lo))) = true := by
  intro ps idx ns h
  induction h generalizing idx with
  | nil => intro hi; cases idx <;> simp [inRange] at hi ⊢
  | @cons p n ps ns h1 _ ih =>
    intro hi
    cases idx with
    | nil => simp [inRange] at hi
    | cons i is =>
      simp only [List.zipWith_cons_cons, List.map_cons, inRange, Bool.and_eq_true, decide_eq_true_eq] at hi ⊢
      refine ⟨?_, ih hi.2⟩
      have h2 := denotes_le h1.before
      omega

/-- The selected part of an expansion. -/
theorem select_part (pf : List Char → Option F) {q : DgCase F} {po : Option Nat} {b : Option String} {ni : Option Nat}
    {d : GData F} (h : q.Fits po b ni d) {ps : List (Portion F)} (hax : q.axes = ps.map (·.axis))
    {ns : List Nat} (hps : List.Forall₂ Portion.OK ps ns) (h6 : q.cells.length ≤ 6) :
    ∃ g v d₁, select pf d none (ps.map (·.before)) true = .ok (g, v, d₁) ∧ (q.part ps).Fits po b ni d₁ := by
  obtain ⟨hst, hch, hsu⟩ := h
  obtain ⟨⟨g, ⟨hg, hgl, hgn, v, hv, hf⟩, hm⟩, hcnt, huni, hcells, hdx, hpos⟩ := hst
  have hlen : ps.length = q.cells.length := by
    rw [← hcells, hax]; simp
  have hcells' : q.cells = ps.map (·.axis.cells) := by
    rw [← hcells, hax, List.map_map]; rfl
  have hok : ∀ p ∈ ps, ∃ n, p.OK n := by
    intro p hp
    obtain ⟨i, hi, rfl⟩ := List.getElem_of_mem hp
    exact ⟨_, (List.forall₂_iff_get.1 hps).2 i hi (by rw [← hps.length_eq]; exact hi)⟩
  have hsel : ∀ a ∈ ps.map Portion.selBefore, a.OK := by
    intro a ha
    obtain ⟨p, hp, rfl⟩ := List.mem_map.1 ha
    obtain ⟨n, hn⟩ := hok p hp
    exact selBefore_ok hn
  have hH : HasAxes d (ps.map Portion.selBefore) q.m v := by
    refine ⟨?_, hv, hf.wf, ?_, ?_, ?_, ?_⟩
    · rw [hg, mesh_nodes hm, hax, List.map_map, List.map_map]; rfl
    · rw [hf.shape, hcells', List.map_map]; rfl
    · rw [hcnt.1, List.length_map, hlen]
    · intro e
      have := congrArg List.length e
      simp at this
      rw [this] at hlen
      simp at hlen
      omega
    · rw [List.length_map, hlen]; exact h6
  obtain ⟨out, e1, hp⟩ := C11_select_partial pf d _ q.m v hH hsel none _ .all []
  obtain ⟨d₁, e2, k1, k2, k3, k4⟩ := select_overwrite_of_ok pf hsel hp e1
  have c12 := C12_select_overwrite pf d none _ _ _ _ e2
  have hz : (ps.map Portion.selBefore).map (·.z) ++ [] = ps.map (·.before) := by
    rw [List.append_nil, List.map_map]; rfl
  rw [hz] at e2
  have hgrid : ((ps.map Portion.selBefore).map fun a => NArr.ofList a.nodesOut) =
      (ps.map fun p => p.axis.window p.lo p.hi).map fun a => NArr.ofList a.nodes := by
    rw [List.map_map, List.map_map]
    refine List.map_congr_left fun p hp => ?_
    obtain ⟨n, hn⟩ := hok p hp
    simp only [Function.comp_apply, selBefore_out hn]
  have hmesh := nodes_mesh (ps.map fun p => p.axis.window p.lo p.hi)
  have hfield : IsField out (ps.map fun p => p.hi - p.lo) q.m
      (fun i k => q.f (List.zipWith (· + ·) i (ps.map (·.lo))) k) := by
    refine ⟨hp.1, ?_, fun i hi c hc => ?_⟩
    · rw [hp.2.1, List.map_map, List.length_range]; rfl
    · have := hp.2.2 i c c (by rw [List.map_map]; exact hi) (List.getElem?_range hc)
      rw [this, List.map_map]
      exact hf.get _ (by rw [hcells']; exact part_cells hps hi) c hc
  have hother : d₁.ctx.other = d.ctx.other := k3
  refine ⟨_, out, d₁, e2, ⟨⟨_, ⟨?_, ?_, ?_, out, k2, hfield⟩, hmesh⟩, ⟨?_, ?_⟩, ?_, ?_, ?_, ?_⟩, ⟨?_, ?_, hch.points, hch.two⟩, ?_⟩
  · rw [k1, hgrid]
  · simp [DgCase.part]
  · exact (mesh_length hmesh).2
  · rw [k4]; simp [DgCase.part]
  · have := c12.2.2.2.1
    rw [hfield.last] at this
    have h1 := hsu.fields
    obtain ⟨k, hk⟩ : ∃ k, q.m = k + 1 := ⟨q.m - 1, by omega⟩
    simp only [GData.numComps, this, hk]
    simp only [DgCase.part, hk]
  · rw [hother]; exact huni
  · simp [DgCase.part, Axis.window]
  · intro a ha
    obtain ⟨p, hp, rfl⟩ := List.mem_map.1 ha
    obtain ⟨n, hn⟩ := hok p hp
    exact hn.dx.ne'
  · simp only [DgCase.part, List.length_map, hlen]; exact hpos
  · rw [hother]; exact hch.order
  · rw [hother]; exact hch.basis
  · have hl : (q.part ps).cells.length = q.cells.length := by simp [DgCase.part, hlen]
    exact ⟨by rw [hl]; exact hsu.fns, by rw [hl]; exact hsu.line, hsu.zero, hsu.fields⟩

/-- **C130**, first half: selecting cells of an expansion, in place, leaves the expansion on these cells: the same order, basis
and points per cell, the coefficients of the selected cells, on the mesh they had. -/
theorem C130_select (pf : List Char → Option F) {q : DgCase F} {po : Option Nat} {b : Option String} {ni : Option Nat}
    {d : GData F} (h : q.Fits po b ni d) {ps : List (Portion F)} (hax : q.axes = ps.map (·.axis))
    (hps : List.Forall₂ Portion.OK ps (perCell q.basis q.cells.length q.points)) (h6 : q.cells.length ≤ 6) :
    ∃ g v d₁, select pf d none (ps.map (·.before)) true = .ok (g, v, d₁) ∧ (q.part ps).Fits po b ni d₁ :=
  select_part pf h hax hps h6

/-- Values on a refined mesh: the part asked for, when it agrees with given values on the refined part. -/
theorem select_refined (pf : List Char → Option F) {ps : List (Portion F)} {ns : List Nat} (hps : List.Forall₂ Portion.OK ps ns)
    (hpp : ∀ n ∈ ns, 0 < n) (h1p : 1 ≤ ps.length) (h6 : ps.length ≤ 6) {m : Nat} {f f' : List Nat → Nat → F}
    {g gi : List (NArr F)} {v vi : NArr F} (hm : IsMesh g (refineAll (ps.map (·.axis)) ns))
    (hf : IsField v (List.zipWith (· * ·) (ps.map (·.axis.cells)) ns) m f)
    (hmi : IsMesh gi (refineAll (ps.map fun p => p.axis.window p.lo p.hi) ns))
    (hfi : IsField vi (List.zipWith (· * ·) (ps.map fun p => p.hi - p.lo) ns) m f')
    (hff : ∀ i, inRange (List.zipWith (· * ·) (ps.map fun p => p.hi - p.lo) ns) i = true → ∀ j < m,
      f' i j = f (List.zipWith (· + ·) i (List.zipWith (fun p n => p.lo * n) ps ns)) j) (d : GData F) :
    ∃ r, d.push g v = .ok r ∧ select pf r none (ps.map (·.after)) false = .ok (gi, vi, r) := by
  have hpl : ns.length = ps.length := hps.length_eq.symm
  obtain ⟨sa, hsa⟩ : ∃ sa, sa = List.zipWith (fun p n => Portion.selAfter p n) ps ns := ⟨_, rfl⟩
  have hpair : ∀ i : Nat, ∀ p n, ps[i]? = some p → ns[i]? = some n → p.OK n ∧ 0 < n := by
    intro i p n hp hn
    obtain ⟨hi, rfl⟩ := List.getElem?_eq_some_iff.1 hp
    obtain ⟨hj, rfl⟩ := List.getElem?_eq_some_iff.1 hn
    exact ⟨(List.forall₂_iff_get.1 hps).2 i hi hj, hpp _ (List.getElem_mem _)⟩
  have hmap : ∀ {β : Type} (f : SelAxis F → β) (k : Portion F → Nat → β), (∀ p n, p.OK n → 0 < n → f (p.selAfter n) = k p n) →
      sa.map f = List.zipWith k ps ns := by
    intro β f k hk
    rw [hsa]
    clear * - hps hpp hk
    induction hps with
    | nil => rfl
    | cons h1 _ ih =>
      simp only [List.zipWith_cons_cons, List.map_cons]
      rw [hk _ _ h1 (hpp _ (by simp)), ih fun n hn => hpp n (by simp [hn])]
  have hsaok : ∀ a ∈ sa, a.OK := by
    intro a ha
    rw [hsa] at ha
    obtain ⟨i, hi, rfl⟩ := List.getElem_of_mem ha
    rw [List.length_zipWith] at hi
    simp only [List.getElem_zipWith]
    have := hpair i ps[i] ns[i] (List.getElem?_eq_getElem (by omega)) (List.getElem?_eq_getElem (by omega))
    exact selAfter_ok this.1 this.2
  have hflen : (List.zipWith (· * ·) (ps.map (·.axis.cells)) ns).length ≤ g.length := by
    rw [(mesh_length hm).1, refineAll_length (by simp [hpl])]
    simp [hpl]
  obtain ⟨r, e4, hr⟩ := push_field hflen (mesh_length hm).2 hf d
  obtain ⟨hrg, -, -, v', hrv, -⟩ := id hr
  have htag := push_tag e4
  have hrv' : r.values = some v := htag.2.2.2.2
  have hrd : r.numDims = ps.length := by
    obtain ⟨nc, l, u, -, -, -, rfl⟩ := GData.push_eq_ok e4
    simp only [GData.numDims, GData.numCells, hf.shape]
    simp [hpl]
  have hH : HasAxes r sa m v := by
    refine ⟨?_, hrv', hf.wf, ?_, ?_, ?_, ?_⟩
    · rw [hrg, mesh_nodes hm, refineAll, List.zipWith_map_left, hmap (fun a => NArr.ofList a.nodes) (fun p n => NArr.ofList (p.axis.refine n).nodes)
        (fun _ _ _ _ => rfl), List.map_zipWith]
    · rw [hf.shape, hmap (·.n) (fun p n => p.axis.cells * n) (fun _ _ _ _ => rfl), List.zipWith_map_left]
    · rw [hrd, hsa, List.length_zipWith, hpl]; simp
    · intro e
      have e' := congrArg List.length e
      rw [hsa, List.length_zipWith, hpl, List.length_nil] at e'
      omega
    · rw [hsa, List.length_zipWith, hpl]; omega
  obtain ⟨out, e5, hp⟩ := C11_select_partial pf r _ _ v hH hsaok none _ .all []
  have hz : sa.map (·.z) ++ [] = ps.map (·.after) := by
    rw [List.append_nil, hmap (·.z) (fun p _ => p.after) (fun _ _ _ _ => rfl)]
    apply List.ext_getElem
    · simp [hpl]
    · intro i h1 h2; simp
  rw [hz] at e5
  have hgrid : (sa.map fun a => NArr.ofList a.nodesOut) = gi := by
    rw [mesh_nodes hmi, refineAll, List.zipWith_map_left, hmap (fun a => NArr.ofList a.nodesOut)
      (fun p n => NArr.ofList ((p.axis.window p.lo p.hi).refine n).nodes) (fun p n h1 h2 => by rw [selAfter_out h1 h2]), List.map_zipWith]
  have hsub : sa.map (fun a => a.hi - a.lo) = List.zipWith (· * ·) (ps.map fun p => p.hi - p.lo) ns := by
    rw [hmap (fun a => a.hi - a.lo) (fun p n => (p.hi - p.lo) * n) (fun p n _ _ => by simp [Portion.selAfter, Nat.sub_mul]),
      List.zipWith_map_left]
  have hlo : sa.map (·.lo) = List.zipWith (fun p n => p.lo * n) ps ns := hmap _ _ fun _ _ _ _ => rfl
  have hval : out = vi := by
    refine NArr.ext_get? hp.1 hfi.wf ?_ ?_
    · rw [hp.2.1, hfi.shape, hsub, List.length_range]
    · intro idx hi
      rw [hp.2.1] at hi
      obtain ⟨i, j, rfl, h1, h2⟩ := inRange_snoc_inv hi
      rw [List.length_range] at h2
      rw [hp.2.2 i j j h1 (List.getElem?_range h2), hlo]
      rw [hsub] at h1
      rw [hfi.get i h1 j h2, hf.get _ (part_inRange hps h1) j h2]
      rw [hff i h1 j h2]
  rw [hgrid, hval] at e5
  exact ⟨r, e4, e5⟩

/-- **C130.**  Selecting cells and then interpolating gives the same grid and the same values as interpolating everything and then
selecting the refined cells that the selected cells are split into. -/
theorem C130_select_interpolate (pf : List Char → Option F) {q : DgCase F} {po : Option Nat} {b : Option String} {ni : Option Nat}
    {d : GData F} (h : q.Fits po b ni d) {ps : List (Portion F)} (hax : q.axes = ps.map (·.axis))
    (hps : List.Forall₂ Portion.OK ps (perCell q.basis q.cells.length q.points)) (h6 : q.cells.length ≤ 6)
    (h5 : Except Err (List (List F))) :
    ∃ g₁ v₁ part g v r gi vi, select pf d none (ps.map (·.before)) true = .ok (g₁, v₁, part) ∧
      interpolateOf h5 po b ni part = .ok (gi, vi) ∧
      interpolateOf h5 po b ni d = .ok (g, v) ∧ d.push g v = .ok r ∧
      select pf r none (ps.map (·.after)) false = .ok (gi, vi, r) := by
  obtain ⟨g₁, v₁, d₁, e1, hfit⟩ := C130_select pf h hax hps h6
  obtain ⟨gi, vi, e2, hmi, hfi⟩ := interpolateOf_ok h5 hfit
  obtain ⟨g, v, e3, hm, hf⟩ := interpolateOf_ok h5 h
  obtain ⟨ns, hns⟩ : ∃ ns, ns = perCell q.basis q.cells.length q.points := ⟨_, rfl⟩
  have hlen : ps.length = q.cells.length := by
    rw [← h.1.cells_eq, hax]; simp
  have hcells' : q.cells = ps.map (·.axis.cells) := by
    rw [← h.1.cells_eq, hax, List.map_map]; rfl
  have hpl : ns.length = ps.length := by rw [hns, Dg.perCell_length, hlen]
  have hpp : ∀ n ∈ ns, 0 < n := by rw [hns]; exact Dg.perCell_pos (by have := h.2.1.two; omega)
  have hl : (q.part ps).cells.length = q.cells.length := by simp [DgCase.part, hlen]
  have hnsp : perCell (q.part ps).basis (q.part ps).cells.length (q.part ps).points = ns := by rw [hl, hns]; rfl
  rw [hnsp] at hfi
  rw [← hns] at hf hps
  rw [DgCase.fine, ← hns, hax] at hm
  rw [hcells'] at hf
  have hfine' : (q.part ps).fine = refineAll (ps.map fun p => p.axis.window p.lo p.hi) ns := by
    rw [DgCase.fine, hnsp]; rfl
  rw [hfine'] at hmi
  obtain ⟨r, e4, e5⟩ := select_refined pf hps hpp (by rw [hlen]; exact h.1.pos) (by rw [hlen]; exact h6) hm hf hmi hfi
    (fun i h1 j _ => by
      have hil : i.length = ps.length := by
        rw [inRange_length h1, List.length_zipWith, List.length_map, hpl]; simp
      have t1 := part_local hps hil hpp
      have t2 := part_cell hps hil hpp
      simp only [DgCase.value, cellValue, DgCase.fine, hnsp]
      rw [← hns, hax]
      simp only [DgCase.part, t2]
      rw [← t1]) d
  exact ⟨g₁, v₁, d₁, g, v, r, gi, vi, e1, e2, e3, e4, e5⟩

namespace DgEx

/-- The second of two cells of the first axis, asked for by its number and, after the interpolation, by the range of the
refined cells; the last two of three cells of the second axis. -/
def portions : List (Portion ℚ) :=
  [⟨⟨0, 1, 2⟩, some (.int 1), some (.str (dec 2 ++ ':' :: dec 4)), 1, 2⟩,
   ⟨⟨-1, 1 / 2, 3⟩, some (.str (dec 1 ++ [':'])), some (.str (dec 2 ++ ':' :: dec 6)), 1, 3⟩]

/-- The hypotheses of C130 are met. -/
example : (storedCase 2 : DgCase ℚ).Fits none none none stored ∧ (storedCase 2 : DgCase ℚ).axes = portions.map (·.axis) ∧
    List.Forall₂ Portion.OK portions (perCell "serendipity" 2 2) ∧ (storedCase 2 : DgCase ℚ).cells.length ≤ 6 := by
  refine ⟨(stored_fits true).1, rfl, ?_, by simp [storedCase]⟩
  have : perCell "serendipity" 2 2 = [2, 2] := by decide
  rw [this]
  refine .cons ⟨by norm_num, by norm_num, .index 1 (by norm_num), .range 2 4 (by norm_num) (by norm_num [Axis.refine])⟩
    (.cons ⟨by norm_num, by norm_num, .from 1 (by norm_num), .range 2 6 (by norm_num) (by norm_num [Axis.refine])⟩ .nil)

end DgEx

end Pgkyl
