import Verif.Spec.EvLinear
import Verif.Lemmas.EvCommute
import Verif.Props.SelectInterp
import Verif.Props.SelectCommands
/-! # C135, C136: `ev` and other commands in either order -/

namespace Pgkyl
open Ev Spec Cmd

section
variable {F : Type}

theorem holds_listed {s : Space F} (hi : s.Inv) {P : GData F → Prop} (h : Holds s P) : ∀ id ∈ s.dict.flatMap Prod.snd,
    ∃ d, s.heap[id]? = some d ∧ d.status = true ∧ ProperMeta d.ctx ∧ P d := by
  intro id hid
  obtain ⟨⟨t, l⟩, ht, hid⟩ := List.mem_flatMap.1 hid
  exact h t l (Space.lookup_of_mem hi.keys_nodup ht) id hid

/-- An expression with data reads some dataset. -/
theorem reads_some [LinearOrder F] {lib : Lib F} {s : Space F} {all : Bool} {tags : List Tag} {sh : List Nat} {e : Expr F}
    (he : e.All (Leaf.OK lib s all tags sh)) (hd : e.hasData = true) :
    ∃ id ∈ s.dict.flatMap Prod.snd, ∃ d, s.heap[id]? = some d := by
  obtain ⟨d, hd⟩ := uses_exists 0 e he hd
  obtain ⟨id, h1, h2⟩ := uses_listed e hd
  exact ⟨id, h1, d, h2⟩

variable [_root_.Field F]

/-- What `interpolate` needs to find in the metadata. -/
def Cmd.needed (q : DgCase F) (po : Option Nat) (b : Option String) : List (String × String) :=
  ("grid_type", "uniform") :: (if po = none then [("poly_order", String.ofList (dec q.order))] else []) ++
    if b = none then [("basis_type", q.basis), ("is_modal", "True")] else []

theorem fits_like {q : DgCase F} {po : Option Nat} {b : Option String} {ni : Option Nat} {d : GData F}
    (h : q.Fits po b ni d) :
    Like (q.axes.map fun a => NArr.ofList a.nodes) q.cells q.m (needed q po b) q.f d := by
  obtain ⟨hs, hc, -⟩ := h
  obtain ⟨g, ⟨h1, -, -, h2⟩, h3⟩ := hs.data
  refine ⟨by rw [h1, mesh_nodes h3], h2, hs.counts.1, hs.counts.2, ?_⟩
  intro e he
  simp only [needed, List.cons_append, List.mem_cons, List.mem_append] at he
  rcases he with rfl | he | he
  · exact hs.uniform
  · split at he
    · rename_i hpo
      obtain rfl := List.mem_singleton.1 he
      rcases hc.order with h | h
      · rw [hpo] at h; cases h
      · exact h.2.1
    · simp at he
  · split at he
    · rename_i hb
      rcases hc.basis with ⟨name, h, -⟩ | h
      · rw [hb] at h; cases h
      · simp only [List.mem_cons, List.not_mem_nil, or_false] at he
        rcases he with rfl | rfl
        · exact h.2.1
        · exact h.2.2
    · simp at he

theorem like_fits {q : DgCase F} {po : Option Nat} {b : Option String} {ni : Option Nat} {d : GData F}
    (h : q.Fits po b ni d) {d' : GData F} {X : List Nat → Nat → F}
    (h' : Like (q.axes.map fun a => NArr.ofList a.nodes) q.cells q.m (needed q po b) X d') :
    DgCase.Fits { q with f := X } po b ni d' := by
  obtain ⟨hs, hc, hp⟩ := h
  have hlen : q.axes.length = q.cells.length := by rw [← hs.cells_eq, List.length_map]
  refine ⟨{ data := ?_, counts := ⟨h'.dims, h'.comps⟩, uniform := ?_, cells_eq := hs.cells_eq, dx := hs.dx, pos := hs.pos },
    { order := ?_, basis := ?_, points := hc.points, two := hc.two },
    { fns := hp.fns, line := hp.line, zero := hp.zero, fields := hp.fields }⟩
  · exact ⟨_, ⟨h'.grid, by simp [hlen], (mesh_length (nodes_mesh _)).2, h'.values⟩, nodes_mesh _⟩
  · exact h'.entries ("grid_type", "uniform") (by simp [needed])
  · rcases hc.order with h | ⟨h1, h2, h3⟩
    · exact .inl h
    · exact .inr ⟨h1, h'.entries ("poly_order", String.ofList (dec q.order)) (by simp [needed, h1]), h3⟩
  · rcases hc.basis with h | ⟨h1, h2, h3⟩
    · exact .inl h
    · exact .inr ⟨h1, h'.entries ("basis_type", q.basis) (by simp [needed, h1]),
        h'.entries ("is_modal", "True") (by simp [needed, h1])⟩

/-- The value of a field depends linearly on the coefficients. -/
theorem value_linear (q : DgCase F) (J : Nat → Nat) (C : List Nat → List Nat) (Z : List Nat → List F) :
    IsLinear fun X i j => DgCase.value { q with f := X } (J j) (C i) (Z i) := by
  constructor
  · intro X Y i j
    simp only [DgCase.value, cellValue, expand, ← Finset.sum_add_distrib, add_mul]
  · intro c X i j
    simp only [DgCase.value, cellValue, expand, Finset.mul_sum, mul_assoc]

section
variable [LinearOrder F] [CharZero F]

/-- C135: a linear combination of DG datasets can be formed before or after the interpolation.  If all datasets of the
store hold coefficients of the same kind on the same mesh, then `interpolate` followed by `ev --tag T` on the expression,
and `ev --tag T` followed by `interpolate --use T`, both succeed and give datasets with the same grids and values. -/
theorem C135_interpolate {s : Space F} (hr : Reachable s) {lib : Lib F} {all : Bool} {tags : List Tag}
    (hread : Readable lib s all tags) (q : DgCase F) {po : Option Nat} {b : Option String} {ni : Option Nat}
    (hdata : Holds s fun d => ∃ X, DgCase.Fits { q with f := X } po b ni d)
    (e : Expr F) (hlin : e.Linear) (he : e.All (Leaf.OK lib s all tags (q.cells ++ [q.m])))
    {T : Tag} (hT : FreshTag s T) (h5 : Except Err (List (List F))) (label : List Char) (elabel : Option (List Char)) :
    0 < e.count ∧
    ∃ sI sIE sE sEI, interpolateCmd h5 po b ni none none label s = .ok sI ∧
      ev lib (joinWith ' ' e.tokens) (some T) elabel all sI = .ok sIE ∧
      ev lib (joinWith ' ' e.tokens) (some T) elabel all s = .ok sE ∧
      interpolateCmd h5 po b ni (some T) none label sE = .ok sEI ∧
      SameData s.heap.length e.count sIE sEI := by
  have hi := Space.reachable_inv hr
  have hlist := holds_listed hi hdata
  obtain ⟨id, hid, d₀, hd₀⟩ := reads_some he (linear_ok e hlin).2
  obtain ⟨d₁, -, -, -, X₀, hfit⟩ := hlist id hid
  have hax : q.fine.length = q.cells.length := by
    have : q.axes.length = q.cells.length := by rw [← hfit.1.cells_eq, List.length_map]
    rw [DgCase.fine, refineAll_length (by rw [Dg.perCell_length, this]), this]
  have hΦ := value_linear q (fun j => j) (fun idx => List.zipWith (· / ·) idx (perCell q.basis q.cells.length q.points))
    (fun idx => midPt q.fine idx)
  obtain ⟨h0, sA, sAE, sE, sEA, r1, r2, r3, r4, r5⟩ := ev_commutes (f := interpolateOf h5 po b ni)
    (G := q.axes.map fun a => NArr.ofList a.nodes) (req := needed q po b) (cells := q.cells) (m := q.m)
    (cells' := List.zipWith (· * ·) q.cells (perCell q.basis q.cells.length q.points)) (m' := q.m / q.fns.length)
    (axes' := q.fine.map Axis.nodes)
    (Φ := fun X idx j => DgCase.value { q with f := X } j
      (List.zipWith (· / ·) idx (perCell q.basis q.cells.length q.points)) (midPt q.fine idx))
    hi (fun id hid => by
      obtain ⟨d, h1, h2, h3, X, h4⟩ := hlist id hid
      exact ⟨d, X, h1, h2, h3, fits_like h4⟩)
    ⟨by rw [List.length_zipWith, Dg.perCell_length, List.length_map, hax, Nat.min_self], by
        intro h
        have := congrArg List.length h
        rw [List.length_map, hax, List.length_nil] at this
        have := hfit.1.pos
        simp only at this
        omega, by
        intro a ha
        obtain ⟨x, -, rfl⟩ := List.mem_map.1 ha
        simp [Axis.nodes]⟩
    (fun d X h => by
      obtain ⟨g, w, h1, h2, h3⟩ := interpolateOf_ok h5 (like_fits hfit h)
      refine ⟨w, ?_, h3⟩
      rw [h1, mesh_nodes h2, List.map_map]
      rfl)
    hread.iter hread.ops hread.min hread.max hread.cmp e (linear_ok e hlin).1 (linear_ok e hlin).2 he
    (fun sA hA => expr_applied hΦ hA e hlin he) hT.1 hT.2.1 hT.2.2 label label elabel elabel
  refine ⟨h0, sA, sAE, sE, sEA, r1, r2, r3, r4, fun k hk => ?_⟩
  obtain ⟨d, d', v, t1, t2, t3, t4, t5, t6⟩ := r5 k hk
  exact ⟨d, d', _, v, t1, t2, t3, t4, t5, t6⟩

omit [CharZero F] in
/-- C135 for `integrate`: a linear combination of datasets on the same grid can be formed before or after the
integration over some axes. -/
theorem C135_integrate {s : Space F} (hr : Reachable s) {lib : Lib F} {all : Bool} {tags : List Tag}
    (hread : Readable lib s all tags) {A : List Nat} (hne : A ≠ []) (hnd : A.Nodup) {axes : List (List F)}
    {cells : List Nat} {m : Nat}
    (hdata : Holds s fun d => ∃ v, IntegrableOver A axes v d ∧ v.shape = cells ++ [m] ∧ d.numDims = cells.length ∧
      d.numComps = m)
    (e : Expr F) (hlin : e.Linear) (he : e.All (Leaf.OK lib s all tags (cells ++ [m])))
    {T : Tag} (hT : FreshTag s T) (label : List Char) (elabel : Option (List Char)) :
    0 < e.count ∧
    ∃ sI sIE sE sEI, integrateCmd (joinWith ',' (A.map dec)) none none label s = .ok sI ∧
      ev lib (joinWith ' ' e.tokens) (some T) elabel all sI = .ok sIE ∧
      ev lib (joinWith ' ' e.tokens) (some T) elabel all s = .ok sE ∧
      integrateCmd (joinWith ',' (A.map dec)) (some T) none label sE = .ok sEI ∧
      SameData s.heap.length e.count sIE sEI := by
  have hi := Space.reachable_inv hr
  have hlist := holds_listed hi hdata
  obtain ⟨id, hid, d₀, hd₀⟩ := reads_some he (linear_ok e hlin).2
  obtain ⟨d₁, -, -, -, v₁, hint, hsh, -⟩ := hlist id hid
  have hlen : cells.length = axes.length := by
    have := hint.2.2.2.1.1
    rw [hsh] at this
    simpa using this
  have hcol : collapsed A (cells ++ [m]) = collapsed A cells ++ [m] := by
    simp only [collapsed, List.mapIdx_append, List.mapIdx_cons, List.mapIdx_nil]
    rw [if_neg]
    intro hc
    have := hint.2.2.2.2 _ hc
    omega
  have hcell : (collapsed A cells).length = cells.length := by simp [collapsed]
  have hentry : ∀ (v : NArr F) (X : List Nat → Nat → F), IsField v cells m X → ∀ idx,
      cellSum (cells ++ [m]) (entry v) (gridWeight axes (cells ++ [m])) A idx =
        cellSum (cells ++ [m]) (fun i => X i.dropLast (i.getLastD 0)) (gridWeight axes (cells ++ [m])) A idx := by
    intro v X hv idx
    refine Integ.cellSum_congr (fun i hi => ?_) _ _ _
    obtain ⟨c, j, rfl, h1, h2⟩ := inRange_snoc' hi
    simp [entry, hv.get c h1 j h2]
  obtain ⟨h0, sA, sAE, sE, sEA, r1, r2, r3, r4, r5⟩ := ev_commutes (f := fun d => do
      let (g, v, _) ← Calculus.integrate d (.str (joinWith ',' (A.map dec))) false
      return (g, v))
    (G := axes.map NArr.ofList) (req := []) (cells := cells) (m := m)
    (cells' := collapsed A cells) (m' := m) (axes' := meanAxes A axes)
    (Φ := fun X idx j => cellSum (cells ++ [m]) (fun i => X i.dropLast (i.getLastD 0)) (gridWeight axes (cells ++ [m])) A
      (idx ++ [j]))
    hi (fun id hid => by
      obtain ⟨d, h1, h2, h3, v, h4, h5, h6, h7⟩ := hlist id hid
      refine ⟨d, fun i j => entry v (i ++ [j]), h1, h2, h3, h4.1, ⟨v, h4.2.1, h4.2.2.1, h5, fun i hi j hj => ?_⟩, h6, h7,
        by simp⟩
      have hin : inRange v.shape (i ++ [j]) = true := by rw [h5]; exact inRange_snoc_iff.2 ⟨hi, hj⟩
      obtain ⟨x, hx⟩ := Option.isSome_iff_exists.1 (NArr.get?_isSome h4.2.2.1 hin)
      simp [entry, hx])
    ⟨by rw [hcell, hlen]; simp [meanAxes], by
        intro h
        have := congrArg List.length h
        simp only [meanAxes, List.length_mapIdx, List.length_nil] at this
        obtain ⟨a, ha⟩ := List.exists_mem_of_ne_nil A hne
        have := hint.2.2.2.2 a ha
        omega, by
        intro y hy
        obtain ⟨i, hi⟩ := List.mem_iff_getElem?.1 hy
        rw [meanAxes, List.getElem?_mapIdx] at hi
        cases hxx : axes[i]? with
        | none => rw [hxx] at hi; simp at hi
        | some x =>
          rw [hxx] at hi
          simp only [Option.map_some, Option.some.injEq] at hi
          rw [← hi]
          have hil := (List.getElem?_eq_some_iff.1 hxx).1
          have hil' : i < v₁.shape.length := by rw [hint.2.2.2.1.1]; omega
          split
          · simp
          · rintro rfl
            rcases hint.2.2.2.1.2 i [] _ hxx (List.getElem?_eq_getElem hil') with k | k
            · simp at k
            · simp at k⟩
    (fun d X h => by
      obtain ⟨v, h1, h2⟩ := h.values
      obtain ⟨r, d', k1, k5, k2, -, -, k4⟩ := C30_api_weighted_sum d h.grid h1 h2.wf
        (by rw [h2.shape, ← hsh]; exact hint.2.2.2.1) hnd hint.2.2.2.2 (.str hne) false
      refine ⟨r, by rw [k1]; rfl, k5, by rw [k2, h2.shape, hcol], fun i hi j hj => ?_⟩
      rw [k4 _ (by rw [h2.shape, hcol]; exact inRange_snoc_iff.2 ⟨hi, hj⟩), h2.shape, hentry v X h2])
    hread.iter hread.ops hread.min hread.max hread.cmp e (linear_ok e hlin).1 (linear_ok e hlin).2 he
    (fun sA hA => expr_applied (by
      constructor
      · intro X Y i j
        have := Integ.cellSum_linear (cells ++ [m]) (fun i => X i.dropLast (i.getLastD 0)) (fun i => Y i.dropLast (i.getLastD 0))
          (gridWeight axes (cells ++ [m])) A (i ++ [j]) 1 1
        simpa only [one_mul] using this
      · intro c X i j
        have := Integ.cellSum_linear (cells ++ [m]) (fun i => X i.dropLast (i.getLastD 0)) (fun _ => 0)
          (gridWeight axes (cells ++ [m])) A (i ++ [j]) c 0
        simpa only [zero_mul, add_zero] using this) hA e hlin he) hT.1 hT.2.1 hT.2.2 label label elabel elabel
  refine ⟨h0, sA, sAE, sE, sEA, r1, r2, r3, r4, fun k hk => ?_⟩
  obtain ⟨d, d', v, t1, t2, t3, t4, t5, t6⟩ := r5 k hk
  exact ⟨d, d', _, v, t1, t2, t3, t4, t5, t6⟩

end
end

section
variable {F : Type}

theorem sel_inRange [LinearOrder F] : ∀ {axes : List (SelAxis F)} {idx : List Nat},
    (∀ a ∈ axes, a.lo < a.hi ∧ a.hi ≤ a.n) → inRange (axes.map fun a => a.hi - a.lo) idx = true →
    inRange (axes.map (·.n)) (List.zipWith (· + ·) idx (axes.map (·.lo))) = true := by
  intro axes
  induction axes with
  | nil => intro idx _ hi; cases idx <;> simp [inRange] at hi ⊢
  | cons a axes ih =>
    intro idx h hi
    cases idx with
    | nil => simp [inRange] at hi
    | cons i is =>
      simp only [List.zipWith_cons_cons, List.map_cons, inRange, Bool.and_eq_true, decide_eq_true_eq] at hi ⊢
      have := h a (by simp)
      exact ⟨by omega, ih (fun b hb => h b (by simp [hb])) hi.2⟩

variable [_root_.Field F] [LinearOrder F]

/-- C136: any elementwise expression - functions, powers, products, … - of whole datasets on the same grid can be computed
before or after selecting some of the cells and components. -/
theorem C136_select {s : Space F} (hr : Reachable s) {lib : Lib F} {all : Bool} {tags : List Tag}
    (hread : Readable lib s all tags) {pf : List Char → Option F} {comp : Option (List Char)}
    {zs : List (Option (List Char))} {axes : List (SelAxis F)} {nc : Nat} {cs : List Nat}
    (hdata : Holds s fun d => ∃ v, Asks pf comp zs d axes v cs ∧ v.shape = axes.map (·.n) ++ [nc] ∧ d.numComps = nc)
    (e : Expr F) (hwhole : e.Whole) (hpow : e.powOK) (hhas : e.hasData = true)
    (he : e.All (Leaf.OK lib s all tags (axes.map (·.n) ++ [nc])))
    {T : Tag} (hT : FreshTag s T) (label : List Char) (elabel : Option (List Char)) :
    0 < e.count ∧
    ∃ sS sSE sE sES, selectCmd pf comp zs none none label s = .ok sS ∧
      ev lib (joinWith ' ' e.tokens) (some T) elabel all sS = .ok sSE ∧
      ev lib (joinWith ' ' e.tokens) (some T) elabel all s = .ok sE ∧
      selectCmd pf comp zs (some T) none label sE = .ok sES ∧
      SameData s.heap.length e.count sSE sES := by
  have hi := Space.reachable_inv hr
  have hlist := holds_listed hi hdata
  obtain ⟨id, hid, d₀, hd₀⟩ := reads_some he hhas
  obtain ⟨d₁, -, -, -, v₁, hask, hsh₁, -⟩ := hlist id hid
  obtain ⟨nc', hA, hc, hax, hz⟩ := hask
  have hnc : nc' = nc := by
    have := hA.shape
    rw [hsh₁] at this
    simpa using this.symm
  subst hnc
  have hasks : ∀ d X, Like (axes.map fun a => NArr.ofList a.nodes) (axes.map (·.n)) nc' [] X d → ∃ v, d.values = some v ∧
      IsField v (axes.map (·.n)) nc' X ∧ Asks pf comp zs d axes v cs := by
    intro d X h
    obtain ⟨v, h1, h2⟩ := h.values
    exact ⟨v, h1, h2, nc', ⟨h.grid, h1, h2.wf, h2.shape, by simpa using h.dims, hA.nonempty, hA.six⟩, hc, hax, hz⟩
  have hdl : ∀ id ∈ s.dict.flatMap Prod.snd, ∃ d X, s.heap[id]? = some d ∧ d.status = true ∧ ProperMeta d.ctx ∧
      Like (axes.map fun a => NArr.ofList a.nodes) (axes.map (·.n)) nc' [] X d := by
    intro id hid
    obtain ⟨d, h1, h2, h3, v, ⟨nc₂, h4, -, -, -⟩, h5, h7⟩ := hlist id hid
    refine ⟨d, fun i j => entry v (i ++ [j]), h1, h2, h3, h4.grid, ⟨v, h4.vals, h4.wf, h5, fun i hi j hj => ?_⟩,
      by simpa using h4.dims, h7, by simp⟩
    have hin : inRange v.shape (i ++ [j]) = true := by rw [h5]; exact inRange_snoc_iff.2 ⟨hi, hj⟩
    obtain ⟨x, hx⟩ := Option.isSome_iff_exists.1 (NArr.get?_isSome h4.wf hin)
    simp [entry, hx]
  obtain ⟨h0, sA, sAE, sE, sEA, r1, r2, r3, r4, r5⟩ := ev_commutes (f := fun d => do
      let (g, v, _) ← select pf d (comp.map .str) (zs.map fun z => z.map .str) false
      return (g, v))
    (G := axes.map fun a => NArr.ofList a.nodes) (req := []) (cells := axes.map (·.n)) (m := nc')
    (cells' := axes.map fun a => a.hi - a.lo) (m' := cs.length) (axes' := axes.map (·.nodesOut))
    (Φ := fun X i j => X (List.zipWith (· + ·) i (axes.map (·.lo))) (cs.getD j 0))
    hi hdl
    ⟨by simp, by simpa using hA.nonempty, by
      intro a ha
      obtain ⟨d, h1, h2, h3, v, h4, -, -⟩ := hlist id hid
      obtain ⟨out, -, -, hn⟩ := select_text h4
      obtain ⟨x, hx, rfl⟩ := List.mem_map.1 ha
      exact hn (NArr.ofList x.nodesOut) (List.mem_map.2 ⟨x, hx, rfl⟩)⟩
    (fun d X h => by
      obtain ⟨v, h1, h2, h3⟩ := hasks d X h
      obtain ⟨out, k1, k2, -⟩ := select_text h3
      refine ⟨out, by rw [k1, List.map_map]; rfl, k2.1, k2.2.1, fun i hi j hj => ?_⟩
      have hcj : cs[j]? = some cs[j] := List.getElem?_eq_getElem hj
      rw [k2.2.2 i j _ hi hcj, List.getD_eq_getElem?_getD, hcj]
      refine h2.get _ (sel_inRange (fun a ha => ?_) hi) _ (compDenotes_lt hc _ (List.getElem_mem hj))
      obtain ⟨k, hk⟩ := List.mem_iff_getElem?.1 ha
      exact ⟨(hax a ha).2.2, (by
        obtain ⟨z', hd, -⟩ := text_arg pf (hax a ha).1 (hz k a hk)
        exact denotes_le hd)⟩)
    hread.iter hread.ops hread.min hread.max hread.cmp e hpow hhas he
    (fun sA hA' => by
      obtain ⟨e', q1, q2, q3, q4, q5, q6⟩ := expr_pointwise hA' e hwhole he hpow
      exact ⟨e', q1, q2, q3, q4, q5.trans hhas, q6⟩) hT.1 hT.2.1 hT.2.2 label label elabel elabel
  refine ⟨h0, sA, sAE, sE, sEA, r1, r2, r3, r4, fun k hk => ?_⟩
  obtain ⟨d, d', v, t1, t2, t3, t4, t5, t6⟩ := r5 k hk
  exact ⟨d, d', _, v, t1, t2, t3, t4, t5, t6⟩

end

section

theorem midPt_length {F : Type} [_root_.Field F] : ∀ {axes : List (Axis F)} {idx : List Nat}, idx.length = axes.length →
    (midPt axes idx).length = axes.length
  | [], [], _ => rfl
  | a :: axes, k :: ks, h => by
    simp only [midPt, List.length_cons]
    rw [midPt_length (by simpa using h)]
  | [], _ :: _, h => by simp at h
  | _ :: _, [], h => by simp at h

/-- C135 for `differentiate` along an axis: a linear combination of DG datasets of the same kind can be formed before or
after taking the derivative. -/
theorem C135_differentiate {s : Space ℝ} (hr : Reachable s) {lib : Lib ℝ} {all : Bool} {tags : List Tag}
    (hread : Readable lib s all tags) (q : DgCase ℝ) {po : Option Nat} {b : Option String} {ni : Option Nat}
    (hdata : Holds s fun d => ∃ X, DgCase.Fits { q with f := X } po b ni d) (hpos : ∀ x ∈ q.cells, 0 < x)
    (hdf : Dg.derivFns q.cells.length q.order q.basis true = .ok q.fns) {i : Nat} (hdir : i < q.cells.length)
    (e : Expr ℝ) (hlin : e.Linear) (he : e.All (Leaf.OK lib s all tags (q.cells ++ [q.m])))
    {T : Tag} (hT : FreshTag s T) (label : List Char) (elabel : Option (List Char)) :
    0 < e.count ∧
    ∃ sD sDE sE sED, differentiateCmd po b ni (some i) none none label s = .ok sD ∧
      ev lib (joinWith ' ' e.tokens) (some T) elabel all sD = .ok sDE ∧
      ev lib (joinWith ' ' e.tokens) (some T) elabel all s = .ok sE ∧
      differentiateCmd po b ni (some i) (some T) none label sE = .ok sED ∧
      SameData s.heap.length e.count sDE sED := by
  have hi := Space.reachable_inv hr
  have hlist := holds_listed hi hdata
  obtain ⟨id, hid, d₀, hd₀⟩ := reads_some he (linear_ok e hlin).2
  obtain ⟨d₁, -, -, -, X₀, hfit⟩ := hlist id hid
  have hal : q.axes.length = q.cells.length := by rw [← hfit.1.cells_eq, List.length_map]
  obtain ⟨fine, hfine⟩ : ∃ fine, fine = refineAll q.axes (List.replicate q.cells.length q.points) := ⟨_, rfl⟩
  have hfl : fine.length = q.cells.length := by
    rw [hfine, refineAll_length (by rw [List.length_replicate, hal]), hal]
  have ha : q.axes[i]? = some (q.axes[i]'(by omega)) := List.getElem?_eq_getElem _
  obtain ⟨dx, hdx⟩ : ∃ dx, dx = (q.axes[i]'(by omega)).dx := ⟨_, rfl⟩
  have hlinear : IsLinear fun (X : List Nat → Nat → ℝ) (idx : List Nat) (_ : Nat) =>
      cellValue (q.fns.map (Dg.Poly.diff i)) q.axes (fun k => X (idx.map (· / q.points)) (0 * q.fns.length + k))
        (idx.map (· / q.points)) (midPt fine idx) * 2 / dx := by
    constructor
    · intro X Y idx j
      simp only [cellValue, expand, add_mul, Finset.sum_add_distrib, add_div]
    · intro c X idx j
      simp only [cellValue, expand, mul_assoc, ← Finset.mul_sum, mul_div_assoc]
  obtain ⟨h0, sA, sAE, sE, sEA, r1, r2, r3, r4, r5⟩ := ev_commutes (f := differentiateOf po b ni (some i))
    (G := q.axes.map fun a => NArr.ofList a.nodes) (req := needed q po b) (cells := q.cells) (m := q.m)
    (cells' := q.cells.map (· * q.points)) (m' := 1) (axes' := fine.map Axis.nodes)
    (Φ := fun X idx _ => cellValue (q.fns.map (Dg.Poly.diff i)) q.axes
      (fun k => X (idx.map (· / q.points)) (0 * q.fns.length + k)) (idx.map (· / q.points)) (midPt fine idx) * 2 / dx)
    hi (fun id hid => by
      obtain ⟨d, h1, h2, h3, X, h4⟩ := hlist id hid
      exact ⟨d, X, h1, h2, h3, fits_like h4⟩)
    ⟨by rw [List.length_map, List.length_map, hfl], by
        intro h
        have := congrArg List.length h
        rw [List.length_map, hfl, List.length_nil] at this
        omega, by
        intro a ha
        obtain ⟨x, -, rfl⟩ := List.mem_map.1 ha
        simp [Axis.nodes]⟩
    (fun d X h => by
      obtain ⟨g, w, f, h1, h2, h3, h4⟩ := differentiateOf_ok (like_fits hfit h) hpos hdf hdir
      refine ⟨w, ?_, h3.congr fun idx hidx j hj => ?_⟩
      · rw [h1, mesh_nodes h2, List.map_map, hfine]
        rfl
      · obtain rfl : j = 0 := by omega
        obtain ⟨zi, z1, z2⟩ := h4 idx hidx
        have hlen : idx.length = q.cells.length := by
          have := inRange_length hidx
          rw [List.length_map] at this
          omega
        simp only [← hfine] at z1 z2
        refine z2.unique ?_
        have hc : (idx.map (· / q.points))[i]? = some ((idx.map (· / q.points))[i]'(by rw [List.length_map]; omega)) :=
          List.getElem?_eq_getElem _
        have := Dg.hasDerivAt_cellValue q.fns (fun k => X (idx.map (· / q.points)) (0 * q.fns.length + k))
          (c := idx.map (· / q.points)) (z := midPt fine idx) (by rw [List.length_map, hlen, hal])
          (by rw [midPt_length (by omega), hfl, hal]) ha hc z1 (hfit.1.dx _ (List.getElem_mem _))
        rw [← hdx] at this
        exact this)
    hread.iter hread.ops hread.min hread.max hread.cmp e (linear_ok e hlin).1 (linear_ok e hlin).2 he
    (fun sA hA => expr_applied hlinear hA e hlin he) hT.1 hT.2.1 hT.2.2 label label elabel elabel
  refine ⟨h0, sA, sAE, sE, sEA, r1, r2, r3, r4, fun k hk => ?_⟩
  obtain ⟨d, d', v, t1, t2, t3, t4, t5, t6⟩ := r5 k hk
  exact ⟨d, d', _, v, t1, t2, t3, t4, t5, t6⟩

end

namespace EvLinEx

/-- Numbers, written as digits. -/
def digits {F : Type} [NatCast F] (t : List Char) : Option F :=
  if isDigitStr t then some ((natOfDigits t : Nat) : F) else none

/-- Rational numbers. -/
def lib : Lib ℚ where
  pf := digits
  pyEval _ := .error .typeError
  fn := { sqrt := id, sin := id, cos := id, tan := id, abs := fun x => if x < 0 then -x else x, log := id,
          log10 := id, exp := id, pow := fun x _ => x, fmin := min, fmax := max, toInt := fun _ => none }
  cmp a b := decide (a = b)
  metaArr _ := .tuple []

/-- Real numbers. -/
noncomputable def libR : Lib ℝ where
  pf := digits
  pyEval _ := .error .typeError
  fn := { sqrt := id, sin := id, cos := id, tan := id, abs := fun x => |x|, log := id,
          log10 := id, exp := id, pow := fun x _ => x, fmin := min, fmax := max, toInt := fun _ => none }
  cmp a b := @decide (a = b) (Classical.propDecidable _)
  metaArr _ := .tuple []

section
variable {F : Type} [_root_.Field F] [LinearOrder F]

/-- Piecewise linear data on two cells. -/
def dat (tag : String) (vals : List F) : GData F where
  grid := some [NArr.ofList [0, 1, 2]]
  values := some ⟨[2, 2], vals⟩
  tag := tag.toList
  status := true
  ctx := { cells := some [2], numComps := some 2
           other := [("grid_type", "uniform"), ("poly_order", "1"), ("basis_type", "serendipity"), ("is_modal", "True")] }

/-- Two datasets. -/
def store : Space F := perform [.add (dat "a" [1, 0, 2, 1]), .add (dat "b" [3, 1, 1, 1])]

def tags : List Tag := ["a".toList, "b".toList]

/-- The axis of the two cells. -/
def axis : Axis F := ⟨0, 1, 2⟩

def fns1 : List Dg.Poly :=
  match Dg.interpFns 1 1 "serendipity" true with
  | .ok f => f
  | .error _ => []

theorem fns1_eq : Dg.interpFns 1 1 "serendipity" true = .ok fns1 := by decide +kernel

/-- The common kind of the data. -/
def kind : DgCase F := ⟨[2], [axis], 2, fun _ _ => 0, 1, "serendipity", fns1, 2⟩

def fieldOf (vals : List F) (i : List Nat) (c : Nat) : F := vals.getD ((i.getD 0 0) * 2 + c) 0

omit [LinearOrder F] in
theorem isField (vals : List F) (h : vals.length = 4) : IsField ⟨[2, 2], vals⟩ [2] 2 (fieldOf vals) := by
  refine ⟨by simp [NArr.WF, h], rfl, fun i hi c hc => ?_⟩
  obtain ⟨k, rfl⟩ : ∃ k, i = [k] := by
    match i, hi with
    | [k], _ => exact ⟨k, rfl⟩
    | [], hi => simp [inRange] at hi
    | _ :: _ :: _, hi => simp [inRange] at hi
  have hk : k < 2 := by simpa [inRange] using hi
  have : k * 2 + c < vals.length := by omega
  simp [NArr.get?, inRange, hk, hc, ravel, fieldOf, List.getElem?_eq_getElem this]

omit [LinearOrder F] in
theorem fits (t : String) (vals : List F) (h : vals.length = 4) :
    DgCase.Fits { kind with f := fieldOf vals } none none none (dat t vals) := by
  refine ⟨{ data := ⟨[NArr.ofList [0, 1, 2]], ⟨rfl, by simp [kind], by simp [NArr.ofList], _, rfl, isField vals h⟩, ?_⟩
            counts := ⟨rfl, rfl⟩, uniform := by
              show Dict.get? [("grid_type", "uniform"), ("poly_order", "1"), ("basis_type", "serendipity"), ("is_modal", "True")] "grid_type" = some "uniform"
              decide +kernel
            cells_eq := rfl, dx := by simp [kind, axis], pos := by simp [kind] },
    { order := .inr ⟨rfl, ?_, le_rfl⟩, basis := .inr ⟨rfl, ?_, ?_⟩, points := .inr ⟨rfl, rfl⟩, two := le_rfl },
    { fns := fns1_eq, line := by simp [kind], zero := by simp [kind], fields := ?_ }⟩
  · refine .cons ⟨rfl, ?_⟩ .nil
    show ([0, 1, 2] : List F) = (List.range 3).map axis.node
    simp [axis, Axis.node, List.range_succ]
  · show Dict.get? [("grid_type", "uniform"), ("poly_order", "1"), ("basis_type", "serendipity"), ("is_modal", "True")] "poly_order" = some (String.ofList (dec 1))
    decide +kernel
  · show Dict.get? [("grid_type", "uniform"), ("poly_order", "1"), ("basis_type", "serendipity"), ("is_modal", "True")] "basis_type" = some "serendipity"
    decide +kernel
  · show Dict.get? [("grid_type", "uniform"), ("poly_order", "1"), ("basis_type", "serendipity"), ("is_modal", "True")] "is_modal" = some "True"
    decide +kernel
  · show 1 ≤ fns1.length ∧ fns1.length ≤ 2
    decide +kernel

omit [LinearOrder F] in
theorem proper (t : String) (vals : List F) : ProperMeta (dat t vals).ctx := by
  show (["grid_type", "poly_order", "basis_type", "is_modal"] : List String).Nodup ∧
    ∀ k ∈ sizeKeys, k ∉ (["grid_type", "poly_order", "basis_type", "is_modal"] : List String)
  decide +kernel

omit [LinearOrder F] in
theorem holds {P : GData F → Prop} (h : ∀ t vals, vals.length = 4 → P (dat t vals)) : Holds store P := by
  intro t ids ht id hid
  have hlt : id < 2 := (Space.reachable_inv (Space.reachable_perform _) : store.Inv).lt ht hid
  have : id = 0 ∨ id = 1 := by omega
  rcases this with rfl | rfl
  · exact ⟨_, rfl, rfl, proper "a" _, h "a" _ rfl⟩
  · exact ⟨_, rfl, rfl, proper "b" _, h "b" _ rfl⟩

def leafA : Leaf F := .data (some "a".toList) none none [⟨[2, 2], [1, 0, 2, 1]⟩]
def leafB : Leaf F := .data (some "b".toList) none none [⟨[2, 2], [3, 1, 1, 1]⟩]

omit [LinearOrder F] in
theorem rect (t : String) (v : List F) (hv : v.length = 4) : Rectilinear (dat t v) [[0, 1, 2]] ⟨[2, 2], v⟩ :=
  ⟨rfl, rfl, by simp [NArr.WF, hv], rfl, rfl, by simp, by simp⟩

omit [LinearOrder F] in
theorem fresh : FreshTag (store : Space F) "r".toList :=
  ⟨by decide, by decide, by show "r".toList ∉ ["a".toList, "b".toList]; decide⟩

omit [LinearOrder F] in
theorem reachable : Reachable (store : Space F) := Space.reachable_perform _

theorem okA (lib : Lib F) : Leaf.OK lib store false tags [2, 2] leafA :=
  ⟨⟨by decide, by decide, by decide⟩, by simp, by simp, by simp, [(0, 0)], by with_unfolding_all rfl,
    .cons ⟨_, _, _, rfl, rect "a" _ rfl, rfl, rfl⟩ .nil⟩

theorem okB (lib : Lib F) : Leaf.OK lib store false tags [2, 2] leafB :=
  ⟨⟨by decide, by decide, by decide⟩, by simp, by simp, by simp, [(0, 1)], by with_unfolding_all rfl,
    .cons ⟨_, _, _, rfl, rect "b" _ rfl, rfl, rfl⟩ .nil⟩

end

theorem readable : Readable lib store false tags :=
  ⟨rfl, by decide +kernel, min_comm, max_comm, by simp [lib]⟩

theorem ok2 : Leaf.OK lib store false tags [2, 2] (.const "2".toList 2) :=
  ⟨by decide +kernel, by decide, by decide, by decide, by decide, by decide, by decide, by decide, by decide⟩

/-- `2 a * b -` -/
def expr : Expr ℚ := .bin .sub (.bin .mul (.leaf (.const "2".toList 2)) (.leaf leafA)) (.leaf leafB)

/-- The hypotheses of C135 are met. -/
example : ∃ sIE sEI, (do
      let s ← interpolateCmd (.error .osError) none none none none none [] store
      ev lib "2 a * b -".toList (some "r".toList) none false s) = .ok sIE ∧
    (do
      let s ← ev lib "2 a * b -".toList (some "r".toList) none false store
      interpolateCmd (.error .osError) none none none (some "r".toList) none [] s) = .ok sEI ∧ SameData 2 1 sIE sEI := by
  have hx : joinWith ' ' expr.tokens = "2 a * b -".toList := by decide
  obtain ⟨-, sI, sIE, sE, sEI, h1, h2, h3, h4, h5⟩ := C135_interpolate reachable
    readable kind (po := none) (b := none) (ni := none) (holds fun t v h => ⟨fieldOf v, fits t v h⟩) expr
    ⟨.inl ⟨trivial, rfl⟩, rfl⟩ ⟨⟨ok2, okA _⟩, okB _⟩ fresh (.error .osError) [] none
  rw [hx] at h2 h3
  exact ⟨sIE, sEI, by rw [h1]; exact h2, by rw [h3]; exact h4, h5⟩

/-- Likewise for `integrate`. -/
example : ∃ sI, integrateCmd (joinWith ',' ([0].map dec)) none none [] (store : Space ℚ) = .ok sI := by
  obtain ⟨-, sI, -, -, -, h1, -⟩ := C135_integrate (reachable (F := ℚ))
    readable (A := [0]) (by simp) (by simp) (axes := [[0, 1, 2]]) (cells := [2]) (m := 2)
    (holds fun t v h => ⟨⟨[2, 2], v⟩, ⟨rfl, rfl, by simp [NArr.WF, h], ⟨rfl, by
      intro d x n hd hn
      match d with
      | 0 => simp at hd hn; subst hd hn; exact .inl ⟨by simp, .inl rfl⟩
      | d + 1 => simp at hd⟩, by simp⟩, rfl, rfl, rfl⟩) expr
    ⟨.inl ⟨trivial, rfl⟩, rfl⟩ ⟨⟨ok2, okA _⟩, okB _⟩ fresh [] none
  exact ⟨sI, h1⟩

/-- Likewise for `select --z0 1 --comp 0` and the product `a b *`. -/
example : ∃ sS, selectCmd lib.pf (some "0".toList) [some "1".toList] none none [] store = .ok sS := by
  obtain ⟨-, sS, -, -, -, h1, -⟩ := C136_select reachable
    readable (pf := lib.pf) (comp := some "0".toList) (zs := [some "1".toList]) (axes := [⟨[0, 1, 2], 2, none, 1, 2⟩])
    (nc := 2) (cs := [0])
    (holds fun t v h => ⟨⟨[2, 2], v⟩, ⟨2, ⟨rfl, rfl, by simp [NArr.WF, h], rfl, rfl, by simp, by simp⟩,
      .indexStr 0 (by decide), by simp [Increasing], by
        intro i a ha
        match i with
        | 0 => simp at ha; subst ha; exact .numbers (.indexStr 1 (by decide))
        | i + 1 => simp at ha⟩, rfl, rfl⟩)
    (.bin .mul (.leaf leafA) (.leaf leafB)) ⟨rfl, rfl⟩ ⟨trivial, trivial, by simp⟩ rfl ⟨okA _, okB _⟩ fresh [] none
  exact ⟨sS, h1⟩

/-- Likewise for `differentiate`. -/
example : ∃ sD, differentiateCmd (F := ℝ) none none none (some 0) none none [] store = .ok sD := by
  obtain ⟨-, sD, -, -, -, h1, -⟩ := C135_differentiate reachable (lib := libR) (all := false) (tags := tags)
    ⟨rfl, by decide +kernel, min_comm, max_comm, by simp [libR]⟩ kind (po := none) (b := none) (ni := none)
    (holds fun t v h => ⟨fieldOf v, fits t v h⟩) (by simp [kind]) (by decide +kernel) (i := 0) (by simp [kind])
    (.bin .add (.leaf leafA) (.leaf leafB)) ⟨rfl, rfl⟩ ⟨okA _, okB _⟩ fresh [] none
  exact ⟨sD, h1⟩

/-- The values of the third dataset. -/
def third (x : Except Err (Space ℚ)) : Option (List ℚ) := do
  let s ← x.toOption
  let d ← s.heap[2]?
  let v ← d.values
  return v.data

end EvLinEx

open EvLinEx in
/-- C135 fails for expressions that are not linear: adding a number to the coefficients does not add it to the field, and
the product of coefficients is not the product of the fields.  Both commands succeed in both orders, with different
values. -/
theorem C135_nonlinear_fails : ∀ chain ∈ ["a 1 +".toList, "a b *".toList], ∃ v v',
    third (do
      let s ← interpolateCmd (.error .osError) none none none none none [] store
      ev lib chain (some "r".toList) none false s) = some v ∧
    third (do
      let s ← ev lib chain (some "r".toList) none false store
      interpolateCmd (.error .osError) none none none (some "r".toList) none [] s) = some v' ∧ v ≠ v' := by
  have key : ∀ {α : Type} (x y : Option α), x.isSome = true → y.isSome = true → x ≠ y → ∃ v v', x = some v ∧ y = some v' ∧ v ≠ v' := by
    intro α x y hx hy hne
    obtain ⟨v, rfl⟩ := Option.isSome_iff_exists.1 hx
    obtain ⟨v', rfl⟩ := Option.isSome_iff_exists.1 hy
    exact ⟨v, v', rfl, rfl, fun h => hne (by rw [h])⟩
  intro chain hc
  simp only [List.mem_cons, List.not_mem_nil, or_false] at hc
  rcases hc with rfl | rfl
  · exact key _ _ (by decide +kernel) (by decide +kernel) (by decide +kernel)
  · exact key _ _ (by decide +kernel) (by decide +kernel) (by decide +kernel)

end Pgkyl
