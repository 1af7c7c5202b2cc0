import Verif.Lemmas.GkylProps
/-! `GData.ofFile` on field files in closed form. -/

namespace Pgkyl
open Spec GkylReader

section
variable {F : Type} [Add F] [Sub F] [Mul F] [Div F] [IntCast F]
variable {unpack : Bytes → Except Err (Option (Dict String))} {dec : Word → F}

omit [Add F] [Sub F] [Mul F] [Div F] [IntCast F] in
theorem prior_ok (ctx : Ctx F) : ∀ k, k ≠ "grid_type" →
    Dict.get? (if (Dict.get? ctx.other "grid_type").isSome then ctx.other
      else Dict.set ctx.other "grid_type" "uniform") k = Dict.get? ctx.other k := by
  intro k hk
  split
  · rfl
  · exact Dict.get?_set_ne _ _ hk

theorem compat_field {ft asz : Nat} {x : Spec.Field} {rest : Bytes} :
    compatible (header ft x.metaBytes ++ domainSz asz x ++ rest) = some 1 :=
  compatible_ok (rest := u64 ft ++ u64 x.metaBytes.length ++ x.metaBytes ++ domainSz asz x ++ rest)
    (by rw [header]; simp)

/-- what is loaded from a single-range file (any value in the `size` entry not below the number of
cells) -/
theorem open_t1 {x : Spec.Field} (hx : x.OK (realSize x.realType))
    {asz : Nat} (hasz : asz < 2 ^ 63) (hasz' : x.cells.prod ≤ asz)
    {u : Option (Dict String)} (hu : MetaIs unpack x.metaBytes u)
    {rs : List Restr} {cr : Restr} (h6 : (cfgOf rs cr).partialLoad = true → x.cells.length ≤ 6)
    (hr : RestrsOK x.cells rs) (hc : cr.OK x.comps) {data : NArr Word} (hd : IsData x.realType data)
    (hs : data.shape = x.shape) (tag label : List Char) (ctx : Ctx F) :
    GData.ofFile unpack dec (cfgOf rs cr) tag label ctx
        (header 1 x.metaBytes ++ domainSz asz x ++ data.data.flatten) = .ok
      { grid := some ((axesOf (cfgOf rs cr).partialLoad x.cells rs (x.lower.map dec)
          (x.upper.map dec)).map fun q => NArr.ofList q.2)
        values := some ((data.map dec).slice (Restr.slices x.cells rs x.comps cr))
        ctx := {
          cells := some (GData.pieceCells x.cells rs)
          numComps := some (cr.stop x.comps - cr.start)
          lower := some ((axesOf (cfgOf rs cr).partialLoad x.cells rs (x.lower.map dec)
            (x.upper.map dec)).map fun q => q.1.1)
          upper := some ((axesOf (cfgOf rs cr).partialLoad x.cells rs (x.lower.map dec)
            (x.upper.map dec)).map fun q => q.1.2)
          other := Dict.set (metaCtx "True" (if (Dict.get? ctx.other "grid_type").isSome then ctx.other
      else Dict.set ctx.other "grid_type" "uniform") u) "grid_type" "uniform" }
        tag := tag
        customLabel := label } := by
  have h1 := load_t1 (tt := "True") hx hasz hasz' hu
    (if (Dict.get? ctx.other "grid_type").isSome then ctx.other
      else Dict.set ctx.other "grid_type" "uniform") h6 hr hc hd hs rfl
  rw [GData.ofFile_field hx hr compat_field h1 rfl, window_slice hr hs, NArr.slice_map]
  rfl

/-- what is loaded from a multi-range file -/
theorem open_t3 {x : Spec.Field} (hx : x.OK (realSize x.realType))
    {u : Option (Dict String)} (hu : MetaIs unpack x.metaBytes u)
    {rs : List Restr} {cr : Restr} (h6 : (cfgOf rs cr).partialLoad = true → x.cells.length ≤ 6)
    (hr : RestrsOK x.cells rs) (hc : cr.OK x.comps)
    {rgs : List Spec.Range} (hrs : ∀ r ∈ rgs, r.OK x) (hn : rgs.length < 2 ^ 63)
    (tag label : List Char) (ctx : Ctx F) :
    ∃ a : NArr Word, a.WF ∧ a.shape = winDims (winsOf x.cells rs) (cr.stop x.comps - cr.start) ∧
      (∀ idx, inRange a.shape idx = true →
        a.get? idx = Spec.assembled x rgs (shift (winsOf x.cells rs) cr.start idx)) ∧
      GData.ofFile unpack dec (cfgOf rs cr) tag label ctx (multiFile x rgs) = .ok
      { grid := some ((axesOf (cfgOf rs cr).partialLoad x.cells rs (x.lower.map dec)
          (x.upper.map dec)).map fun q => NArr.ofList q.2)
        values := some (a.map dec)
        ctx := {
          cells := some (GData.pieceCells x.cells rs)
          numComps := some (cr.stop x.comps - cr.start)
          lower := some ((axesOf (cfgOf rs cr).partialLoad x.cells rs (x.lower.map dec)
            (x.upper.map dec)).map fun q => q.1.1)
          upper := some ((axesOf (cfgOf rs cr).partialLoad x.cells rs (x.lower.map dec)
            (x.upper.map dec)).map fun q => q.1.2)
          other := Dict.set (metaCtx "True" (if (Dict.get? ctx.other "grid_type").isSome then ctx.other
      else Dict.set ctx.other "grid_type" "uniform") u) "grid_type" "uniform" }
        tag := tag
        customLabel := label } := by
  obtain ⟨a, h1, h2, h3, h4⟩ := load_t3 (tt := "True") hx hu
    (if (Dict.get? ctx.other "grid_type").isSome then ctx.other
      else Dict.set ctx.other "grid_type" "uniform") h6 hr hc hrs hn rfl
  refine ⟨a, h2, h3, h4, ?_⟩
  have hcomp : compatible (multiFile x rgs) = some 1 := compatible_ok
    (rest := u64 3 ++ u64 x.metaBytes.length ++ x.metaBytes ++ x.domain ++ u64 rgs.length ++
      rgs.flatMap Range.bytes) (by rw [multiFile, header]; simp)
  rw [GData.ofFile_field hx hr hcomp h1 h3]

theorem pieceCells_all (ns : List Nat) :
    GData.pieceCells ns (List.replicate ns.length .all) = ns := by
  induction ns with
  | nil => rfl
  | cons n ns ih =>
    rw [List.length_cons, List.replicate_succ, GData.pieceCells, List.zipWith_cons_cons]
    congr 1

theorem slices_all (ns : List Nat) (c : Nat) :
    Restr.slices ns (List.replicate ns.length .all) c .all = (ns ++ [c]).map fun n => (0, n) := by
  rw [Restr.slices, List.map_append]
  congr 1
  induction ns with
  | nil => rfl
  | cons n ns ih =>
    rw [List.length_cons, List.replicate_succ, List.zipWith_cons_cons, ih]
    rfl

theorem zip_zeros {idx : List Nat} {ns : List Nat} (h : idx.length = ns.length) :
    List.zipWith (· + ·) idx (ns.map fun _ => 0) = idx := by
  induction idx generalizing ns with
  | nil => rfl
  | cons i is ih =>
    cases ns with
    | nil => simp at h
    | cons n ns => simp only [List.map_cons, List.zipWith_cons_cons, Nat.add_zero,
        ih (ns := ns) (by simpa using h)]

/-- slicing everything -/
theorem slice_all {α : Type} {a : NArr α} (hw : a.WF) :
    a.slice (a.shape.map fun n => (0, n)) = a := by
  have h : a.slice (a.shape.map fun n => (0, n)) = NArr.ofFn a.shape fun idx =>
      a.get? (List.zipWith (· + ·) idx (a.shape.map fun _ => 0)) := by
    simp [NArr.slice, Function.comp_def]
  have hsome : ∀ idx, inRange a.shape idx = true →
      (a.get? (List.zipWith (· + ·) idx (a.shape.map fun _ => 0))).isSome := by
    intro idx hi
    rw [zip_zeros (inRange_length hi)]
    exact NArr.get?_isSome hw hi
  rw [h]
  apply NArr.ext_get? (NArr.ofFn_WF hsome) hw rfl
  intro idx hi
  rw [NArr.ofFn_get? hsome hi, zip_zeros (by simpa using inRange_length hi)]

theorem axesOf_all_bounds {ns : List Nat} {ls us : List F} (hl : ls.length = ns.length)
    (hu : us.length = ns.length) :
    (axesOf false ns (List.replicate ns.length .all) ls us).map (fun q => q.1.1) = ls ∧
    (axesOf false ns (List.replicate ns.length .all) ls us).map (fun q => q.1.2) = us := by
  induction ns generalizing ls us with
  | nil =>
    cases ls <;> cases us <;> simp [axesOf] at *
  | cons n ns ih =>
    cases ls with
    | nil => simp at hl
    | cons l ls =>
      cases us with
      | nil => simp at hu
      | cons u us =>
        obtain ⟨h1, h2⟩ := ih (ls := ls) (us := us) (by simpa using hl) (by simpa using hu)
        rw [List.length_cons, List.replicate_succ]
        simp only [axesOf, List.map_cons, axisBounds, Bool.false_eq_true, if_false]
        exact ⟨by rw [h1], by rw [h2]⟩

/-- what a full load of a single-range file gives -/
theorem open_full {x : Spec.Field} (hx : x.OK (realSize x.realType))
    (hpos : ∀ n ∈ x.cells, 0 < n)
    {asz : Nat} (hasz : asz < 2 ^ 63) (hasz' : x.cells.prod ≤ asz)
    {u : Option (Dict String)} (hu : MetaIs unpack x.metaBytes u)
    {data : NArr Word} (hd : IsData x.realType data)
    (hs : data.shape = x.shape) (tag label : List Char) (ctx : Ctx F) :
    GData.ofFile unpack dec (Cfg.make [] none) tag label ctx
        (header 1 x.metaBytes ++ domainSz asz x ++ data.data.flatten) = .ok
      { grid := some ((axesOf false x.cells (List.replicate x.cells.length .all) (x.lower.map dec)
          (x.upper.map dec)).map fun q => NArr.ofList q.2)
        values := some (data.map dec)
        ctx := {
          cells := some x.cells
          numComps := some x.comps
          lower := some (x.lower.map dec)
          upper := some (x.upper.map dec)
          other := Dict.set (metaCtx "True" (if (Dict.get? ctx.other "grid_type").isSome then ctx.other
      else Dict.set ctx.other "grid_type" "uniform") u) "grid_type" "uniform" }
        tag := tag
        customLabel := label } := by
  have h := open_t1 (dec := dec) hx hasz hasz' hu (rs := List.replicate x.cells.length .all)
    (cr := .all) (by rw [cfgOf_all_partial]; intro h; cases h) (restrsOK_all hpos)
    (all_ok hx.comps) hd hs tag label ctx
  rw [cfgOf_all_partial, cfgOf_all] at h
  rw [h]
  obtain ⟨b1, b2⟩ := axesOf_all_bounds (ns := x.cells) (ls := x.lower.map dec)
    (us := x.upper.map dec) (by simp [hx.lowerLen]) (by simp [hx.upperLen])
  have hsl : (data.map dec).slice (Restr.slices x.cells (List.replicate x.cells.length .all)
      x.comps .all) = data.map dec := by
    rw [slices_all]
    have := slice_all (NArr.map_WF (g := dec) hd.1)
    rw [NArr.map_shape, hs] at this
    exact this
  rw [b1, b2, pieceCells_all, hsl]
  rfl

theorem pos_of_restrs {ns : List Nat} {rs : List Restr} (hr : List.Forall₂ Restr.OK ns rs) :
    ∀ n ∈ ns, 0 < n := by
  induction hr with
  | nil => intro n hn; cases hn
  | cons h _ ih =>
    intro n hn
    rcases List.mem_cons.1 hn with rfl | hn
    · obtain ⟨a, b, _⟩ := h; omega
    · exact ih n hn

theorem metaIs_of {mb : Bytes} {u : Option (Dict String)} (hu : mb = [] ∨ unpack mb = .ok u) :
    ∃ u', MetaIs unpack mb u' := by
  by_cases hm : mb = []
  · exact ⟨none, Or.inl ⟨hm, rfl⟩⟩
  · exact ⟨u, Or.inr ⟨hm, hu.resolve_left hm⟩⟩

end
end Pgkyl

namespace Pgkyl
open Spec GkylReader

section
variable {F : Type} [Add F] [Sub F] [Mul F] [Div F] [IntCast F]
variable {unpack : Bytes → Except Err (Option (Dict String))} {dec : Word → F}

theorem winDims_slices {x : Spec.Field} {rs : List Restr} {cr : Restr} (hr : RestrsOK x.cells rs) :
    winDims (winsOf x.cells rs) (cr.stop x.comps - cr.start) =
      (Restr.slices x.cells rs x.comps cr).map (fun p => p.2 - p.1) := by
  rw [winDims, GData.winDims_piece hr, GData.pieceCells, Restr.slices]
  simp [List.map_zipWith]

theorem shift_slices {x : Spec.Field} {rs : List Restr} {cr : Restr} (idx : List Nat) :
    shift (winsOf x.cells rs) cr.start idx =
      List.zipWith (· + ·) idx ((Restr.slices x.cells rs x.comps cr).map (·.1)) := by
  rw [shift, Restr.slices, winsOf]
  simp [List.map_zipWith]

theorem slices_length {x : Spec.Field} {rs : List Restr} {cr : Restr} (hr : RestrsOK x.cells rs) :
    (Restr.slices x.cells rs x.comps cr).length = x.shape.length := by
  simp [Restr.slices, Spec.Field.shape, hr.length]

/-- indices of the piece, shifted, are indices of the whole -/
theorem inRange_slices {x : Spec.Field} {rs : List Restr} {cr : Restr} (hr : RestrsOK x.cells rs)
    (hc : cr.OK x.comps) {idx : List Nat}
    (hi : inRange ((Restr.slices x.cells rs x.comps cr).map fun p => p.2 - p.1) idx = true) :
    inRange x.shape (List.zipWith (· + ·) idx ((Restr.slices x.cells rs x.comps cr).map (·.1))) =
      true := by
  have key : ∀ (ns : List Nat) (sl : List (Nat × Nat)) (idx : List Nat),
      List.Forall₂ (fun (p : Nat × Nat) n => p.2 ≤ n) sl ns →
      inRange (sl.map fun p => p.2 - p.1) idx = true →
      inRange ns (List.zipWith (· + ·) idx (sl.map (·.1))) = true := by
    intro ns sl idx h
    induction h generalizing idx with
    | nil => intro hi; cases idx <;> simp [inRange] at *
    | cons h _ ih =>
      intro hi
      cases idx with
      | nil => simp [inRange] at hi
      | cons i is =>
        simp only [List.map_cons, inRange, Bool.and_eq_true, decide_eq_true_eq] at hi
        simp only [List.map_cons, List.zipWith_cons_cons, inRange, Bool.and_eq_true,
          decide_eq_true_eq]
        exact ⟨by omega, ih is hi.2⟩
  apply key _ _ _ _ hi
  rw [Restr.slices, Spec.Field.shape]
  apply List.rel_append
  · have : ∀ (ns : List Nat) (rs : List Restr), RestrsOK ns rs →
        List.Forall₂ (fun (p : Nat × Nat) n => p.2 ≤ n)
          (List.zipWith (fun n r => (r.start, Restr.stop n r)) ns rs) ns := by
      intro ns
      induction ns with
      | nil => intro rs _; cases rs <;> simp
      | cons n ns ih =>
        intro rs h
        cases rs with
        | nil => simp [RestrsOK] at h
        | cons r rs => exact List.Forall₂.cons h.1.2.1 (ih rs h.2)
    exact this _ _ hr
  · exact List.Forall₂.cons hc.2.1 List.Forall₂.nil

/-- a full load of a multi-range file -/
theorem open_full3 {x : Spec.Field} (hx : x.OK (realSize x.realType))
    (hpos : ∀ n ∈ x.cells, 0 < n)
    {u : Option (Dict String)} (hu : MetaIs unpack x.metaBytes u)
    {rgs : List Spec.Range} (hrs : ∀ r ∈ rgs, r.OK x) (hn : rgs.length < 2 ^ 63)
    (tag label : List Char) (ctx : Ctx F) :
    ∃ a : NArr Word, a.WF ∧ a.shape = x.shape ∧
      (∀ idx, inRange x.shape idx = true → a.get? idx = Spec.assembled x rgs idx) ∧
      GData.ofFile unpack dec (Cfg.make [] none) tag label ctx (multiFile x rgs) = .ok
      { grid := some ((axesOf false x.cells (List.replicate x.cells.length .all) (x.lower.map dec)
          (x.upper.map dec)).map fun q => NArr.ofList q.2)
        values := some (a.map dec)
        ctx := {
          cells := some x.cells
          numComps := some x.comps
          lower := some (x.lower.map dec)
          upper := some (x.upper.map dec)
          other := Dict.set (metaCtx "True" (if (Dict.get? ctx.other "grid_type").isSome then ctx.other
      else Dict.set ctx.other "grid_type" "uniform") u) "grid_type" "uniform" }
        tag := tag
        customLabel := label } := by
  obtain ⟨a, h1, h2, h3, h4⟩ := open_t3 (dec := dec) hx hu
    (rs := List.replicate x.cells.length .all)
    (cr := .all) (by rw [cfgOf_all_partial]; intro h; cases h) (restrsOK_all hpos)
    (all_ok hx.comps) hrs hn tag label ctx
  have hsh : a.shape = x.shape := by
    rw [h2, winDims_slices (restrsOK_all hpos), slices_all, List.map_map]
    simp [Function.comp_def, Spec.Field.shape]
  refine ⟨a, h1, hsh, ?_, ?_⟩
  · intro idx hi
    have hz : shift (winsOf x.cells (List.replicate x.cells.length .all)) Restr.all.start idx =
        idx := by
      rw [shift_slices, slices_all, List.map_map]
      exact zip_zeros (by simpa [Spec.Field.shape] using inRange_length hi)
    rw [h3 idx (by rw [hsh]; exact hi), hz]
  · rw [cfgOf_all_partial, cfgOf_all] at h4
    rw [h4]
    obtain ⟨b1, b2⟩ := axesOf_all_bounds (ns := x.cells) (ls := x.lower.map dec)
      (us := x.upper.map dec) (by simp [hx.lowerLen]) (by simp [hx.upperLen])
    rw [b1, b2, pieceCells_all]
    rfl

theorem assembled_last {x : Spec.Field} {pre post : List Spec.Range} {r : Spec.Range}
    {idx : List Nat} (h : r.covers idx.dropLast = true)
    (hp : ∀ q ∈ post, q.covers idx.dropLast = false) :
    Spec.assembled x (pre ++ r :: post) idx = r.value idx := by
  have : (pre ++ r :: post).reverse.find? (fun r => r.covers idx.dropLast) = some r := by
    rw [List.reverse_append, List.reverse_cons, List.append_assoc, List.find?_append]
    have hn : post.reverse.find? (fun r => r.covers idx.dropLast) = none := by
      rw [List.find?_eq_none]; intro q hq; rw [hp q (List.mem_reverse.1 hq)]; simp
    rw [hn]; simp [h]
  rw [assembled, this]

theorem assembled_none {x : Spec.Field} {rgs : List Spec.Range} {idx : List Nat}
    (hp : ∀ q ∈ rgs, q.covers idx.dropLast = false) :
    Spec.assembled x rgs idx = some (List.replicate (realSize x.realType) 0) := by
  have : rgs.reverse.find? (fun r => r.covers idx.dropLast) = none := by
    rw [List.find?_eq_none]; intro q hq; rw [hp q (List.mem_reverse.1 hq)]; simp
  rw [assembled, this]

/-! ### the writer -/

theorem flatMap_enc {F : Type} (enc : F → Word) (l : List F) : l.flatMap enc = (l.map enc).flatten := rfl

theorem writeGkyl_eq {F : Type} [Min F] [Max F] {enc : F → Word} {d : GData F} {v : NArr F}
    {cells : List Nat} {nc : Nat} {lo up : List F} (hv : d.values = some v)
    (hcells : d.numCells = some cells) (hnc : d.numComps = nc)
    (hb : d.bounds = .ok (some (lo, up)))
    (hfit : ∀ n ∈ cells, n < 2 ^ 63) (hdims : cells.length < 2 ^ 63) (hn8 : nc * 8 < 2 ^ 63)
    (hsize : v.data.length < 2 ^ 63) :
    writeGkyl enc d = .ok (header 1 [] ++
      domainSz v.data.length ⟨[], 2, cells, lo.map enc, up.map enc, nc⟩ ++
      (v.map enc).data.flatten) := by
  have hnd : d.numDims = cells.length := by simp [GData.numDims, hcells]
  have hcl : (cells.flatMap fun (n : Nat) => encI8 n) = cells.flatMap u64 := by
    rw [List.flatMap, List.flatMap]
    congr 1
    apply List.map_congr_left
    intro n hn; exact encI8_nat (hfit n hn)
  have e1 : encI8 1 = u64 1 := encI8_nat (n := 1) (by norm_num)
  have e0 : encI8 0 = u64 0 := encI8_nat (n := 0) (by norm_num)
  have e2 : encI8 2 = u64 2 := encI8_nat (n := 2) (by norm_num)
  have e3 : encI8 (cells.length : Int) = u64 cells.length := encI8_nat hdims
  have e4 : encI8 ((nc : Int) * 8) = u64 (nc * 8) := by
    have := encI8_nat hn8; push_cast at this; exact this
  have e5 : encI8 (v.data.length : Int) = u64 v.data.length := encI8_nat hsize
  simp only [writeGkyl, hb, bind, Except.bind, hv, hcells, hnd, hnc, hcl, e0, e1, e2, e3, e4, e5]
  simp [header, domainSz, realSize, NArr.map, flatMap_enc, magic_eq, magic]

end
end Pgkyl
