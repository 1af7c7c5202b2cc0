import Verif.Props.FileInterp
import Verif.Props.SelectInterp
/-!
# C133: cutting while loading and selecting afterwards

Numbers are the elements of a linearly ordered field (exact arithmetic).
-/

namespace Pgkyl
open Spec Cmd GkylReader

section
variable {F : Type} [_root_.Field F] [LinearOrder F] [IsStrictOrderedRing F]

/-- An axis of the file with the restriction as the argument of `select`. -/
def cutAxes : List Nat → List Restr → List F → List F → List (SelAxis F)
  | n :: ns, r :: rs, l :: ls, u :: us =>
    ⟨(⟨l, (u - l) / (n : F), n⟩ : Axis F).nodes, n, r.text.map .str, r.start, r.stop n⟩ :: cutAxes ns rs ls us
  | _, _, _, _ => []

omit [IsStrictOrderedRing F] in
theorem cut_denotes {nodes : List F} {n : Nat} {r : Restr} (h : r.OK n) (hneg : ∀ a k, r ≠ .neg a k) :
    Denotes nodes n (r.text.map .str) r.start (r.stop n) := by
  obtain ⟨h1, h2, -⟩ := h
  cases r with
  | all => exact .all
  | idx i => exact .indexStr i (by simp [Restr.stop] at h2; omega)
  | neg a k => exact absurd rfl (hneg a k)
  | range a b =>
    cases a with
    | none => cases b with
      | none => exact .whole
      | some b => exact .upto b h1 h2
    | some a => cases b with
      | none => simpa [Restr.text, Restr.start, Restr.stop, Restr.num, Spec.dec] using Denotes.from (nodes := nodes) a h1
      | some b => simpa [Restr.text, Restr.start, Restr.stop, Restr.num, Spec.dec] using Denotes.range (nodes := nodes) a b h1 h2

omit [IsStrictOrderedRing F] [LinearOrder F] in
theorem axis_nodes {x : NArr F} {a : Axis F} (h : IsAxis x a) : x = NArr.ofList a.nodes := by
  have := mesh_nodes (g := [x]) (axes := [a]) (.cons h .nil)
  simpa using this

theorem nodes_min {a : Axis F} (h : 0 < a.dx) : a.nodes.min? = some (a.node 0) := by
  rw [List.min?_eq_some_iff]
  refine ⟨List.mem_map.2 ⟨0, by simp, rfl⟩, ?_⟩
  intro b hb
  obtain ⟨i, -, rfl⟩ := List.mem_map.1 hb
  have : (0 : F) ≤ (i : F) * a.dx := mul_nonneg (by positivity) h.le
  simp only [Axis.node]; push_cast; linarith

theorem nodes_max {a : Axis F} (h : 0 < a.dx) : a.nodes.max? = some (a.node a.cells) := by
  rw [List.max?_eq_some_iff]
  refine ⟨List.mem_map.2 ⟨a.cells, by simp, rfl⟩, ?_⟩
  intro b hb
  obtain ⟨i, hi, rfl⟩ := List.mem_map.1 hb
  have h1 : (i : F) ≤ (a.cells : F) := by exact_mod_cast Nat.lt_succ_iff.1 (List.mem_range.1 hi)
  have := mul_le_mul_of_nonneg_right h1 h.le
  simp only [Axis.node]; linarith

/-- All facts about the axes. -/
theorem cut_axes {pl : Bool} : ∀ {ns : List Nat} {rs : List Restr} {ls us : List F}, RestrsOK ns rs →
    List.Forall₂ (· < ·) ls us → ls.length = ns.length → (∀ r ∈ rs, ∀ a k, r ≠ .neg a k) →
    (pl = false → ∀ r ∈ rs, r = .all) →
    (axesOf false ns (List.replicate ns.length .all) ls us).map (fun q => NArr.ofList q.2) =
        (cutAxes ns rs ls us).map (fun a => NArr.ofList a.nodes) ∧
      (axesOf pl ns rs ls us).map (fun q => NArr.ofList q.2) = (cutAxes ns rs ls us).map (fun a => NArr.ofList a.nodesOut) ∧
      GData.minima ns.length ((cutAxes ns rs ls us).map fun a => NArr.ofList a.nodesOut) =
        .ok ((axesOf pl ns rs ls us).map fun q => q.1.1) ∧
      GData.maxima ns.length ((cutAxes ns rs ls us).map fun a => NArr.ofList a.nodesOut) =
        .ok ((axesOf pl ns rs ls us).map fun q => q.1.2) ∧
      (cutAxes ns rs ls us).map (·.n) = ns ∧ (cutAxes ns rs ls us).map (·.lo) = rs.map Restr.start ∧
      (cutAxes ns rs ls us).map (fun a => a.hi - a.lo) = GData.pieceCells ns rs ∧
      (cutAxes ns rs ls us).map (·.z) = rs.map (fun r => r.text.map .str) ∧
      ∀ a ∈ cutAxes ns rs ls us, a.OK := by
  intro ns
  induction ns with
  | nil =>
    intro rs ls us h _ _ _ _
    cases rs <;> simp [RestrsOK, axesOf, cutAxes, GData.minima, GData.maxima, GData.pieceCells] at *
  | cons n ns ih =>
    intro rs ls us h hb hl hneg hpl
    cases rs with
    | nil => simp [RestrsOK] at h
    | cons r rs =>
      cases hb with
      | nil => simp at hl
      | @cons l u ls us hlu hb =>
        obtain ⟨h0, h1⟩ := h
        obtain ⟨i1, i2, i3, i4, i5, i6, i7, i8, i9⟩ := ih h1 hb (by simpa using hl)
          (fun r hr => hneg r (by simp [hr])) (fun hp r hr => hpl hp r (by simp [hr]))
        have hpl0 : pl = false → r.start = 0 ∧ n - r.stop n = 0 := by
          intro hp; rw [hpl hp r (by simp)]; simp [Restr.start, Restr.stop]
        have hn : 0 < n := by have := h0.1; have := h0.2.1; omega
        have hnF : (0 : F) < (n : F) := by exact_mod_cast hn
        have hdx : (0 : F) < (u - l) / (n : F) := div_pos (sub_pos.2 hlu) hnF
        have hall : (Restr.all).OK n := ⟨by simpa [Restr.start, Restr.stop] using hn, le_refl _, by intro a k e; cases e⟩
        have w1 := axis_nodes (window_axis (pl := false) hall l u (by intro; simp [Restr.start, Restr.stop]))
        have w2 := axis_nodes (window_axis (pl := pl) h0 l u hpl0)
        have hb0 := axisBounds_eq h0 l u hpl0
        obtain ⟨A, hA⟩ : ∃ A : Axis F, A = ⟨l, (u - l) / (n : F), n⟩ := ⟨_, rfl⟩
        have hwin : (⟨l + (r.start : F) * ((u - l) / (n : F)), (u - l) / (n : F), r.stop n - r.start⟩ : Axis F) =
            A.window r.start (r.stop n) := by rw [hA]; rfl
        have hout : (⟨A.nodes, n, r.text.map .str, r.start, r.stop n⟩ : SelAxis F).nodesOut =
            (A.window r.start (r.stop n)).nodes := by
          have hne : A.nodes.length ≠ n := by rw [nodes_length, hA]; simp
          simp only [SelAxis.nodesOut, if_neg hne]
          exact window_nodes h0.1.le (by rw [hA]; exact h0.2.1)
        have hwdx : 0 < (A.window r.start (r.stop n)).dx := by rw [hA]; exact hdx
        have hA' : (⟨l + ((Restr.all).start : F) * ((u - l) / (n : F)), (u - l) / (n : F),
            (Restr.all).stop n - (Restr.all).start⟩ : Axis F) = A := by
          rw [hA]; simp [Restr.start, Restr.stop]
        rw [hA'] at w1
        rw [hwin] at w2
        simp only [List.length_cons, List.replicate_succ, axesOf, cutAxes, List.map_cons, ← hA, hout]
        refine ⟨by rw [i1]; congr 1, by rw [i2]; congr 1, ?_, ?_, by rw [i5], by rw [i6], ?_, by rw [i8], ?_⟩
        · simp only [GData.minima, NArr.ofList, nodes_min hwdx]
          simp only [NArr.ofList] at i3
          rw [i3, hb0]
          simp [bind, Except.bind, pure, Except.pure, Axis.window, Axis.node, hA]
        · simp only [GData.maxima, NArr.ofList, nodes_max hwdx]
          simp only [NArr.ofList] at i4
          rw [i4, hb0]
          simp only [bind, Except.bind, pure, Except.pure, Axis.window, Axis.node, hA]
          congr 2
          rw [Nat.cast_sub h0.1.le]; ring
        · rw [i7]; simp [GData.pieceCells]
        · intro a ha
          rcases List.mem_cons.1 ha with rfl | ha
          · refine ⟨nodes_increasing (by rw [hA]; exact hdx), .inl (by rw [nodes_length, hA]),
              cut_denotes h0 (hneg r (by simp)), h0.1⟩
          · exact i9 a ha

/-- The components a restriction of the form `'i'`, `'a:b'`, `':b'` or none stands for. -/
theorem cut_comps {nc : Nat} {r : Restr} (h : r.OK nc) (hneg : ∀ a k, r ≠ .neg a k) (hopen : ∀ a, r ≠ .range a none) :
    CompDenotes (F := F) nc (r.text.map .str) (List.range' r.start (r.stop nc - r.start)) := by
  obtain ⟨h1, h2, -⟩ := h
  cases r with
  | all => simpa [Restr.text, Restr.start, Restr.stop, List.range_eq_range'] using CompDenotes.all (F := F) (nc := nc)
  | idx i => simpa [Restr.text, Restr.start, Restr.stop, Restr.num, Spec.dec] using CompDenotes.indexStr (F := F) (nc := nc) i (by simp [Restr.stop] at h2; omega)
  | neg a k => exact absurd rfl (hneg a k)
  | range a b =>
    cases b with
    | none => exact absurd rfl (hopen a)
    | some b =>
      cases a with
      | none =>
        have := CompDenotes.upto (F := F) (nc := nc) b h1 h2
        simpa [Restr.text, Restr.start, Restr.stop, List.range_eq_range', Restr.num, Spec.dec] using this
      | some a => simpa [Restr.text, Restr.start, Restr.stop, Restr.num, Spec.dec] using CompDenotes.range (F := F) (nc := nc) a b h1 h2

variable {unpack : Bytes → Except Err (Option (Dict String))} {dec : Word → F}

/-- **C133** (part).  A field file with one or several ranges; restrictions of its axes of the forms `'i'`, `'a:b'`, `'a:'`,
`':b'`, `':'` or none, and of its components of the forms `'i'`, `'a:b'`, `':b'` or none.  Giving them when the file is loaded
and giving the same texts to `select` after loading everything leads to the same grid and values; with `overwrite` the dataset
after the selection is the one which the partial load makes, with the same metadata.

Missing: negative stops `'a:-k'` and open component ranges `'a:'`, for which it is false (`C133_negative_fails`,
`C133_open_fails`). -/
theorem C133_cut_is_select_partial (pf : List Char → Option F) {x : Spec.Field} {w : List Nat → Nat → Word} {f : Bytes}
    (hf : StoresWords x w f) (hx : x.OK (realSize x.realType)) {u : Option (Dict String)}
    (hu : x.metaBytes = [] ∨ unpack x.metaBytes = .ok u) (h1 : 1 ≤ x.cells.length) (h6 : x.cells.length ≤ 6)
    (hb : List.Forall₂ (fun l u => dec l < dec u) x.lower x.upper) {rs : List Restr} {cr : Restr}
    (hr : List.Forall₂ Restr.OK x.cells rs) (hc : cr.OK x.comps) (hneg : ∀ r ∈ cr :: rs, ∀ a k, r ≠ .neg a k)
    (hopen : ∀ a, cr ≠ .range a none) (tag label : List Char) (ctx : Ctx F) :
    ∃ full part g v, GData.ofFile unpack dec (Cfg.make [] none) tag label ctx f = .ok full ∧
      GData.ofFile unpack dec (Cfg.make (rs.map Restr.text) cr.text) tag label ctx f = .ok part ∧
      part.grid = some g ∧ part.values = some v ∧
      select pf full (cr.text.map .str) (rs.map fun r => r.text.map .str) false = .ok (g, v, full) ∧
      select pf full (cr.text.map .str) (rs.map fun r => r.text.map .str) true = .ok (g, v, part) := by
  obtain ⟨u', hu'⟩ := metaIs_of hu
  have hr' := restrsOK_iff.1 hr
  have hpos := pos_of_restrs hr
  have hall : RestrsOK x.cells (List.replicate x.cells.length .all) := by
    clear * - hpos
    generalize x.cells = ns at *
    induction ns with
    | nil => exact True.intro
    | cons n ns ih =>
      exact ⟨⟨by simpa [Restr.start, Restr.stop] using hpos n (by simp), le_refl _, by intro a k e; cases e⟩,
        ih fun m hm => hpos m (by simp [hm])⟩
  have hcall : (Restr.all).OK x.comps := by
    have := hc.1; have := hc.2.1
    exact ⟨by simp [Restr.start, Restr.stop]; omega, le_refl _, by intro a k e; cases e⟩
  obtain ⟨vf, hvf, hof⟩ := open_words (dec := dec) hf hx hu' h6 hall hcall tag label ctx
  obtain ⟨vp, hvp, hop⟩ := open_words (dec := dec) hf hx hu' h6 hr' hc tag label ctx
  rw [cfgOf_all] at hof
  have hpc : GData.pieceCells x.cells (List.replicate x.cells.length .all) = x.cells := by
    clear * -
    rw [GData.pieceCells]
    generalize x.cells = ns
    induction ns with
    | nil => rfl
    | cons n ns ih => rw [List.length_cons, List.replicate_succ, List.zipWith_cons_cons, ih]; rfl
  have hb' : List.Forall₂ (· < ·) (x.lower.map dec) (x.upper.map dec) := by
    rw [List.forall₂_map_left_iff, List.forall₂_map_right_iff]; exact hb
  obtain ⟨i1, i2, i3, i4, i5, i6, i7, i8, i9⟩ := cut_axes (pl := (cfgOf rs cr).partialLoad) hr' hb'
    (by simp [hx.lowerLen]) (fun r hr => hneg r (by simp [hr]))
    (fun hp r hrr => text_none ((make_partial_false hp).1 r.text (List.mem_map.2 ⟨r, hrr, rfl⟩)))
  obtain ⟨sa, hsa⟩ : ∃ sa, sa = cutAxes x.cells rs (x.lower.map dec) (x.upper.map dec) := ⟨_, rfl⟩
  rw [← hsa] at i1 i2 i3 i4 i5 i6 i7 i8 i9
  have hsl : sa.length = x.cells.length := by rw [← i5]; simp
  have hpl : (Cfg.make [] none).partialLoad = false := rfl
  rw [hpl, i1, hpc] at hof
  rw [i2] at hop
  rw [hpc] at hvf
  obtain ⟨full, hfull⟩ : ∃ full, GData.ofFile unpack dec (Cfg.make [] none) tag label ctx f = .ok full := ⟨_, hof⟩
  have hfe := Except.ok.inj (hfull.symm.trans hof)
  have hH : HasAxes full sa x.comps vf := by
    refine ⟨by rw [hfe], by rw [hfe], hvf.wf, ?_, ?_, ?_, ?_⟩
    · rw [hvf.shape, i5]; simp [Restr.stop, Restr.start]
    · rw [hfe]; simp [GData.numDims, GData.numCells, hsl]
    · intro e; rw [e] at hsl; simp at hsl; omega
    · omega
  have hcd := cut_comps (F := F) hc (hneg cr (by simp)) hopen
  obtain ⟨out, e1, hp⟩ := C11_select_partial pf full sa x.comps vf hH i9 _ _ hcd []
  rw [i8, List.append_nil] at e1
  have hval : out = vp := by
    refine NArr.ext_get? hp.1 hvp.wf ?_ ?_
    · rw [hp.2.1, hvp.shape, i7, List.length_range']
    · intro idx hi
      rw [hp.2.1] at hi
      obtain ⟨i, j, rfl, g1, g2⟩ := inRange_snoc_inv hi
      rw [List.length_range'] at g2
      rw [hp.2.2 i j (cr.start + j) g1 (by rw [List.getElem?_range' g2]; simp), i6]
      rw [i7] at g1
      rw [hvp.get i g1 j g2]
      have hin := inRange_slices hr' hc (idx := i ++ [j]) (by
        rw [Restr.slices, List.map_append, List.map_zipWith]
        exact inRange_snoc_iff.2 ⟨g1, g2⟩)
      have hst : (Restr.slices x.cells rs x.comps cr).map (·.1) = rs.map Restr.start ++ [cr.start] := by
        rw [Restr.slices, List.map_append, List.map_zipWith]
        congr 1
        have hl := hr'.length
        clear * - hl
        generalize x.cells = ns at *
        induction ns generalizing rs with
        | nil => cases rs <;> simp at *
        | cons n ns ih => cases rs with
          | nil => simp at hl
          | cons r rs => simp at hl ⊢; exact ih hl
      have hil : i.length = (rs.map Restr.start).length := by
        rw [inRange_length g1, GData.pieceCells, List.length_zipWith, hr'.length, List.length_map, hr'.length]; simp
      rw [hst, List.zipWith_append hil, Spec.Field.shape] at hin
      have hin' := inRange_snoc_iff.1 hin
      have := hvf.get _ hin'.1 (cr.start + j) (by
        have h2 := hc.2.1; have h3 : (Restr.all).stop x.comps - (Restr.all).start = x.comps := rfl; rw [h3]; omega)
      rw [this]
      simp only [Restr.start, Nat.zero_add]
      congr 3
      have hz : ∀ (a : List Nat) (k : Nat), a.length = k → List.zipWith (· + ·) a ((List.replicate k Restr.all).map Restr.start) = a := by
        intro a
        induction a with
        | nil => intro k hk; subst hk; rfl
        | cons a as ih => intro k hk; subst hk; rw [List.length_cons, List.replicate_succ, List.map_cons, List.zipWith_cons_cons, ih _ rfl]; rfl
      exact hz _ _ (by rw [inRange_length hin'.1])
  subst hval
  refine ⟨full, _, _, out, hfull, hop, rfl, rfl, e1, ?_⟩
  have hlen : out.shape.length - 1 = x.cells.length := by rw [hp.2.1, ← hsl]; simp
  refine select_true_of_false pf e1 ?_
  rw [GData.push_ok (d := full) (nc := cr.stop x.comps - cr.start) (by rw [hp.2.1, List.getLast?_concat, List.length_range'])
    (by rw [hlen]; exact i3) (by rw [hlen]; exact i4), hfe]
  have hdl : out.shape.dropLast = GData.pieceCells x.cells rs := by rw [hp.2.1, List.dropLast_concat, i7]
  rw [hdl]

theorem cfgOf_neg (k m : Nat) :
    cfgOf (.neg none k :: List.replicate m .all) .all = Cfg.make [some (':' :: '-' :: Spec.dec k)] none := by
  have h1 : ((List.replicate m Restr.all).map Restr.text) = List.replicate m none := by simp [Restr.text]
  simp only [cfgOf, Cfg.make, List.map_cons, h1, Restr.text]
  congr 1
  congr 1
  apply List.map_congr_left
  intro i _
  cases i with
  | zero => simp [Restr.num, Spec.dec]
  | succ i =>
    simp only [List.getElem?_cons_succ, List.getElem?_replicate, List.getElem?_nil]
    split <;> rfl

omit [IsStrictOrderedRing F] in
theorem axesSel_nones (pf : List Char → Option F) : ∀ (ns : List Nat) (gs : List (NArr F)) (d m : Nat),
    axesSel pf true d ns gs (List.replicate m none) = axesSel pf true d ns gs [] := by
  intro ns
  induction ns with
  | nil => intros; rfl
  | cons n ns ih =>
    intro gs d m
    cases gs with
    | nil => rfl
    | cons g gs =>
      cases m with
      | zero => rfl
      | succ m =>
        rw [List.replicate_succ, axesSel, axesSel, List.tail_cons, ih gs (d + 1) m]
        rfl

/-- The fully loaded dataset, described with the axes cut by some restrictions. -/
theorem whole_load {x : Spec.Field} {w : List Nat → Nat → Word} {f : Bytes}
    (hf : StoresWords x w f) (hx : x.OK (realSize x.realType)) {u : Option (Dict String)}
    (hu : x.metaBytes = [] ∨ unpack x.metaBytes = .ok u) (h1 : 1 ≤ x.cells.length) (h6 : x.cells.length ≤ 6)
    (hb : List.Forall₂ (fun l u => dec l < dec u) x.lower x.upper) (h0 : 0 < x.comps) (hpos : ∀ n ∈ x.cells, 0 < n)
    (tag label : List Char) (ctx : Ctx F) :
    ∃ full vf, GData.ofFile unpack dec (Cfg.make [] none) tag label ctx f = .ok full ∧
      ∀ rs, List.Forall₂ Restr.OK x.cells rs → (∀ r ∈ rs, ∀ a k, r ≠ .neg a k) →
        HasAxes full (cutAxes x.cells rs (x.lower.map dec) (x.upper.map dec)) x.comps vf ∧
        (cutAxes x.cells rs (x.lower.map dec) (x.upper.map dec)).map (·.z) = rs.map (fun r => r.text.map .str) ∧
        (cutAxes x.cells rs (x.lower.map dec) (x.upper.map dec)).map (·.n) = x.cells ∧
        ∀ a ∈ cutAxes x.cells rs (x.lower.map dec) (x.upper.map dec), a.OK := by
  obtain ⟨u', hu'⟩ := metaIs_of hu
  have hcall : (Restr.all).OK x.comps := ⟨by simpa [Restr.start, Restr.stop] using h0, le_refl _, by intro a k e; cases e⟩
  obtain ⟨vf, hvf, hof⟩ := open_words (dec := dec) hf hx hu' h6 (restrsOK_all hpos) hcall tag label ctx
  rw [cfgOf_all, pieceCells_all] at hof
  rw [pieceCells_all] at hvf
  refine ⟨_, vf, hof, fun rs hr hneg => ?_⟩
  have hb' : List.Forall₂ (· < ·) (x.lower.map dec) (x.upper.map dec) := by
    rw [List.forall₂_map_left_iff, List.forall₂_map_right_iff]; exact hb
  obtain ⟨i1, -, -, -, i5, -, -, i8, i9⟩ := cut_axes (pl := true) (restrsOK_iff.1 hr) hb'
    (by simp [hx.lowerLen]) hneg nofun
  have hsl : (cutAxes x.cells rs (x.lower.map dec) (x.upper.map dec)).length = x.cells.length := by
    conv_rhs => rw [← i5, List.length_map]
  refine ⟨⟨congrArg some i1, rfl, hvf.wf, ?_, ?_, ?_, ?_⟩, i8, i5, i9⟩
  · rw [hvf.shape, i5]; simp [Restr.stop, Restr.start]
  · simp [GData.numDims, GData.numCells, hsl]
  · intro e; rw [e] at hsl; simp at hsl; omega
  · omega

/-- **C133** fails for component ranges without an end: `'a:'` and `':'` are understood when the file is loaded, and the same
text makes `select` raise a `TypeError`. -/
theorem C133_open_fails (pf : List Char → Option F) {x : Spec.Field} {w : List Nat → Nat → Word} {f : Bytes}
    (hf : StoresWords x w f) (hx : x.OK (realSize x.realType)) {u : Option (Dict String)}
    (hu : x.metaBytes = [] ∨ unpack x.metaBytes = .ok u) (h1 : 1 ≤ x.cells.length) (h6 : x.cells.length ≤ 6)
    (hb : List.Forall₂ (fun l u => dec l < dec u) x.lower x.upper) {rs : List Restr} {a : Option Nat}
    (hr : List.Forall₂ Restr.OK x.cells rs) (hc : (Restr.range a none).OK x.comps)
    (hneg : ∀ r ∈ rs, ∀ a k, r ≠ .neg a k) (overwrite : Bool) (tag label : List Char) (ctx : Ctx F) :
    ∃ full part, GData.ofFile unpack dec (Cfg.make [] none) tag label ctx f = .ok full ∧
      GData.ofFile unpack dec (Cfg.make (rs.map Restr.text) (Restr.range a none).text) tag label ctx f = .ok part ∧
      select pf full ((Restr.range a none).text.map .str) (rs.map fun r => r.text.map .str) overwrite = .error .typeError := by
  obtain ⟨u', hu'⟩ := metaIs_of hu
  have h0 : 0 < x.comps := by have := hc.1; have := hc.2.1; omega
  obtain ⟨full, vf, e1, hH⟩ := whole_load (dec := dec) hf hx hu h1 h6 hb h0 (pos_of_restrs hr) tag label ctx
  obtain ⟨vp, -, hop⟩ := open_words (dec := dec) hf hx hu' h6 (restrsOK_iff.1 hr) hc tag label ctx
  refine ⟨full, _, e1, hop, ?_⟩
  obtain ⟨⟨hg, hv, hw, hs, hd, hne, h6'⟩, hz, -, hax⟩ := hH rs hr hneg
  rw [← hz]
  obtain ⟨sa, hsa⟩ : ∃ sa, sa = cutAxes x.cells rs (x.lower.map dec) (x.upper.map dec) := ⟨_, rfl⟩
  rw [← hsa] at hg hs hd hne h6' hax ⊢
  have hp : idxParser pf (.str ((a.map Restr.num).getD [] ++ [':'])) none false = .error .typeError := by
    cases a with
    | none =>
      have := idxParser_slice pf (a := []) (b := []) (by simp) (by simp) (by simp) (by simp) none false
      rw [List.nil_append] at this
      exact this
    | some a => exact C10_open_stop_without_grid_rejected pf a false
  cases sa with
  | nil => exact absurd rfl hne
  | cons q qs =>
    simp only [select, hg, hv, List.map_cons]
    have hlen : vf.shape.length = full.numDims + 1 := by rw [hs, hd]; simp
    have hdl : vf.shape.dropLast = (q :: qs).map (·.n) := by rw [hs, List.dropLast_concat]
    have hax' := axesSel_denotes pf (q :: qs) hax [] 0
    have ht : ((q :: qs).map (·.z)).take 6 = (q :: qs).map (·.z) := List.take_of_length_le (by simpa using h6')
    rw [List.append_nil] at hax'
    simp only [List.map_cons] at hax' hdl ht
    simp only [hlen, ne_eq, not_true_eq_false, if_false, hdl, ht]
    simp only [NArr.ofList, List.length_singleton, beq_self_eq_true] at hax' ⊢
    rw [hax']
    simp only [bind, Except.bind, compSel, Restr.text, Option.map_some, Option.map_none, Option.getD_none, List.append_nil, hp]

/-- **C133** fails for a negative end: with `':-k'` on the first axis of `n` cells the load keeps the first `n - k` cells and
`select` the first `min (n + 2 - k) n`, so that the two disagree for every file and every such restriction. -/
theorem C133_negative_fails (pf : List Char → Option F) {x : Spec.Field} {w : List Nat → Nat → Word} {f : Bytes}
    (hf : StoresWords x w f) (hx : x.OK (realSize x.realType)) {u : Option (Dict String)}
    (hu : x.metaBytes = [] ∨ unpack x.metaBytes = .ok u) (h6 : x.cells.length ≤ 6)
    (hb : List.Forall₂ (fun l u => dec l < dec u) x.lower x.upper) (h0 : 0 < x.comps) {n k : Nat} {ns : List Nat}
    (hn : x.cells = n :: ns) (hns : ∀ m ∈ ns, 0 < m) (hk : 0 < k) (hkn : k < n)
    (tag label : List Char) (ctx : Ctx F) :
    ∃ full part g v v', GData.ofFile unpack dec (Cfg.make [] none) tag label ctx f = .ok full ∧
      GData.ofFile unpack dec (Cfg.make [some (':' :: '-' :: Spec.dec k)] none) tag label ctx f = .ok part ∧
      part.values = some v ∧ v.shape = (n - k) :: ns ++ [x.comps] ∧
      select pf full none [some (.str (':' :: '-' :: Spec.dec k))] false = .ok (g, v', full) ∧
      v'.shape = min (n + 2 - k) n :: ns ++ [x.comps] ∧ v.shape ≠ v'.shape := by
  obtain ⟨u', hu'⟩ := metaIs_of hu
  have hpos : ∀ m ∈ x.cells, 0 < m := by
    rw [hn]; intro m hm
    rcases List.mem_cons.1 hm with rfl | hm
    · omega
    · exact hns m hm
  have hcall : (Restr.all).OK x.comps := all_ok h0
  have hrs : RestrsOK x.cells (.neg none k :: List.replicate ns.length .all) := by
    rw [hn]
    exact ⟨⟨by simp [Restr.start, Restr.stop]; omega, by simp [Restr.stop], by intro a j e; cases e; exact hk⟩,
      restrsOK_all hns⟩
  obtain ⟨full, vf, e1, hH⟩ := whole_load (dec := dec) hf hx hu (by rw [hn]; simp) h6 hb h0 hpos tag label ctx
  obtain ⟨vp, hvp, hop⟩ := open_words (dec := dec) hf hx hu' h6 hrs hcall tag label ctx
  rw [cfgOf_neg] at hop
  obtain ⟨⟨hg, hv, hw, hs, hd, hne, h6'⟩, hz, hcn, hax⟩ := hH _ (restrsOK_iff.2 (restrsOK_all hpos)) (by simp)
  obtain ⟨sa, hsa⟩ : ∃ sa, sa = cutAxes x.cells (List.replicate x.cells.length .all) (x.lower.map dec) (x.upper.map dec) :=
    ⟨_, rfl⟩
  rw [← hsa] at hg hs hd hne h6' hax hz hcn
  cases sa with
  | nil => exact absurd rfl hne
  | cons q qs =>
    rw [hn] at hcn hz
    simp only [List.map_cons, List.cons.injEq] at hcn
    simp only [List.map_cons, List.length_cons, List.replicate_succ, List.cons.injEq] at hz
    obtain ⟨hq, hqs⟩ := hcn
    have hzs : qs.map (·.z) = List.replicate ns.length none := by rw [hz.2]; simp [Restr.text]
    have hql : q.nodes.length = n + 1 := by
      have hlow := hx.lowerLen
      have hup := hb.length_eq
      rw [hn] at hlow hsa
      obtain ⟨l, ls, hls⟩ : ∃ l ls, x.lower = l :: ls := List.exists_cons_of_length_eq_add_one hlow
      rw [hls] at hup
      obtain ⟨u, us, hus⟩ : ∃ u us, x.upper = u :: us := List.exists_cons_of_length_eq_add_one hup.symm
      rw [hls, hus] at hsa
      simp only [List.length_cons, List.replicate_succ, List.map_cons, cutAxes, List.cons.injEq] at hsa
      rw [hsa.1, nodes_length]
    have hfirst := C53_select_negative_stop pf 0 q.nodes n k hql hk (by omega)
    obtain ⟨s0, hs0, hs0v⟩ : ∃ s0, axisSel pf true 0 (NArr.ofList q.nodes) n (some (.str (':' :: '-' :: Spec.dec k))) = .ok s0 ∧
        s0.v = List.range (min (n + 2 - k) n) := by
      cases h : axisSel pf true 0 (NArr.ofList q.nodes) n (some (.str (':' :: '-' :: Spec.dec k))) with
      | error e => rw [h] at hfirst; cases hfirst
      | ok s0 => rw [h] at hfirst; exact ⟨s0, rfl, Except.ok.inj hfirst⟩
    have hax' := axesSel_denotes pf qs (fun a ha => hax a (by simp [ha])) [] 1
    rw [List.append_nil, hzs, axesSel_nones] at hax'
    have hlen : vf.shape.length = full.numDims + 1 := by rw [hs, hd]; simp
    have hdl : vf.shape.dropLast = n :: qs.map (·.n) := by rw [hs, List.dropLast_concat, List.map_cons, hq]
    have hlast : vf.shape.getLastD 0 = x.comps := by rw [hs, List.getLastD_concat]
    have hss : (qs.map fun a => a.hi - a.lo) = ns := by
      rw [← hqs]
      apply List.map_congr_left
      intro a ha
      have := (hax a (by simp [ha])).2.2.1
      have hzn : a.z = none := by
        have : a.z ∈ qs.map (·.z) := List.mem_map.2 ⟨a, ha, rfl⟩
        rw [hzs] at this
        exact List.eq_of_mem_replicate this
      rw [hzn] at this
      obtain ⟨h1, h2⟩ := denotes_none this
      rw [h1, h2]; rfl
    refine ⟨full, _, cutGrid true (s0.g :: qs.map fun a => List.range' a.lo (if a.nodes.length = a.n then a.hi - a.lo
        else a.hi - a.lo + 1)) (NArr.ofList q.nodes :: qs.map fun a => NArr.ofList a.nodes), vp, vf.ix ((s0.v :: qs.map fun a => List.range' a.lo (a.hi - a.lo)) ++ [List.range x.comps]),
      e1, hop, rfl, ?_, ?_, ?_, ?_⟩
    · rw [hvp.shape, hn, GData.pieceCells]
      simp only [List.zipWith_cons_cons]
      have := pieceCells_all ns
      rw [GData.pieceCells] at this
      rw [this]; rfl
    · simp only [select, hg, hv, List.map_cons]
      have ht : ∀ z : Option (IdxArg F), [z].take 6 = [z] := fun _ => rfl
      simp only [hlen, ne_eq, not_true_eq_false, if_false, hdl, hlast, ht, axesSel, List.headD_cons,
        List.tail_cons, NArr.ofList_shape, List.length_singleton, BEq.rfl, Nat.zero_add, hs0, hax', bind, Except.bind, pure, Except.pure,
        compSel, Bool.false_eq_true, List.map_cons, List.map_map, Function.comp_def]
    · simp only [NArr.ix, NArr.ofFn, List.map_append, List.map_cons, List.map_map, Function.comp_def, List.length_range', hss, hs0v, List.length_range, List.map_nil]
    · rw [hvp.shape, hn, GData.pieceCells]
      simp only [List.zipWith_cons_cons, NArr.ix, NArr.ofFn, List.map_append, List.map_cons, List.cons_append, hs0v, List.length_range]
      intro e
      have := (List.cons.inj e).1
      simp only [Restr.stop, Restr.start] at this
      simp at this
      omega
end

/-! ### Examples -/

namespace CutLoadEx
open MappedLoadEx FileInterpEx

theorem ordered : List.Forall₂ (fun l u => num l < num u) q.x.lower q.x.upper :=
  .cons (by decide +kernel) (.cons (by decide +kernel) .nil)

/-- The hypotheses of `C133_cut_is_select_partial` hold for the two by three cells of `xs`: `'1'` on the first axis, `'1:'` on
the second and the components `'0:2'`. -/
example (pf : List Char → Option ℚ) : ∃ full part g v, GData.ofFile unpackEx num (Cfg.make [] none) [] [] {} file = .ok full ∧
    GData.ofFile unpackEx num (Cfg.make [some "1".toList, some "1:".toList] (some "0:2".toList)) [] [] {} file = .ok part ∧
    part.grid = some g ∧ part.values = some v ∧
    select pf full (some (.str "0:2".toList)) [some (.str "1".toList), some (.str "1:".toList)] true = .ok (g, v, part) := by
  obtain ⟨full, part, g, v, e1, e2, e3, e4, -, e5⟩ := C133_cut_is_select_partial (dec := num) pf q_ok.stores q_ok.sizes
    (.inr q_ok.unpacks) q_ok.dims.1 q_ok.dims.2 ordered (rs := [.idx 1, .range (some 1) none]) (cr := .range (some 0) (some 2))
    (.cons ⟨by decide, by decide, fun a k h => by cases h⟩ (.cons ⟨by decide, by decide, fun a k h => by cases h⟩ .nil))
    ⟨by decide, by decide, fun a k h => by cases h⟩ (by simp) (by simp) [] [] {}
  exact ⟨full, part, g, v, e1, e2, e3, e4, e5⟩

/-- Those of `C133_open_fails`: the components `'2:'`. -/
example (pf : List Char → Option ℚ) : ∃ full part, GData.ofFile unpackEx num (Cfg.make [] none) [] [] {} file = .ok full ∧
    GData.ofFile unpackEx num (Cfg.make [some "1".toList, none] (some "2:".toList)) [] [] {} file = .ok part ∧
    select pf full (some (.str "2:".toList)) [some (.str "1".toList), none] false = .error .typeError :=
  C133_open_fails (dec := num) pf q_ok.stores q_ok.sizes (.inr q_ok.unpacks) q_ok.dims.1 q_ok.dims.2 ordered
    (rs := [.idx 1, .all]) (a := some 2)
    (.cons ⟨by decide, by decide, fun a k h => by cases h⟩ (.cons ⟨by decide, by decide, fun a k h => by cases h⟩ .nil))
    ⟨by decide, by decide, fun a k h => by cases h⟩ (by simp) false [] [] {}

/-- Those of `C133_negative_fails`: `':-1'` on the first axis, which has two cells. -/
example (pf : List Char → Option ℚ) : ∃ full part g v v', GData.ofFile unpackEx num (Cfg.make [] none) [] [] {} file = .ok full ∧
    GData.ofFile unpackEx num (Cfg.make [some ":-1".toList] none) [] [] {} file = .ok part ∧
    part.values = some v ∧ v.shape = [1, 3, 4] ∧
    select pf full none [some (.str ":-1".toList)] false = .ok (g, v', full) ∧ v'.shape = [2, 3, 4] ∧ v.shape ≠ v'.shape :=
  C133_negative_fails (dec := num) pf q_ok.stores q_ok.sizes (.inr q_ok.unpacks) q_ok.dims.2 ordered (by decide)
    (n := 2) (k := 1) (ns := [3]) rfl (by simp) (by decide) (by decide) [] [] {}

end CutLoadEx
end Pgkyl
