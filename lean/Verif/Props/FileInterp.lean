import Verif.Spec.FileField
import Verif.Props.DgCommands
import Verif.Props.MappedLoad
import Verif.Props.Adios
import Verif.Props.LoadCmd
/-! # C127: from the bytes of a file to interpolated values -/

namespace Pgkyl
open Spec Cmd GkylReader

section
variable {F : Type} [_root_.Field F] [CharZero F]
variable {unpack : Bytes → Except Err (Option (Dict String))} {dec : Word → F}

theorem window_axis {pl : Bool} {n : Nat} {r : Restr} (h : r.OK n) (l u : F)
    (hpl : pl = false → r.start = 0 ∧ n - r.stop n = 0) :
    IsAxis (NArr.ofList (let b := axisBounds pl (n : Int) ((r.start : Int), ((n - r.stop n : Nat) : Int)) l u
      linspace b.1 b.2 (r.stop n - r.start + 1)))
      ⟨l + (r.start : F) * ((u - l) / (n : F)), (u - l) / (n : F), r.stop n - r.start⟩ := by
  rw [axisBounds_eq h l u hpl]
  obtain ⟨h1, h2, -⟩ := h
  have hn : (n : F) ≠ 0 := by exact_mod_cast (by omega : n ≠ 0)
  have hd : ((r.stop n - r.start : Nat) : F) ≠ 0 := by exact_mod_cast (by omega : r.stop n - r.start ≠ 0)
  refine ⟨by simp [NArr.ofList, linspace_length], ?_⟩
  simp only [NArr.ofList]
  apply List.ext_getElem?
  intro i
  by_cases hi : i ≤ r.stop n - r.start
  · rw [linspace_get _ _ (by omega) hi, List.getElem?_map, List.getElem?_range (by omega)]
    simp only [Option.map_some, Axis.node, Option.some.injEq]
    have e : (r.stop n : F) = (r.start : F) + ((r.stop n - r.start : Nat) : F) := by
      rw [← Nat.cast_add]; congr 1; omega
    rw [e]
    field_simp
    ring
  · rw [List.getElem?_eq_none (by rw [linspace_length]; omega), List.getElem?_eq_none (by simp; omega)]

theorem window_mesh {pl : Bool} : ∀ {ns : List Nat} {rs : List Restr} {ls us : List Word}, RestrsOK ns rs →
    ls.length = ns.length → us.length = ns.length →
    (pl = false → ∀ r ∈ rs, r = .all) →
    IsMesh ((axesOf pl ns rs (ls.map dec) (us.map dec)).map fun q => NArr.ofList q.2) (windowAxes dec ns rs ls us) ∧
      (windowAxes dec ns rs ls us).map (·.cells) = List.zipWith (fun n r => Restr.stop n r - r.start) ns rs := by
  intro ns
  induction ns with
  | nil =>
    intro rs ls us h _ _ _
    cases rs <;> simp [RestrsOK, axesOf, windowAxes, IsMesh] at *
  | cons n ns ih =>
    intro rs ls us h hl hu hpl
    cases rs with
    | nil => simp [RestrsOK] at h
    | cons r rs =>
      cases ls with
      | nil => simp at hl
      | cons l ls =>
        cases us with
        | nil => simp at hu
        | cons u us =>
          obtain ⟨h0, h1⟩ := h
          obtain ⟨a, b⟩ := ih h1 (by simpa using hl) (by simpa using hu) fun hp r hr => hpl hp r (by simp [hr])
          refine ⟨List.Forall₂.cons (window_axis h0 _ _ fun hp => ?_) a, ?_⟩
          · rw [hpl hp r (by simp)]; simp [Restr.start, Restr.stop]
          · simp only [windowAxes, List.map_cons, List.zipWith_cons_cons, b]

omit [_root_.Field F] [CharZero F] in
theorem slices_le {x : Spec.Field} {rs : List Restr} {cr : Restr} (hr : RestrsOK x.cells rs) (hc : cr.OK x.comps) :
    ∀ p ∈ (Restr.slices x.cells rs x.comps cr).zip x.shape, p.1.2 ≤ p.2 := by
  have key : ∀ (ns : List Nat) (rs : List Restr), RestrsOK ns rs →
      ∀ p ∈ (List.zipWith (fun n r => (r.start, Restr.stop n r)) ns rs).zip ns, p.1.2 ≤ p.2 := by
    intro ns
    induction ns with
    | nil => intro rs _ p hp; simp at hp
    | cons n ns ih =>
      intro rs h p hp
      cases rs with
      | nil => simp [RestrsOK] at h
      | cons r rs =>
        simp only [List.zipWith_cons_cons, List.zip_cons_cons, List.mem_cons] at hp
        rcases hp with rfl | hp
        · exact h.1.2.1
        · exact ih rs h.2 p hp
  intro p hp
  rw [Restr.slices, Spec.Field.shape, List.zip_append (by rw [List.length_zipWith, hr.length]; simp)] at hp
  rcases List.mem_append.1 hp with hp | hp
  · exact key _ _ hr p hp
  · simp at hp; subst hp; exact hc.2.1

/-- The dataset loaded from a file. -/
theorem open_words {x : Spec.Field} {w : List Nat → Nat → Word} {f : Bytes} (hf : StoresWords x w f)
    (hx : x.OK (realSize x.realType)) {u : Option (Dict String)} (hu : MetaIs unpack x.metaBytes u) {rs : List Restr} {cr : Restr}
    (h6 : x.cells.length ≤ 6) (hr : RestrsOK x.cells rs) (hc : cr.OK x.comps) (tag label : List Char) (ctx : Ctx F) :
    ∃ v, IsField v (GData.pieceCells x.cells rs) (cr.stop x.comps - cr.start)
        (fun i k => dec (w (List.zipWith (· + ·) i (rs.map Restr.start)) (cr.start + k))) ∧
      GData.ofFile unpack dec (cfgOf rs cr) tag label ctx f = .ok
      { grid := some ((axesOf (cfgOf rs cr).partialLoad x.cells rs (x.lower.map dec)
          (x.upper.map dec)).map fun q => NArr.ofList q.2)
        values := some v
        ctx := {
          cells := some (GData.pieceCells x.cells rs)
          numComps := some (cr.stop x.comps - cr.start)
          lower := some ((axesOf (cfgOf rs cr).partialLoad x.cells rs (x.lower.map dec)
            (x.upper.map dec)).map fun q => q.1.1)
          upper := some ((axesOf (cfgOf rs cr).partialLoad x.cells rs (x.lower.map dec)
            (x.upper.map dec)).map fun q => q.1.2)
          other := Dict.set (metaCtx "True" (if (Dict.get? ctx.other "grid_type").isSome then ctx.other
      else Dict.set ctx.other "grid_type" "uniform") u) "grid_type" "uniform" }
        tag := tag
        customLabel := label } := by
  have hsl : (Restr.slices x.cells rs x.comps cr).map (fun p => p.2 - p.1) =
      GData.pieceCells x.cells rs ++ [cr.stop x.comps - cr.start] := by
    rw [Restr.slices, GData.pieceCells, List.map_append, List.map_zipWith]; rfl
  have hst : (Restr.slices x.cells rs x.comps cr).map (·.1) = rs.map Restr.start ++ [cr.start] := by
    rw [Restr.slices, List.map_append, List.map_zipWith]
    congr 1
    clear hsl h6
    have hl := hr.length
    generalize x.cells = ns at *
    clear hr
    induction ns generalizing rs with
    | nil => cases rs <;> simp at *
    | cons n ns ih => cases rs with
      | nil => simp at hl
      | cons r rs => simp at hl ⊢; exact ih hl
  have hplen : (GData.pieceCells x.cells rs).length = rs.length := by
    rw [GData.pieceCells, List.length_zipWith, hr.length]; simp
  have hzip : ∀ i c, inRange (GData.pieceCells x.cells rs) i = true →
      List.zipWith (· + ·) (i ++ [c]) ((Restr.slices x.cells rs x.comps cr).map (·.1)) =
        List.zipWith (· + ·) i (rs.map Restr.start) ++ [cr.start + c] := by
    intro i c hi
    rw [hst, List.zipWith_append (by rw [List.length_map, ← hplen]; exact inRange_length hi)]
    simp [Nat.add_comm]
  have hin : ∀ i c, inRange (GData.pieceCells x.cells rs) i = true → c < cr.stop x.comps - cr.start →
      inRange x.cells (List.zipWith (· + ·) i (rs.map Restr.start)) = true ∧ cr.start + c < x.comps := by
    intro i c hi hcc
    have := inRange_slices hr hc (idx := i ++ [c]) (by rw [hsl]; exact inRange_snoc_iff.2 ⟨hi, hcc⟩)
    rw [hzip i c hi, Spec.Field.shape] at this
    exact inRange_snoc_iff.1 this
  cases hf with
  | one hd hs hw =>
    rename_i data
    have h1 := open_t1 (dec := dec) hx hx.size (le_refl _) hu (fun _ => h6) hr hc hd hs tag label ctx
    refine ⟨_, ?_, h1⟩
    obtain ⟨g1, g2, g3⟩ := slice_get? (NArr.map_WF (g := dec) hd.1) (rs := Restr.slices x.cells rs x.comps cr)
      (by rw [slices_length hr, NArr.map_shape, hs]) (by rw [NArr.map_shape, hs]; exact slices_le hr hc)
    rw [hsl] at g2
    refine ⟨g1, g2, fun i hi c hcc => ?_⟩
    rw [g3 _ (by rw [hsl]; exact inRange_snoc_iff.2 ⟨hi, hcc⟩), hzip i c hi, NArr.map_get?,
      hw _ _ (hin i c hi hcc).1 (hin i c hi hcc).2]
    rfl
  | many h hn hw =>
    obtain ⟨b, g1, g2, g3, g4⟩ := open_t3 (dec := dec) hx hu (fun _ => h6) hr hc h hn tag label ctx
    rw [winDims_slices hr, hsl] at g2
    refine ⟨_, ⟨NArr.map_WF g1, g2, fun i hi c hcc => ?_⟩, g4⟩
    rw [NArr.map_get?, g3 _ (by rw [g2]; exact inRange_snoc_iff.2 ⟨hi, hcc⟩), shift_slices, hzip i c hi,
      hw _ _ (hin i c hi hcc).1 (hin i c hi hcc).2]
    rfl

theorem window_dx : ∀ {ns : List Nat} {rs : List Restr} {ls us : List Word}, RestrsOK ns rs →
    List.Forall₂ (fun l u => dec l ≠ dec u) ls us → ∀ a ∈ windowAxes dec ns rs ls us, a.dx ≠ 0 := by
  intro ns
  induction ns with
  | nil => intro rs ls us _ _ a ha; simp [windowAxes] at ha
  | cons n ns ih =>
    intro rs ls us h hb a ha
    cases rs with
    | nil => simp [RestrsOK] at h
    | cons r rs =>
      cases hb with
      | nil => simp [windowAxes] at ha
      | cons h0 h1 =>
        simp only [windowAxes, List.mem_cons] at ha
        rcases ha with rfl | ha
        · obtain ⟨a1, a2, -⟩ := h.1
          have hn : (n : F) ≠ 0 := by exact_mod_cast (by omega : n ≠ 0)
          exact div_ne_zero (sub_ne_zero.2 (Ne.symm h0)) hn
        · exact ih h.2 h1 a ha

/-- **C127.**  Whichever cells and components of a field file are loaded, and whether it has one range or several: the dataset
holds exactly the numbers that the file lists for these cells, on the mesh these cells have in the domain of the file, and the
metadata of the file. -/
theorem C127_load {x : Spec.Field} {w : List Nat → Nat → Word} {f : Bytes} (hf : StoresWords x w f)
    (hx : x.OK (realSize x.realType)) {m : Dict String} (hm : x.metaBytes ≠ []) (hu : unpack x.metaBytes = .ok (some m))
    (hkeys : (m.map Prod.fst).Nodup) (h1 : 1 ≤ x.cells.length) (h6 : x.cells.length ≤ 6) {rs : List Restr} {cr : Restr}
    (hr : List.Forall₂ Restr.OK x.cells rs) (hc : cr.OK x.comps)
    (hb : List.Forall₂ (fun l u => dec l ≠ dec u) x.lower x.upper) (tag label : List Char) (ctx : Ctx F) :
    ∃ d, GData.ofFile unpack dec (Cfg.make (rs.map Restr.text) cr.text) tag label ctx f = .ok d ∧
      (∀ order basis fns points, (windowCase dec x w rs cr order basis fns points).StoredIn d) ∧
      MetaAvailable ctx.other m d.ctx.other ∧ d.tag = tag ∧ d.status = true := by
  have hr' := restrsOK_iff.1 hr
  obtain ⟨v, hv, ho⟩ := open_words (dec := dec) hf hx (Or.inr ⟨hm, hu⟩) h6 hr' hc tag label ctx
  refine ⟨_, ho, fun order basis fns points => ?_, metaAvailable hkeys _ (prior_ok ctx) _, rfl, rfl⟩
  obtain ⟨hmesh, hcells⟩ := window_mesh (dec := dec) (pl := (cfgOf rs cr).partialLoad) hr' hx.lowerLen hx.upperLen
    fun hp r hrr => text_none ((make_partial_false hp).1 r.text (List.mem_map.2 ⟨r, hrr, rfl⟩))
  have hlen : (GData.pieceCells x.cells rs).length = x.cells.length := by
    rw [GData.pieceCells, List.length_zipWith, hr'.length]; simp
  have hpc : 0 < cr.stop x.comps - cr.start := by have := hc.1; omega
  exact {
    data := ⟨_, ⟨rfl, by
        simp only [windowCase, List.length_map]
        rw [axesOf_length hr' (by simp [hx.lowerLen]) (by simp [hx.upperLen]), ← hlen]; rfl, (mesh_length hmesh).2, v, rfl, hv⟩, hmesh⟩
    counts := ⟨rfl, by
      simp only [GData.numComps, windowCase]
      obtain ⟨k, hk⟩ : ∃ k, cr.stop x.comps - cr.start = k + 1 := ⟨_, (Nat.succ_pred_eq_of_pos hpc).symm⟩
      rw [hk]⟩
    uniform := Dict.get?_set_self _ _ _
    cells_eq := hcells
    dx := window_dx hr' hb
    pos := by
      show 1 ≤ (GData.pieceCells x.cells rs).length
      omega }

/-- The metadata choose order and basis. -/
theorem says_chosen {m prior : Dict String} {p : Nat} {b : String} (hs : SaysDg m p b) (hp : 1 ≤ p) {d : GData F}
    (ha : MetaAvailable prior m d.ctx.other) (q : DgCase F) (h1 : q.order = p) (h2 : q.basis = b) (h3 : q.points = p + 1) :
    q.Chosen none none none d where
  order := Or.inr ⟨rfl, by rw [h1]; exact ha.poly _ hs.order hs.oneOrder, by omega⟩
  basis := Or.inr ⟨rfl, by rw [h2]; exact ha.basis _ hs.basis hs.oneBasis, ha.modal hs.modal ⟨b, hs.basis⟩⟩
  points := Or.inr ⟨rfl, by omega⟩
  two := by omega

/-- **C127.**  A file with the coefficients of an expansion, whose metadata tell order and basis: loading any part of it and
interpolating without any option gives, at the midpoint of every refined cell, the value there of the expansion with the
coefficients that the file lists for the cell. -/
theorem C127_interpolate [Min F] [Max F] {x : Spec.Field} {w : List Nat → Nat → Word} {f : Bytes} (hf : StoresWords x w f)
    (hx : x.OK (realSize x.realType)) {m : Dict String} (hm : x.metaBytes ≠ []) (hu : unpack x.metaBytes = .ok (some m))
    {p : Nat} {b : String} (hs : SaysDg m p b) (hp : 1 ≤ p) (h1 : 1 ≤ x.cells.length) (h6 : x.cells.length ≤ 6)
    {rs : List Restr} {cr : Restr} (hr : List.Forall₂ Restr.OK x.cells rs) (hc : cr.OK x.comps)
    (hb : List.Forall₂ (fun l u => dec l ≠ dec u) x.lower x.upper) {fns : List Dg.Poly}
    (hq : (windowCase dec x w rs cr p b fns (p + 1)).Supported) (h5 : Except Err (List (List F)))
    (tag label : List Char) (ctx : Ctx F) :
    ∃ d g v r, GData.ofFile unpack dec (Cfg.make (rs.map Restr.text) cr.text) tag label ctx f = .ok d ∧
      interpolateOf h5 none none none d = .ok (g, v) ∧ d.push g v = .ok r ∧
      (windowCase dec x w rs cr p b fns (p + 1)).Interpolated d r := by
  obtain ⟨d, hd, hst, hma, -, -⟩ := C127_load (dec := dec) hf hx hm hu hs.keys h1 h6 hr hc hb tag label ctx
  have hfits : (windowCase dec x w rs cr p b fns (p + 1)).Fits none none none d :=
    ⟨hst _ _ _ _, says_chosen hs hp hma _ rfl rfl rfl, hq⟩
  obtain ⟨g, v, e1, e2⟩ := interpolate_stored h5 hfits
  obtain ⟨r, e3, e4⟩ := e2 d rfl
  exact ⟨d, g, v, r, hd, e1, e3, e4 _ hfits⟩

/-- Positions within cells do not depend on where the window starts. -/
theorem window_local : ∀ {ns : List Nat} {rs : List Restr} {ls us : List Word} (ps : List Nat) (idx : List Nat), RestrsOK ns rs →
    ls.length = ns.length → us.length = ns.length → idx.length = ns.length → ps.length = ns.length → (∀ q ∈ ps, 0 < q) →
    localPt (windowAxes dec ns rs ls us) (List.zipWith (· / ·) idx ps) (midPt (refineAll (windowAxes dec ns rs ls us) ps) idx) =
    localPt (windowAxes dec ns (List.replicate ns.length .all) ls us)
      (List.zipWith (· / ·) (List.zipWith (· + ·) idx (List.zipWith (· * ·) (rs.map Restr.start) ps)) ps)
      (midPt (refineAll (windowAxes dec ns (List.replicate ns.length .all) ls us) ps)
        (List.zipWith (· + ·) idx (List.zipWith (· * ·) (rs.map Restr.start) ps))) := by
  intro ns
  induction ns with
  | nil => intro rs ls us ps idx h _ _ _ _ _; cases rs <;> simp [windowAxes, localPt, RestrsOK] at *
  | cons n ns ih =>
    intro rs ls us ps idx h hl hu hi hp hpos
    cases rs with
    | nil => simp [RestrsOK] at h
    | cons r rs => cases ls with
      | nil => simp at hl
      | cons l ls => cases us with
        | nil => simp at hu
        | cons u us => cases idx with
          | nil => simp at hi
          | cons i is => cases ps with
            | nil => simp at hp
            | cons q ps =>
              have hq : 0 < q := hpos q (by simp)
              have e : (i + r.start * q) / q = i / q + r.start := Nat.add_mul_div_right _ _ hq
              have hqF : (q : F) ≠ 0 := by exact_mod_cast (by omega : q ≠ 0)
              simp only [List.length_cons, List.replicate_succ, windowAxes, refineAll, List.zipWith_cons_cons, List.map_cons, midPt,
                localPt, e]
              have := ih (rs := rs) (ls := ls) (us := us) ps is h.2 (by simpa using hl) (by simpa using hu) (by simpa using hi)
                (by simpa using hp) fun q hq => hpos q (by simp [hq])
              simp only [refineAll] at this
              rw [this]
              congr 1
              simp only [Axis.local, Axis.mid, Axis.node, Axis.refine, Restr.start]
              congr 1
              push_cast
              field_simp
              ring

/-- **C127.**  Loading part of the cells and then interpolating gives the same numbers as interpolating everything: refined
cell `idx` of the part is the refined cell of the whole that lies `r.start` cells (each split into the points per cell) further
along every axis. -/
theorem C127_part_of_whole [Min F] [Max F] {x : Spec.Field} {w : List Nat → Nat → Word} {f : Bytes} (hf : StoresWords x w f)
    (hx : x.OK (realSize x.realType)) {m : Dict String} (hm : x.metaBytes ≠ []) (hu : unpack x.metaBytes = .ok (some m))
    {p : Nat} {b : String} (hs : SaysDg m p b) (hp : 1 ≤ p) (h1 : 1 ≤ x.cells.length) (h6 : x.cells.length ≤ 6)
    {rs : List Restr} (hr : List.Forall₂ Restr.OK x.cells rs)
    (hb : List.Forall₂ (fun l u => dec l ≠ dec u) x.lower x.upper) {fns : List Dg.Poly}
    (hq : (windowCase dec x w rs .all p b fns (p + 1)).Supported) (h5 : Except Err (List (List F)))
    (tag label : List Char) (ctx : Ctx F) :
    ∃ whole part gw gp vw vp, GData.ofFile unpack dec (Cfg.make [] none) tag label ctx f = .ok whole ∧
      GData.ofFile unpack dec (Cfg.make (rs.map Restr.text) none) tag label ctx f = .ok part ∧
      interpolateOf h5 none none none whole = .ok (gw, vw) ∧ interpolateOf h5 none none none part = .ok (gp, vp) ∧
      ∀ idx j, inRange (List.zipWith (· * ·) (List.zipWith (fun n r => Restr.stop n r - r.start) x.cells rs)
          (perCell b x.cells.length (p + 1))) idx = true → j < x.comps / fns.length → ∃ y,
        vp.get? (idx ++ [j]) = some y ∧ vw.get? (List.zipWith (· + ·) idx
          (List.zipWith (· * ·) (rs.map Restr.start) (perCell b x.cells.length (p + 1))) ++ [j]) = some y := by
  have hr' := restrsOK_iff.1 hr
  have hpos := pos_of_restrs hr
  have hlen : (List.zipWith (fun n r => Restr.stop n r - r.start) x.cells rs).length = x.cells.length := by
    rw [List.length_zipWith, hr'.length]; simp
  have hall : List.zipWith (fun n r => Restr.stop n r - r.start) x.cells (List.replicate x.cells.length .all) = x.cells :=
    pieceCells_all _
  have hrall := restrsOK_all hpos
  have hcall := all_ok hx.comps
  have hqw : (windowCase dec x w (List.replicate x.cells.length .all) .all p b fns (p + 1)).Supported := by
    refine ⟨?_, fun h => hq.line ?_, fun h => hq.zero h, hq.fields⟩
    · have := hq.fns
      simp only [windowCase, hlen, hall] at this ⊢
      exact this
    · simp only [windowCase, hlen, hall] at h ⊢
      exact h
  obtain ⟨part, hd, hst, hma, -, -⟩ := C127_load (dec := dec) hf hx hm hu hs.keys h1 h6 hr hcall hb tag label ctx
  obtain ⟨whole, hd', hst', hma', -, -⟩ := C127_load (dec := dec) hf hx hm hu hs.keys h1 h6 (restrsOK_iff.2 hrall) hcall hb tag label ctx
  have hfits : (windowCase dec x w rs .all p b fns (p + 1)).Fits none none none part :=
    ⟨hst _ _ _ _, says_chosen hs hp hma _ rfl rfl rfl, hq⟩
  have hfits' : (windowCase dec x w (List.replicate x.cells.length .all) .all p b fns (p + 1)).Fits none none none whole :=
    ⟨hst' _ _ _ _, says_chosen hs hp hma' _ rfl rfl rfl, hqw⟩
  obtain ⟨gp, vp, e1, -, e3⟩ := interpolateOf_ok h5 hfits
  obtain ⟨gw, vw, e1', -, e3'⟩ := interpolateOf_ok h5 hfits'
  have hcfg := cfgOf_all x.cells.length
  rw [cfgOf] at hcfg
  rw [hcfg] at hd'
  refine ⟨whole, part, gw, gp, vw, vp, hd', hd, e1', e1, fun idx j hi hj => ?_⟩
  have hpl : (perCell b x.cells.length (p + 1)).length = x.cells.length := Dg.perCell_length _ _ _
  have hil : idx.length = x.cells.length := by
    rw [inRange_length hi, List.length_zipWith, hlen, hpl]; simp
  have hpp : ∀ q ∈ perCell b x.cells.length (p + 1), 0 < q := Dg.perCell_pos (by omega)
  simp only [windowCase, hlen, hall] at e3 e3'
  have g1 := e3.get idx hi j (by simpa [Restr.stop, Restr.start] using hj)
  have hin : inRange (List.zipWith (· * ·) x.cells (perCell b x.cells.length (p + 1)))
      (List.zipWith (· + ·) idx (List.zipWith (· * ·) (rs.map Restr.start) (perCell b x.cells.length (p + 1)))) = true := by
    generalize perCell b x.cells.length (p + 1) = ps at *
    clear * - hr' hi hpl
    generalize x.cells = ns at *
    induction ns generalizing rs ps idx with
    | nil => cases rs <;> cases idx <;> simp [RestrsOK, inRange] at *
    | cons n ns ih =>
      cases rs with
      | nil => simp [RestrsOK] at hr'
      | cons r rs => cases ps with
        | nil => simp at hpl
        | cons q ps => cases idx with
          | nil => simp [inRange] at hi
          | cons i is =>
            simp only [List.zipWith_cons_cons, List.map_cons, inRange, Bool.and_eq_true, decide_eq_true_eq] at hi ⊢
            refine ⟨?_, ih is ps hr'.2 hi.2 (by simpa using hpl)⟩
            have h2 := hr'.1.2.1
            calc i + r.start * q < (Restr.stop n r - r.start) * q + r.start * q := by omega
              _ = (Restr.stop n r - r.start + r.start) * q := by ring
              _ ≤ n * q := Nat.mul_le_mul_right _ (by have := hr'.1.1; omega)
  have g2 := e3'.get _ hin j (by simpa [Restr.stop, Restr.start] using hj)
  refine ⟨_, g1, ?_⟩
  rw [g2]
  congr 1
  have hloc := window_local (dec := dec) (ls := x.lower) (us := x.upper) _ idx hr' hx.lowerLen hx.upperLen hil hpl hpp
  simp only [DgCase.value, DgCase.fine, cellValue, hlen]
  rw [hloc]
  congr 1
  funext k
  congr 2
  have hil' : idx.length = rs.length := by rw [hil, hr'.length]
  have hpl' : (perCell b x.cells.length (p + 1)).length = rs.length := by rw [hpl, hr'.length]
  rw [← hr'.length]
  rw [← hr'.length] at hpl' hpp
  generalize perCell b rs.length (p + 1) = ps at *
  clear * - hil' hpl' hpp
  induction rs generalizing idx ps with
  | nil => cases idx <;> simp at *
  | cons r rs ih => cases idx with
    | nil => simp at hil'
    | cons i is => cases ps with
      | nil => simp at hpl'
      | cons q ps =>
        have hq : 0 < q := hpp q (by simp)
        simp only [List.map_cons, List.zipWith_cons_cons, List.length_cons, List.replicate_succ]
        rw [ih is (by simpa using hil') ps (fun q hq => hpp q (by simp [hq])) (by simpa using hpl')]
        rw [Nat.add_mul_div_right _ _ hq]
        simp [Restr.start]

/-- Labels do not matter. -/
theorem relabel_fits {q : DgCase F} {po ni : Option Nat} {b : Option String} {d : GData F} (h : q.Fits po b ni d) (l : List Char) :
    q.Fits po b ni { d with label := l } :=
  ⟨⟨h.1.data, h.1.counts, h.1.uniform, h.1.cells_eq, h.1.dx, h.1.pos⟩, ⟨h.2.1.order, h.2.1.basis, h.2.1.points, h.2.1.two⟩, h.2.2⟩

/-- **C127**, the command line `pgkyl FILES interpolate`: with files of expansions, whose metadata tell order and basis, the
store ends up with one dataset per file, in the order of the files, and each of them holds the values, at the midpoints of the
refined cells, of the expansion with the coefficients that its file lists. -/
theorem C127_command [Min F] [Max F] {strs : List Cli.Str} {n : Nat} {str : Cli.Str} (hstr : strs[n]? = some str)
    (glob : Cli.Str → List Cli.Str) (make : Cli.Used → Cli.Str → Cli.Str → Except Err (GData F)) (loc glo : Cli.Given)
    {var : Cli.Str} (hvars : (Cli.resolveOpts loc glo).varNames = [var]) {files : List Cli.Str}
    (hfiles : Cli.filesOf glob str = files) (hne : files ≠ []) (content : Cli.Str → Bytes) (q : Cli.Str → DgFile)
    (T label : List Char) (ctx : Ctx F)
    (hmake : ∀ f ∈ files, make (Cli.resolveOpts loc glo) var f =
      GData.ofFile unpack dec (Cfg.make ((q f).rs.map Restr.text) (q f).cr.text) T label ctx (content f))
    (hq : ∀ f ∈ files, (q f).OK unpack dec (content f)) (h5 : Except Err (List (List F))) (lbl : List Char) :
    ∃ st s', Cli.load glob make glo strs loc false ⟨{}, n⟩ = .ok st ∧
      interpolateCmd h5 none none none none none lbl st.data = .ok s' ∧
      s'.heap.length = files.length ∧ s'.lookup T = some (List.range files.length) ∧
      ∀ (k : Nat) (f : Cli.Str), files[k]? = some f → ∃ d r, make (Cli.resolveOpts loc glo) var f = .ok d ∧ s'.heap[k]? = some r ∧ r.tag = T ∧
        ((q f).case dec).Interpolated d r := by
  have hld : ∀ f ∈ files, ∃ d, make (Cli.resolveOpts loc glo) var f = .ok d ∧ ((q f).case dec).Fits none none none d ∧
      d.tag = T ∧ d.status = true := by
    intro f hf
    have h := hq f hf
    obtain ⟨d, hd, hst, hma, ht, hs⟩ := C127_load (dec := dec) h.stores h.sizes h.hasMeta h.unpacks h.tells.keys h.dims.1 h.dims.2
      h.part.1 h.part.2 h.bounds T label ctx
    exact ⟨d, by rw [hmake f hf, hd], ⟨hst _ _ _ _, says_chosen h.tells h.order hma _ rfl rfl rfl, h.supported⟩, ht, hs⟩
  obtain ⟨made, hmd⟩ : ∃ made : Cli.Str → GData F, ∀ f ∈ files, make (Cli.resolveOpts loc glo) var f = .ok (made f) ∧
      ((q f).case dec).Fits none none none (made f) ∧ (made f).tag = T ∧ (made f).status = true := by
    classical
    refine ⟨fun f => if h : f ∈ files then (hld f h).choose else GData.new [] [] {}, fun f hf => ?_⟩
    simp only [dif_pos hf]
    exact (hld f hf).choose_spec
  obtain ⟨s1, s2, e1, e2, -, e4, hr2, e5⟩ := Cli.C125_load Reachable.empty hstr glob make loc glo false hvars hfiles
    (by simp) hne (T := T) (made := fun _ f => made f) (fun v hv f hf => by
      rw [List.mem_singleton] at hv; subst hv
      obtain ⟨a, -, b, c⟩ := hmd f hf
      exact ⟨⟨_, a, rfl⟩, b, c⟩)
  have hitems : ([var].flatMap fun v => files.map fun f => (v, f)) = files.map fun f => (var, f) := by simp
  rw [hitems] at e2
  have hlen1 : s1.heap.length = files.length := by rw [e2.length]; simp
  have hheap : ∀ (k : Nat) (f : Cli.Str), files[k]? = some f → ∃ l : List Char, s2.heap[k]? = some { made f with label := l } := by
    intro k f hk
    obtain ⟨r, h1, -, -, rfl⟩ := e2.results k (var, f) (by rw [List.getElem?_map, hk]; rfl)
    obtain ⟨l, hl⟩ := e5 k
    simp only [List.length_nil, Nat.zero_add] at h1
    exact ⟨l, by rw [hl, h1]; rfl⟩
  have hlen2 : s2.heap.length = files.length := by
    apply le_antisymm
    · by_contra h
      obtain ⟨l, hl⟩ := e5 files.length
      rw [List.getElem?_eq_none (by omega : s1.heap.length ≤ files.length)] at hl
      have := List.getElem?_eq_none_iff.1 (hl.trans rfl)
      omega
    · by_contra h
      obtain ⟨l, hl⟩ := hheap s2.heap.length (files[s2.heap.length]'(by omega)) (List.getElem?_eq_getElem _)
      rw [List.getElem?_eq_none le_rfl] at hl
      cases hl
  have hlook : s2.lookup T = some (List.range files.length) := by
    have h := e2.lists T
    rw [if_pos rfl] at h
    simp only [Space.lookup, e4] at h ⊢
    simp only [List.find?_nil, Option.map_none, Option.getD_none, List.nil_append, List.length_nil, List.length_map,
      ← List.range_eq_range'] at h
    cases hm : (s1.dict.find? fun e => decide (e.1 = T)).map Prod.snd with
    | none =>
      rw [hm] at h
      exact absurd (List.range_eq_nil.1 h.symm) (by simpa using hne)
    | some l => rw [hm] at h; exact congrArg some h
  have hvis : ∀ k < files.length, k ∈ visited s2 (s2.dict.map Prod.fst) := by
    intro k hk
    refine List.mem_flatMap.2 ⟨T, (Space.lookup_isSome_iff _ _).1 (by rw [hlook]; rfl), List.mem_filter.2 ⟨?_, ?_⟩⟩
    · rw [hlook]; simpa using hk
    · obtain ⟨l, hl⟩ := hheap k files[k] (List.getElem?_eq_getElem hk)
      simp only [Space.active, hl]
      exact (hmd _ (List.getElem_mem hk)).2.2.2
  obtain ⟨s', f1, f2⟩ := C94_interpolate_in_place hr2 Requests.all (fun t ht => ht) (Space.reachable_inv hr2).keys_nodup lbl h5
    (po := none) (b := none) (ni := none) (fun id hid d hd => by
      have hlt : id < files.length := by rw [← hlen2]; exact (List.getElem?_eq_some_iff.1 hd).1
      obtain ⟨l, hl⟩ := hheap id files[id] (List.getElem?_eq_getElem hlt)
      rw [hd] at hl
      obtain rfl := Option.some.inj hl
      obtain ⟨-, hfit, -, -⟩ := hmd _ (List.getElem_mem hlt)
      exact ⟨_, relabel_fits hfit l⟩)
  refine ⟨_, s', e1, f1, by rw [f2.length, hlen2], ?_, fun k f hk => ?_⟩
  · rw [Space.lookup, f2.lists]; exact hlook
  · have hlt := (List.getElem?_eq_some_iff.1 hk).1
    obtain ⟨l, hl⟩ := hheap k f hk
    obtain ⟨d, r, g1, g2, g3, -, g5⟩ := f2.results k (hvis k hlt)
    rw [hl] at g1
    obtain rfl := Option.some.inj g1
    obtain ⟨a, b, c, -⟩ := hmd f (List.mem_of_getElem? hk)
    exact ⟨made f, r, a, g2, g3.trans c, g5 _ (relabel_fits b l)⟩

end
/-! ### Examples -/

namespace FileInterpEx
open MappedLoadEx

/-- two by three cells with four coefficients each, and metadata of one byte (which `info` stands for) -/
def xs : Spec.Field := ⟨[7], 2, [2, 3], [w 0, w 0], [w 2, w 6], 4⟩
def info : Dict String := [("polyOrder", "1"), ("basisType", "serendipity")]
def unpackEx (b : Bytes) : Except Err (Option (Dict String)) := if b = [7] then .ok (some info) else .error .valueError

/-- the file, of which cells 1 to 2 of the second axis are loaded -/
def file : Bytes := fieldFile xs map2
def words (i : List Nat) (c : Nat) : Word := (map2.get? (i ++ [c])).getD []
def q : DgFile := ⟨xs, words, info, 1, "serendipity", DgEx.fns, [.idx 1, .range (some 1) (some 3)], .all⟩

theorem q_ok : q.OK unpackEx num file where
  stores := .one ⟨rfl, by decide⟩ rfl fun i c hi hc => by
    obtain ⟨y, hy⟩ := Option.isSome_iff_exists.1 (NArr.get?_isSome (a := map2) rfl (idx := i ++ [c])
      (inRange_snoc_iff.2 ⟨hi, hc⟩))
    simp only [q, words, hy, Option.getD_some]
  sizes := ⟨.inr rfl, by decide, by decide, by decide, by decide, by decide, by decide, rfl, rfl, by decide, by decide⟩
  hasMeta := by decide
  unpacks := rfl
  tells := by
    refine ⟨by decide +kernel, .inl (by decide +kernel), ?_, .inl (by decide +kernel), ?_, ?_⟩ <;>
      (intro v hv; simp [q, info] at hv)
    · exact hv
    · exact hv
  order := le_rfl
  dims := by decide
  part := ⟨.cons ⟨by decide, by decide, fun a k h => by cases h⟩ (.cons ⟨by decide, by decide, fun a k h => by cases h⟩ .nil),
    all_ok (by decide)⟩
  bounds := .cons (by decide +kernel) (.cons (by decide +kernel) .nil)
  supported := { fns := DgEx.fns_interp, line := fun h => by simp [q, xs, windowCase] at h
                 zero := fun h => by simp [q, windowCase] at h
                 fields := by show 1 ≤ DgEx.fns.length ∧ DgEx.fns.length ≤ 4; rw [DgEx.fns_length]; decide }

/-- The hypotheses of `C127_load`, `C127_interpolate` and `C127_part_of_whole` hold for this file. -/
example : ∃ whole part gw gp vw vp, GData.ofFile unpackEx num (Cfg.make [] none) [] [] {} file = .ok whole ∧
    GData.ofFile unpackEx num (Cfg.make [some "1".toList, some "1:3".toList] none) [] [] {} file = .ok part ∧
    interpolateOf (.error .fail) none none none whole = .ok (gw, vw) ∧
    interpolateOf (.error .fail) none none none part = .ok (gp, vp) ∧
    ∃ y, vp.get? [1, 3, 0] = some y ∧ vw.get? [3, 5, 0] = some y := by
  obtain ⟨whole, part, gw, gp, vw, vp, h1, h2, h3, h4, h5⟩ := C127_part_of_whole (dec := num) q_ok.stores q_ok.sizes q_ok.hasMeta q_ok.unpacks
    q_ok.tells q_ok.order q_ok.dims.1 q_ok.dims.2 q_ok.part.1 q_ok.bounds q_ok.supported (.error .fail) [] [] {}
  refine ⟨whole, part, gw, gp, vw, vp, h1, h2, h3, h4, ?_⟩
  obtain ⟨y, h6, h7⟩ := h5 [1, 3] 0 (by decide +kernel) (by
    show 0 < 4 / DgEx.fns.length
    rw [DgEx.fns_length]; decide)
  exact ⟨y, h6, h7⟩

/-- Those of `C127_command`: the pattern stands for two files with this content. -/
example : ∃ st s', Cli.load (F := ℚ) (fun _ => ["x.gkyl".toList, "y.gkyl".toList])
      (fun _ _ _ => GData.ofFile unpackEx num (Cfg.make [some "1".toList, some "1:3".toList] none) "t".toList [] {} file)
      {} ["?.gkyl".toList] {} false ⟨{}, 0⟩ = .ok st ∧
      interpolateCmd (.error .fail) none none none none none [] st.data = .ok s' ∧ s'.heap.length = 2 := by
  obtain ⟨st, s', h1, h2, h3, -⟩ := C127_command (F := ℚ) (unpack := unpackEx) (dec := num) (strs := ["?.gkyl".toList]) (n := 0) rfl
    (fun _ => ["x.gkyl".toList, "y.gkyl".toList])
    (fun _ _ _ => GData.ofFile unpackEx num (Cfg.make [some "1".toList, some "1:3".toList] none) "t".toList [] {} file)
    {} {} (var := "CartGridField".toList) (by decide +kernel) (files := ["x.gkyl".toList, "y.gkyl".toList]) (by decide +kernel) (by simp)
    (fun _ => file) (fun _ => q) "t".toList [] {} (fun _ _ => rfl) (fun _ _ => q_ok) (.error .fail) []
  exact ⟨st, s', h1, h2, h3⟩

end FileInterpEx
end Pgkyl
