import Verif.Props.Gkyl
import Verif.Props.FileInterp
import Verif.Lemmas.H5
import Verif.Spec.SaveLoad
/-!
# C140: saving the result of a command and opening the file again

Numbers are the elements of an ordered field (exact arithmetic); `enc` and `dec` need to keep only those that occur.
-/

namespace Pgkyl
open Spec Cmd GkylReader

section
variable {F : Type} [_root_.Field F] [LinearOrder F] [IsStrictOrderedRing F]
variable {unpack : Bytes → Except Err (Option (Dict String))} {dec : Word → F}

omit [LinearOrder F] [IsStrictOrderedRing F] in
theorem axesOf_all : ∀ (ns : List Nat) (ls us : List F),
    (GkylReader.axesOf false ns (List.replicate ns.length .all) ls us).map (fun q => NArr.ofList q.2) =
      H5.axesOf ls us ns
  | [], ls, us => by cases ls <;> cases us <;> rfl
  | n :: ns, [], us => rfl
  | n :: ns, l :: ls, [] => rfl
  | n :: ns, l :: ls, u :: us => by
    rw [List.length_cons, List.replicate_succ]
    simp only [GkylReader.axesOf, List.map_cons, H5.axesOf, axisBounds, Bool.false_eq_true, if_false]
    rw [axesOf_all ns ls us]
    rfl

omit [IsStrictOrderedRing F] in
/-- What is read back: the values, and for every axis equidistant nodes between the smallest and the largest coordinate. -/
theorem save_load {enc : F → Word} (henc : ∀ z, (enc z).length = 8) {e r : GData F} {g : List (NArr F)} {w : NArr F}
    {cells : List Nat} {m : Nat} {lo up : List F} (hr : e.push g w = .ok r) (hwf : w.WF) (hshape : w.shape = cells ++ [m])
    (hlo : GData.minima cells.length g = .ok lo) (hup : GData.maxima cells.length g = .ok up)
    (hlol : lo.length = cells.length) (hupl : up.length = cells.length)
    (hexact : ∀ z, z ∈ w.data ∨ z ∈ lo ∨ z ∈ up → dec (enc z) = z) (hpos : ∀ n ∈ cells, 0 < n) (hm : 0 < m)
    (hfit : ∀ n ∈ cells, n < 2 ^ 63) (hdims : cells.length < 2 ^ 63) (hn8 : m * 8 < 2 ^ 63) (hsize : w.data.length < 2 ^ 63)
    (tag label : List Char) (ctx : Ctx F) :
    ∃ file d', writeGkyl enc r = .ok file ∧
      GData.ofFile unpack dec (Cfg.make [] none) tag label ctx file = .ok d' ∧
      d'.values = some w ∧ d'.grid = some (H5.axesOf lo up cells) ∧ d'.bounds = r.bounds ∧ d'.numCells = some cells ∧
      d'.numComps = m := by
  obtain ⟨nc, l, u, h1, h2, h3, rfl⟩ := GData.push_eq_ok hr
  rw [hshape] at h1 h2 h3
  simp only [List.length_append, List.length_cons, List.length_nil, Nat.zero_add, Nat.add_sub_cancel] at h2 h3
  rw [hlo] at h2; rw [hup] at h3
  cases h2; cases h3
  simp only [List.getLast?_append, List.getLast?_singleton, Option.some_or, Option.some.injEq] at h1
  subst h1
  have hlen : w.data.length = cells.prod * m := by rw [hwf, hshape]; simp
  have hle : cells.prod ≤ w.data.length := by rw [hlen]; exact Nat.le_mul_of_pos_right _ hm
  have hx : (⟨[], 2, cells, lo.map enc, up.map enc, m⟩ : Spec.Field).OK 8 :=
    { real := Or.inr rfl, metaLen := by simp, dims := hdims, cellsFit := hfit
      size := lt_of_le_of_lt hle hsize, elem := by simpa [realSize] using hn8, comps := hm
      lowerLen := by simpa using hlol, upperLen := by simpa using hupl
      lowerW := by simp [henc], upperW := by simp [henc] }
  have hd : IsData 2 (w.map enc) := ⟨NArr.map_WF hwf, by simp [NArr.map, henc, realSize]⟩
  have hdl : w.shape.dropLast = cells := by rw [hshape]; simp
  refine ⟨_, _, writeGkyl_eq (cells := cells) (nc := m) (lo := lo) (up := up) (v := w) rfl (by simp [GData.numCells, hdl])
    (by cases m with
      | zero => omega
      | succ n => rfl) rfl hfit hdims hn8 hsize,
    open_full (dec := dec) hx hpos hsize hle (u := none) (Or.inl ⟨rfl, rfl⟩) hd
      (by simpa [Spec.Field.shape] using hshape) tag label ctx, ?_, ?_, ?_, rfl, ?_⟩
  · simp only [NArr.map, List.map_map, Option.some.injEq]
    rw [map_exact fun z hz => hexact z (.inl hz)]
  · simp only [List.map_map, map_exact fun z hz => hexact z (.inr (.inl hz)),
      map_exact fun z hz => hexact z (.inr (.inr hz)), axesOf_all]
  · simp only [GData.bounds, List.map_map, map_exact fun z hz => hexact z (.inr (.inl hz)),
      map_exact fun z hz => hexact z (.inr (.inr hz))]
  · simp only [GData.numComps]
    cases m with
    | zero => omega
    | succ n => rfl

omit [_root_.Field F] [IsStrictOrderedRing F] in
theorem minima_get : ∀ {n : Nat} {g : List (NArr F)} {l : List F}, GData.minima n g = .ok l → l.length = n ∧
    ∀ k < n, ∃ x m, g[k]? = some x ∧ l[k]? = some m ∧ x.data.min? = some m
  | 0, _, l, h => by cases h; exact ⟨rfl, fun k hk => by omega⟩
  | n + 1, [], l, h => by cases h
  | n + 1, x :: g, l, h => by
    unfold GData.minima at h
    split at h
    · cases h
    · rename_i m hm
      cases h2 : GData.minima n g with
      | error e => rw [h2] at h; cases h
      | ok l' =>
        rw [h2] at h
        cases h
        obtain ⟨a, b⟩ := minima_get h2
        refine ⟨by simp [a], fun k hk => ?_⟩
        cases k with
        | zero => exact ⟨x, m, rfl, rfl, hm⟩
        | succ k => exact b k (by omega)

omit [_root_.Field F] [IsStrictOrderedRing F] in
theorem maxima_get : ∀ {n : Nat} {g : List (NArr F)} {l : List F}, GData.maxima n g = .ok l → l.length = n ∧
    ∀ k < n, ∃ x m, g[k]? = some x ∧ l[k]? = some m ∧ x.data.max? = some m
  | 0, _, l, h => by cases h; exact ⟨rfl, fun k hk => by omega⟩
  | n + 1, [], l, h => by cases h
  | n + 1, x :: g, l, h => by
    unfold GData.maxima at h
    split at h
    · cases h
    · rename_i m hm
      cases h2 : GData.maxima n g with
      | error e => rw [h2] at h; cases h
      | ok l' =>
        rw [h2] at h
        cases h
        obtain ⟨a, b⟩ := maxima_get h2
        refine ⟨by simp [a], fun k hk => ?_⟩
        cases k with
        | zero => exact ⟨x, m, rfl, rfl, hm⟩
        | succ k => exact b k (by omega)

omit [LinearOrder F] [IsStrictOrderedRing F] in
theorem linspace_axis [CharZero F] {lo up : F} {n : Nat} (hn : 0 < n) :
    IsAxis (NArr.ofList (linspace lo up (n + 1))) ⟨lo, (up - lo) / (n : F), n⟩ := by
  refine ⟨by simp [NArr.ofList, linspace_length], ?_⟩
  apply List.ext_getElem?
  intro i
  by_cases hi : i ≤ n
  · simp only [NArr.ofList]
    rw [linspace_get _ _ hn hi, List.getElem?_map, List.getElem?_range (by omega)]
    rfl
  · rw [List.getElem?_eq_none (by simp [NArr.ofList, linspace_length]; omega), List.getElem?_eq_none (by simp; omega)]

omit [LinearOrder F] [IsStrictOrderedRing F] in
theorem axesOf_get [CharZero F] : ∀ {cells : List Nat} {lo up : List F}, lo.length = cells.length → up.length = cells.length →
    (∀ n ∈ cells, 0 < n) → (H5.axesOf lo up cells).length = cells.length ∧
    ∀ (k n : Nat) (l u : F), cells[k]? = some n → lo[k]? = some l → up[k]? = some u →
      ∃ x, (H5.axesOf lo up cells)[k]? = some x ∧ IsAxis x ⟨l, (u - l) / (n : F), n⟩
  | [], lo, up, _, _, _ => by
    refine ⟨by cases lo <;> cases up <;> rfl, fun k n l u h => by simp at h⟩
  | n :: ns, [], _, h, _, _ => by simp at h
  | n :: ns, _ :: _, [], _, h, _ => by simp at h
  | n :: ns, a :: as, b :: bs, h1, h2, h3 => by
    obtain ⟨ih1, ih2⟩ := axesOf_get (cells := ns) (lo := as) (up := bs) (by simpa using h1) (by simpa using h2)
      (fun m hm => h3 m (by simp [hm]))
    refine ⟨by simp [H5.axesOf, ih1], fun k m l u k1 k2 k3 => ?_⟩
    cases k with
    | zero =>
      simp only [List.getElem?_cons_zero, Option.some.injEq] at k1 k2 k3
      subst k1 k2 k3
      exact ⟨_, rfl, linspace_axis (h3 n (by simp))⟩
    | succ k => exact ih2 k m l u (by simpa using k1) (by simpa using k2) (by simpa using k3)

/-- C140: whatever a command has stored in a dataset (`push`), saved as `.gkyl` and opened again, has the same values, the
same bounds, and along every axis as many equidistant nodes between the smallest and the largest coordinate as there are
cells and one. -/
theorem C140_reopened {enc : F → Word} (henc : ∀ z, (enc z).length = 8) {e r : GData F} {g : List (NArr F)} {w : NArr F}
    {cells : List Nat} {m : Nat} (hr : e.push g w = .ok r) (hwf : w.WF) (hshape : w.shape = cells ++ [m])
    (hexact : ∀ z, z ∈ w.data ∨ (∃ x ∈ g, z ∈ x.data) → dec (enc z) = z) (hpos : ∀ n ∈ cells, 0 < n) (hm : 0 < m)
    (hfit : ∀ n ∈ cells, n < 2 ^ 63) (hdims : cells.length < 2 ^ 63) (hn8 : m * 8 < 2 ^ 63) (hsize : w.data.length < 2 ^ 63)
    (tag label : List Char) (ctx : Ctx F) :
    ∃ file d' g', writeGkyl enc r = .ok file ∧
      GData.ofFile unpack dec (Cfg.make [] none) tag label ctx file = .ok d' ∧
      d'.values = some w ∧ d'.bounds = r.bounds ∧ d'.grid = some g' ∧ g'.length = cells.length ∧
      ∀ (k n : Nat), cells[k]? = some n → ∃ x x' lo up, g[k]? = some x ∧ g'[k]? = some x' ∧ x.data.min? = some lo ∧
        x.data.max? = some up ∧ IsAxis x' ⟨lo, (up - lo) / (n : F), n⟩ := by
  obtain ⟨nc, l, u, h1, h2, h3, -⟩ := GData.push_eq_ok hr
  have hlen : w.shape.length - 1 = cells.length := by simp [hshape]
  rw [hlen] at h2 h3
  obtain ⟨a1, a2⟩ := minima_get h2
  obtain ⟨b1, b2⟩ := maxima_get h3
  obtain ⟨file, d', k1, k2, k3, k4, k5, -, -⟩ := save_load (unpack := unpack) (dec := dec) henc hr hwf hshape h2 h3 a1 b1
    (by
      rintro z (hz | hz | hz)
      · exact hexact z (.inl hz)
      · obtain ⟨k, hk, e⟩ := List.mem_iff_getElem.1 hz
        obtain ⟨x, m, p1, p2, p3⟩ := a2 k (by omega)
        rw [List.getElem?_eq_getElem hk, e] at p2
        cases p2
        exact hexact _ (.inr ⟨x, List.mem_of_getElem? p1, List.min?_mem p3⟩)
      · obtain ⟨k, hk, e⟩ := List.mem_iff_getElem.1 hz
        obtain ⟨x, m, p1, p2, p3⟩ := b2 k (by omega)
        rw [List.getElem?_eq_getElem hk, e] at p2
        cases p2
        exact hexact _ (.inr ⟨x, List.mem_of_getElem? p1, List.max?_mem p3⟩))
    hpos hm hfit hdims hn8 hsize tag label ctx
  obtain ⟨c1, c2⟩ := axesOf_get a1 b1 hpos
  refine ⟨file, d', _, k1, k2, k3, k5, k4, c1, fun k n hk => ?_⟩
  have hkl : k < cells.length := (List.getElem?_eq_some_iff.1 hk).1
  obtain ⟨x, lo, p1, p2, p3⟩ := a2 k hkl
  obtain ⟨x2, up, q1, q2, q3⟩ := b2 k hkl
  rw [p1] at q1; cases q1
  obtain ⟨x', r1, r2⟩ := c2 k n lo up hk p2 q2
  exact ⟨x, x', lo, up, p1, r1, p3, q3, r2⟩

theorem axis_extrema {x : NArr F} {a : Axis F} (h : IsAxis x a) (hdx : 0 < a.dx) :
    x.data.min? = some a.lo ∧ x.data.max? = some (a.node a.cells) := by
  have key : ∀ i ≤ a.cells, a.lo ≤ a.node i ∧ a.node i ≤ a.node a.cells := by
    intro i hi
    have hi' : (i : F) ≤ a.cells := by exact_mod_cast hi
    have h0 : (0 : F) ≤ i := by positivity
    unfold Axis.node
    constructor <;> nlinarith
  rw [h.2]
  constructor
  · rw [List.min?_eq_some_iff]
    refine ⟨List.mem_map.2 ⟨0, by simp, by simp [Axis.node]⟩, fun z hz => ?_⟩
    obtain ⟨i, hi, rfl⟩ := List.mem_map.1 hz
    exact (key i (by simpa [Nat.lt_succ_iff] using hi)).1
  · rw [List.max?_eq_some_iff]
    refine ⟨List.mem_map.2 ⟨a.cells, by simp, rfl⟩, fun z hz => ?_⟩
    obtain ⟨i, hi, rfl⟩ := List.mem_map.1 hz
    exact (key i (by simpa [Nat.lt_succ_iff] using hi)).2

/-- C140: on a uniform mesh the file gives back the same mesh and the same field. -/
theorem C140_mesh {enc : F → Word} (henc : ∀ z, (enc z).length = 8) {e r : GData F} {g : List (NArr F)} {w : NArr F}
    {axes : List (Axis F)} {cells : List Nat} {m : Nat} {f : List Nat → Nat → F} (hr : e.push g w = .ok r)
    (hg : IsMesh g axes) (hdx : ∀ a ∈ axes, 0 < a.dx) (hcells : axes.map (·.cells) = cells) (hw : IsField w cells m f)
    (hexact : ∀ z, z ∈ w.data ∨ (∃ x ∈ g, z ∈ x.data) → dec (enc z) = z) (hpos : ∀ n ∈ cells, 0 < n) (hm : 0 < m)
    (hdims : cells.length < 2 ^ 63) (hn8 : m * 8 < 2 ^ 63) (hsize : cells.prod * m < 2 ^ 63)
    (tag label : List Char) (ctx : Ctx F) :
    ∃ file d', writeGkyl enc r = .ok file ∧
      GData.ofFile unpack dec (Cfg.make [] none) tag label ctx file = .ok d' ∧
      HoldsField d' g cells m f ∧ d'.bounds = r.bounds := by
  have hlen : w.data.length = cells.prod * m := by rw [hw.wf, hw.shape]; simp
  have hfit : ∀ n ∈ cells, n < 2 ^ 63 := by
    intro n hn
    have h1 : n ≤ cells.prod := Nat.le_of_dvd (List.prod_pos hpos) (List.dvd_prod hn)
    have h2 : cells.prod ≤ cells.prod * m := Nat.le_mul_of_pos_right _ hm
    omega
  obtain ⟨file, d', g', k1, k2, k3, k4, k5, k6, k7⟩ := C140_reopened (unpack := unpack) (dec := dec) henc hr hw.wf hw.shape
    hexact hpos hm hfit hdims hn8 (by omega) tag label ctx
  have hgl : g.length = cells.length := by rw [hg.length_eq, ← hcells, List.length_map]
  have hgg : g' = g := by
    apply List.ext_getElem?
    intro k
    by_cases hk : k < cells.length
    · obtain ⟨x, x', lo, up, p1, p2, p3, p4, p5⟩ := k7 k cells[k] (List.getElem?_eq_getElem hk)
      rw [p1, p2, Option.some.injEq]
      have hka : k < axes.length := by rw [← hg.length_eq, hgl]; exact hk
      have hax := (List.forall₂_iff_get.1 hg).2 k (by omega) hka
      have hx : g.get ⟨k, by omega⟩ = x := by
        rw [List.getElem?_eq_getElem (by omega)] at p1
        exact Option.some.inj p1
      rw [hx] at hax
      have hc : cells[k] = axes[k].cells := by simp [← hcells]
      obtain ⟨e1, e2⟩ := axis_extrema hax (hdx _ (List.getElem_mem hka))
      rw [e1] at p3; rw [e2] at p4
      cases p3; cases p4
      have hn : (0 : F) < axes[k].cells := by
        have := hpos _ (List.getElem_mem hk)
        rw [hc] at this
        exact_mod_cast this
      obtain ⟨s1, s2⟩ := hax
      obtain ⟨t1, t2⟩ := p5
      simp only [List.get_eq_getElem] at s1 s2 t1 t2
      have hnode : (axes[k].node axes[k].cells - axes[k].lo) / (axes[k].cells : F) = axes[k].dx := by
        unfold Axis.node
        field_simp
        ring
      cases x; cases x'
      simp only [NArr.mk.injEq]
      simp only at s1 s2 t1 t2
      refine ⟨by rw [s1, t1, hc], ?_⟩
      rw [s2, t2, hc, hnode]
    · rw [List.getElem?_eq_none (by omega), List.getElem?_eq_none (by omega)]
  subst hgg
  exact ⟨file, d', k1, k2, ⟨k5, le_of_eq hgl.symm, (mesh_length hg).2, w, k3, hw⟩, k4⟩

omit [LinearOrder F] [IsStrictOrderedRing F] in
theorem refineAll_cells : ∀ (axes : List (Axis F)) (ns : List Nat),
    (refineAll axes ns).map (·.cells) = List.zipWith (· * ·) (axes.map (·.cells)) ns
  | [], _ => by simp [refineAll]
  | _ :: _, [] => by simp [refineAll]
  | a :: as, n :: ns => by
    have := refineAll_cells as ns
    simp only [refineAll] at this
    simp [refineAll, Axis.refine, this]

theorem refineAll_dx : ∀ (axes : List (Axis F)) (ns : List Nat), (∀ a ∈ axes, 0 < a.dx) → (∀ n ∈ ns, 0 < n) →
    ∀ a ∈ refineAll axes ns, 0 < a.dx
  | [], _, _, _ => by simp [refineAll]
  | _ :: _, [], _, _ => by simp [refineAll]
  | a :: as, n :: ns, h1, h2 => by
    have ih := refineAll_dx as ns (fun x hx => h1 x (by simp [hx])) (fun x hx => h2 x (by simp [hx]))
    intro x hx
    simp only [refineAll, List.zipWith_cons_cons, List.mem_cons] at hx
    rcases hx with rfl | hx
    · have : (0 : F) < n := by exact_mod_cast h2 n (by simp)
      exact div_pos (h1 a (by simp)) this
    · exact ih x hx

theorem zipWith_mul_pos : ∀ (l m : List Nat), (∀ n ∈ l, 0 < n) → (∀ n ∈ m, 0 < n) → ∀ n ∈ List.zipWith (· * ·) l m, 0 < n
  | [], _, _, _ => by simp
  | _ :: _, [], _, _ => by simp
  | a :: as, b :: bs, h1, h2 => by
    intro n hn
    simp only [List.zipWith_cons_cons, List.mem_cons] at hn
    rcases hn with rfl | hn
    · exact Nat.mul_pos (h1 a (by simp)) (h2 b (by simp))
    · exact zipWith_mul_pos as bs (fun x hx => h1 x (by simp [hx])) (fun x hx => h2 x (by simp [hx])) n hn

omit [_root_.Field F] [LinearOrder F] [IsStrictOrderedRing F] in
theorem field_mem {w : NArr F} {cells : List Nat} {m : Nat} {f : List Nat → Nat → F} (hw : IsField w cells m f) {z : F}
    (hz : z ∈ w.data) : ∃ i c, inRange cells i = true ∧ c < m ∧ z = f i c := by
  obtain ⟨k, hk, e⟩ := List.mem_iff_getElem.1 hz
  obtain ⟨idx, h1, h2⟩ := exists_ravel_eq (shape := w.shape) (k := k) (by rw [← hw.wf]; exact hk)
  rw [hw.shape] at h1
  obtain ⟨i, c, rfl, h3, h4⟩ := inRange_snoc' h1
  have := hw.get i h3 c h4
  unfold NArr.get? at this
  rw [hw.shape, h1, if_pos rfl, ← hw.shape, h2, List.getElem?_eq_getElem hk, e, Option.some.injEq] at this
  exact ⟨i, c, h3, h4, this⟩

/-- C140: `interpolate`, then saving a result as `.gkyl`, then opening that file gives the interpolated field: the same
refined mesh, and in each of its cells the value of the expansion at the midpoint. -/
theorem C140_interpolate {enc : F → Word} (henc : ∀ z, (enc z).length = 8) {s : Space F} (hr : Reachable s)
    {use : Option Tag} {ts : List Tag} (hts : Requests s use ts) (hkeys : ∀ t ∈ ts, t ∈ s.dict.map Prod.fst)
    (hnd : ts.Nodup) (label : List Char) (h5 : Except Err (List (List F))) {po : Option Nat} {b : Option String}
    {ni : Option Nat} (hd : ∀ id ∈ visited s ts, ∀ d, s.heap[id]? = some d → ∃ q : DgCase F, q.Fits po b ni d) :
    ∃ s', interpolateCmd h5 po b ni use none label s = .ok s' ∧
      ReplacesResults s (visited s ts) (fun d r => ∀ q : DgCase F, q.Fits po b ni d → q.Savable enc dec →
        ∀ (tag label : List Char) (ctx : Ctx F), ∃ file d', writeGkyl enc r = .ok file ∧
          GData.ofFile unpack dec (Cfg.make [] none) tag label ctx file = .ok d' ∧ q.HoldsFine d') s' := by
  rw [← hts.tagsOf_eq] at *
  refine pushCmd_replaces' (Space.reachable_inv hr) hkeys hnd label fun id hid d hdd => ?_
  obtain ⟨q, hq⟩ := hd id hid d hdd
  obtain ⟨g, w, h1, h2⟩ := interpolate_stored h5 hq
  refine ⟨g, w, h1, fun e he => ?_⟩
  obtain ⟨r, hr, -⟩ := h2 e he
  refine ⟨r, hr, fun q hq hs tag label ctx => ?_⟩
  obtain ⟨g', w', k1, k2, k3⟩ := interpolateOf_ok h5 hq
  rw [h1] at k1
  cases k1
  have hpp : ∀ k ∈ perCell q.basis q.cells.length q.points, 0 < k := Dg.perCell_pos (by have := hq.2.1.two; omega)
  have hc : q.fine.map (·.cells) = q.fineCells := by
    rw [DgCase.fine, refineAll_cells, hq.1.cells_eq]; rfl
  obtain ⟨file, d', p1, p2, p3, -⟩ := C140_mesh (unpack := unpack) (dec := dec) henc (cells := q.fineCells)
    (m := q.m / q.fns.length) (f := q.fineValue) hr k2 (refineAll_dx _ _ hs.dx hpp) hc k3
    (by
      rintro z (hz | ⟨x, hx, hz⟩)
      · obtain ⟨i, c, q1, q2, rfl⟩ := field_mem k3 hz
        exact hs.values i q1 c q2
      · obtain ⟨k, hk, rfl⟩ := List.getElem_of_mem hx
        have hka : k < q.fine.length := by rw [← k2.length_eq]; exact hk
        have hax := (List.forall₂_iff_get.1 k2).2 k hk hka
        simp only [List.get_eq_getElem] at hax
        rw [hax.2] at hz
        obtain ⟨i, hi, rfl⟩ := List.mem_map.1 hz
        exact hs.coords _ (List.getElem_mem hka) i (by simpa [Nat.lt_succ_iff] using hi))
    (zipWith_mul_pos _ _ hs.cells hpp) (Nat.div_pos hq.2.2.fields.2 hq.2.2.fields.1)
    (by
      have : q.fineCells.length ≤ q.cells.length := by simp [DgCase.fineCells]
      have := hs.dims
      omega) hs.width hs.size tag label ctx
  exact ⟨file, d', p1, p2, g, k2, p3⟩

/-- C140 fails for the coordinates of any other grid: what is read back differs from the grid saved whenever one of its axes
is not uniform. -/
theorem C140_other_grids_fail {enc : F → Word} (henc : ∀ z, (enc z).length = 8) {e r : GData F} {g : List (NArr F)}
    {w : NArr F} {cells : List Nat} {m : Nat} (hr : e.push g w = .ok r) (hwf : w.WF) (hshape : w.shape = cells ++ [m])
    (hexact : ∀ z, z ∈ w.data ∨ (∃ x ∈ g, z ∈ x.data) → dec (enc z) = z) (hpos : ∀ n ∈ cells, 0 < n) (hm : 0 < m)
    (hfit : ∀ n ∈ cells, n < 2 ^ 63) (hdims : cells.length < 2 ^ 63) (hn8 : m * 8 < 2 ^ 63) (hsize : w.data.length < 2 ^ 63)
    {k : Nat} {x : NArr F} (hk : k < cells.length) (hx : g[k]? = some x) (hnot : ∀ a : Axis F, ¬ IsAxis x a)
    (tag label : List Char) (ctx : Ctx F) :
    ∃ file d', writeGkyl enc r = .ok file ∧
      GData.ofFile unpack dec (Cfg.make [] none) tag label ctx file = .ok d' ∧ d'.values = some w ∧ d'.grid ≠ r.grid := by
  obtain ⟨file, d', g', k1, k2, k3, -, k5, -, k7⟩ := C140_reopened (unpack := unpack) (dec := dec) henc hr hwf hshape
    hexact hpos hm hfit hdims hn8 hsize tag label ctx
  refine ⟨file, d', k1, k2, k3, ?_⟩
  rw [k5, (push_tag hr).2.2.2.1]
  intro h
  cases h
  obtain ⟨y, x', lo, up, p1, p2, -, -, p5⟩ := k7 k cells[k] (List.getElem?_eq_getElem hk)
  rw [hx] at p2
  cases p2
  exact hnot _ p5

end

namespace SaveLoadEx

/-- An encoding that keeps the numbers of a list: their positions in the list, as eight bytes. -/
def code {F : Type} [DecidableEq F] (l : List F) (z : F) : Word := u64 (l.idxOf z)

def decode {F : Type} [Zero F] (l : List F) (w : Word) : F := l.getD (decI8 w).toNat 0

theorem code_length {F : Type} [DecidableEq F] (l : List F) (z : F) : (code l z).length = 8 := u64_length _

theorem decode_code {F : Type} [DecidableEq F] [Zero F] {l : List F} (hl : l.length < 2 ^ 63) {z : F} (hz : z ∈ l) :
    decode l (code l z) = z := by
  have h : l.idxOf z < l.length := List.idxOf_lt_length_iff.2 hz
  unfold decode code
  rw [decI8_u64 (by omega), Int.toNat_natCast, List.getD_eq_getElem?_getD, List.getElem?_eq_getElem h]
  exact List.getElem_idxOf h

open DgEx in
/-- The numbers of the interpolated data of `DgEx.stored`. -/
def numbers : List ℚ :=
  ((indices ((storedCase 2 : DgCase ℚ).fineCells ++ [2])).map fun i =>
    (storedCase 2 : DgCase ℚ).fineValue i.dropLast (i.getLastD 0)) ++
  (storedCase 2 : DgCase ℚ).fine.flatMap fun a => (List.range (a.cells + 1)).map a.node

open DgEx in
/-- The hypotheses of `C140_interpolate` are met by the data of `DgEx.stored` and an encoding that keeps its numbers. -/
example : (∀ z, (code numbers z).length = 8) ∧ (storedCase 2 : DgCase ℚ).Fits none none none stored ∧
    (storedCase 2 : DgCase ℚ).Savable (code numbers) (decode numbers) := by
  have hm : (storedCase 2 : DgCase ℚ).m / (storedCase 2 : DgCase ℚ).fns.length = 2 := by
    show 8 / fns.length = 2
    rw [fns_length]
  have hf : (storedCase 2 : DgCase ℚ).fineCells = [4, 6] := by decide +kernel
  have hl : numbers.length < 2 ^ 63 := by
    unfold numbers
    rw [List.length_append, List.length_map, length_indices, hf, List.length_flatMap]
    have : ((storedCase 2 : DgCase ℚ).fine.map fun a => ((List.range (a.cells + 1)).map a.node).length).sum = 12 := by
      decide +kernel
    rw [this]
    decide
  refine ⟨code_length _, (stored_fits true).1, ?_, ?_, ?_, ?_, ?_, ?_, ?_⟩
  · simp [storedCase]
  · decide +kernel
  · intro idx hi j hj
    rw [hm] at hj
    refine decode_code hl (List.mem_append_left _ (List.mem_map.2 ⟨idx ++ [j], mem_indices.2 ?_, by simp⟩))
    exact inRange_snoc_iff.2 ⟨hi, hj⟩
  · intro a ha i hi
    exact decode_code hl (List.mem_append_right _ (List.mem_flatMap.2 ⟨a, ha, List.mem_map.2 ⟨i, by simp; omega, rfl⟩⟩))
  · decide
  · rw [hm]; decide
  · rw [hm, hf]; decide

/-- A concrete case of the failure: the nodes 0, 1, 3 come back as 0, 3/2, 3. -/
example : ∃ (r : GData ℚ) (file : Bytes) (d' : GData ℚ), (({} : GData ℚ)).push [NArr.ofList [0, 1, 3]] ⟨[2, 1], [1, 3]⟩ = .ok r ∧
    writeGkyl (code [0, 1, 3]) r = .ok file ∧
    GData.ofFile (fun _ => .error .fail) (decode [0, 1, 3]) (Cfg.make [] none) [] [] {} file = .ok d' ∧
    d'.values = r.values ∧ d'.grid = some [NArr.ofList [0, 3 / 2, 3]] :=
  ⟨_, _, _, rfl, rfl, rfl, by decide +kernel, by decide +kernel⟩

end SaveLoadEx

end Pgkyl
