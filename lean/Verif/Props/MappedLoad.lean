import Verif.Lemmas.MappedLoad
import Verif.Props.Gkyl
/-!
# C124: loading data with a mapped grid

`GData(file, mapc2p_name=…)` and `GData(file, mapc2p_vel_name=…)` for `.gkyl` files.  The files stand for their contents.
-/

namespace Pgkyl
open Spec GkylReader

section
variable {F : Type} [Add F] [Sub F] [Mul F] [Div F] [IntCast F]
variable {unpack : Bytes → Except Err (Option (Dict String))} {dec : Word → F}

/-- What is read from a file with a field. -/
theorem stores_load {x : Spec.Field} {f : Bytes} (hf : StoresField x f) (hx : x.OK (realSize x.realType))
    {u : Option (Dict String)} (hu : MetaIs unpack x.metaBytes u) {rs : List Restr} {cr : Restr}
    (h6 : (cfgOf rs cr).partialLoad = true → x.cells.length ≤ 6)
    (hr : RestrsOK x.cells rs) (hc : cr.OK x.comps) (c : Dict String) :
    compatible f = some 1 ∧ ∃ asz a, load unpack "True" (cfgOf rs cr) c f = .ok (.field (domOf asz x rs cr) a, metaCtx "True" c u) ∧
      a.shape = winDims (winsOf x.cells rs) (cr.stop x.comps - cr.start) := by
  cases hf with
  | one hd hs =>
    exact ⟨compat_field, _, _, load_t1 hx hx.size (le_refl _) hu c h6 hr hc hd hs rfl, rfl⟩
  | many h hn =>
    refine ⟨?_, x.cells.prod, ?_⟩
    · exact compatible_ok (rest := u64 3 ++ u64 x.metaBytes.length ++ x.metaBytes ++ x.domain ++ u64 _ ++ List.flatMap Range.bytes _)
        (by rw [multiFile, header]; simp; rfl)
    · obtain ⟨a, h1, -, h2, -⟩ := load_t3 (tt := "True") hx hu c h6 hr hc h hn rfl
      exact ⟨a, h1, h2⟩

omit [Add F] [Sub F] [Mul F] [Div F] [IntCast F] in
/-- A file read on its own gives the array that a reader for the mapping finds. -/
theorem mapArray_ok [Add F] [Sub F] [Mul F] [Div F] [IntCast F] {f : Bytes} {tag label : List Char} {ctx : Ctx F} {d : GData F}
    (h : GData.ofFile unpack dec (Cfg.make [] none) tag label ctx f = .ok d) {v : NArr F} (hv : d.values = some v) :
    GData.mapArray unpack dec f = .ok v := by
  unfold GData.ofFile at h
  split at h
  · cases h
  · simp only [bind, Except.bind] at h
    split at h
    · cases h
    · rename_i p hp
      obtain ⟨l, c⟩ := p
      obtain ⟨c', h1⟩ := load_ctx hp [("grid_type", "uniform")]
      unfold GData.mapArray
      simp only [h1, bind, Except.bind, pure, Except.pure]
      cases l with
      | field dom a =>
        simp only at h
        split at h
        · cases h
        · cases h
          cases hv
          rfl
      | dynvec dv =>
        cases h
        cases hv
        rfl

/-- The two datasets in closed form. -/
theorem mapped_field {x : Spec.Field} {f : Bytes} (hf : StoresField x f) (hx : x.OK (realSize x.realType))
    {u : Option (Dict String)} (hu : MetaIs unpack x.metaBytes u) {rs : List Restr} {cr : Restr}
    (h6 : (cfgOf rs cr).partialLoad = true → x.cells.length ≤ 6)
    (hr : RestrsOK x.cells rs) (hc : cr.OK x.comps) (tag label : List Char) (ctx : Ctx F) {fm : Bytes} {v : NArr F}
    (hm : GData.mapArray unpack dec fm = .ok v) :
    ∃ c d g0 w, GData.ofFile unpack dec (cfgOf rs cr) tag label ctx f = .ok d ∧ d.grid = some g0 ∧ d.values = some w ∧
      g0.length = x.cells.length ∧ w.shape = GData.pieceCells x.cells rs ++ [cr.stop x.comps - cr.start] ∧
      d.ctx.other = Dict.set c "grid_type" "uniform" ∧
      (∀ g vel, c2pGrid x.cells.length v = .ok g → GData.ofMapped unpack dec (cfgOf rs cr) tag label ctx (some fm) vel f =
        .ok { d with grid := some g, ctx := { d.ctx with other := Dict.set c "grid_type" "c2p" } }) ∧
      ∀ vs, velAxes v = .ok vs → GData.ofMapped unpack dec (cfgOf rs cr) tag label ctx none (some fm) f =
        .ok { d with
          grid := some (g0.take (x.cells.length - (v.shape.length - 1)) ++ vs)
          ctx := { d.ctx with
            other := Dict.set (Dict.set (Dict.set c "num_vdim" (String.ofList (pyStr ((v.shape.length - 1 : Nat) : Int))))
              "num_cdim" (String.ofList (pyStr ((x.cells.length : Int) - ((v.shape.length - 1 : Nat) : Int))))) "grid_type" "c2p_vel" } } := by
  obtain ⟨h1, asz, a, h2, h3⟩ := stores_load hf hx hu h6 hr hc (if (Dict.get? ctx.other "grid_type").isSome then ctx.other
    else Dict.set ctx.other "grid_type" "uniform")
  have hof := GData.ofFile_field (dec := dec) (tag := tag) (label := label) (ctx := ctx) hx hr h1 h2 h3
  have hax := uniformAxes_ok (F := F) (cfgOf rs cr).partialLoad (ls := x.lower.map dec)
    (us := x.upper.map dec) [] hr (by simp [hx.lowerLen]) (by simp [hx.upperLen])
  rw [List.append_nil, GData.winDims_piece hr] at hax
  have hcells : (domOf asz x rs cr).cells.map Int.toNat = GData.pieceCells x.cells rs := by
    simp only [domOf, GData.pieceCells, List.map_zipWith, Int.toNat_natCast]
  have hlen : (axesOf (cfgOf rs cr).partialLoad x.cells rs (x.lower.map dec) (x.upper.map dec)).length = x.cells.length :=
    axesOf_length hr (by simp [hx.lowerLen]) (by simp [hx.upperLen])
  refine ⟨_, _, _, _, hof, rfl, rfl, by simpa using hlen, ?_, rfl, ?_, ?_⟩
  · simp only [NArr.map_shape, h3, winDims, GData.winDims_piece hr]
  · intro g vel hg
    unfold GData.ofMapped
    rw [h1]
    simp only [h2, bind, Except.bind]
    unfold GData.mappedField
    simp only [hm, bind, Except.bind, hcells]
    simp only [domOf, hax, hg, Bool.false_eq_true, if_false, Except.map, pure, Except.pure, Int.toNat_natCast]
  · intro vs hvs
    unfold GData.ofMapped
    rw [h1]
    simp only [h2, bind, Except.bind]
    unfold GData.mappedField
    simp only [hm, bind, Except.bind, hcells]
    simp only [domOf, hax, hvs, if_true, Except.map, pure, Except.pure, Int.toNat_natCast, List.map_take]

omit [Add F] [Sub F] [Mul F] [Div F] [IntCast F] in
theorem piece_all {ns : List Nat} {rs : List Restr} (h : RestrsOK ns rs) (ha : ∀ r ∈ rs, r = .all) : GData.pieceCells ns rs = ns := by
  rw [show rs = List.replicate ns.length .all from List.eq_replicate_iff.2 ⟨h.length, ha⟩]
  exact pieceCells_all ns

/-- **C124.**  Loading with `mapc2p_name` gives the dataset that loading without it gives, with another grid: one array per
coordinate, which holds, cell by cell, the coefficients of that coordinate in the mapping file.  The entry for the type of the
grid says so; no other metadata change.  (`mapc2p_vel_name` is not looked at then.)  The components may be restricted.

Full statement: the same for a restriction of the cells (`z0`, …): the grid is that of the loaded cells.  That is false, see
`C124_restricted_fails`. -/
theorem C124_mapped_partial {x : Spec.Field} {f : Bytes} (hf : StoresField x f) (hx : x.OK (realSize x.realType))
    {u : Option (Dict String)} (hu : x.metaBytes = [] ∨ unpack x.metaBytes = .ok u) (hdim : 1 ≤ x.cells.length ∧ x.cells.length ≤ 6)
    {rs : List Restr} {cr : Restr} (hr : List.Forall₂ Restr.OK x.cells rs) (hall : ∀ r ∈ rs, r = .all) (hc : cr.OK x.comps)
    (tag label : List Char) (ctx : Ctx F) {fm : Bytes} {tm lm : List Char} {cm : Ctx F} {dm : GData F} {v : NArr F}
    (hm : GData.ofFile unpack dec (Cfg.make [] none) tm lm cm fm = .ok dm) (hv : dm.values = some v)
    {K : Nat} {X : List Nat → Nat → F} (hX : IsField v x.cells (x.cells.length * K) X) (vel : Option Bytes) :
    ∃ d r g w, GData.ofFile unpack dec (Cfg.make (rs.map Restr.text) cr.text) tag label ctx f = .ok d ∧
      GData.ofMapped unpack dec (Cfg.make (rs.map Restr.text) cr.text) tag label ctx (some fm) vel f = .ok r ∧
      r = { d with grid := some g, ctx := { d.ctx with other := r.ctx.other } } ∧
      d.values = some w ∧ w.shape = x.cells ++ [cr.stop x.comps - cr.start] ∧
      IsCoordinates g x.cells.length x.cells K X ∧
      Dict.get? r.ctx.other "grid_type" = some "c2p" ∧
      ∀ k, k ≠ "grid_type" → Dict.get? r.ctx.other k = Dict.get? d.ctx.other k := by
  obtain ⟨u', hu'⟩ := metaIs_of hu
  obtain ⟨g, hg, hg2⟩ := c2pGrid_ok hX (by omega)
  have hr' := restrsOK_iff.1 hr
  obtain ⟨c, d, g0, w, h1, h2, h3, h4, h5, h6, h7, -⟩ := mapped_field hf hx hu' (fun _ => hdim.2) hr' hc tag label ctx
    (mapArray_ok hm hv)
  refine ⟨d, _, g, w, h1, h7 g vel hg, rfl, h3, ?_, hg2, Dict.get?_set_self _ _ _, fun k hk => ?_⟩
  · rw [h5, piece_all hr' hall]
  · rw [h6]
    simp only [Dict.get?_set_ne _ _ hk]

/-- **C124**, velocity space.  Loading with `mapc2p_vel_name` gives the dataset that loading without it gives, with another
grid: the axes of configuration space are the same, and each of the axes of velocity space is replaced by the coefficients of
its own coordinate in the mapping file, along its own line of cells.  The entries for the type of the grid and for the numbers
of dimensions say so; no other metadata change.  Components and cells of configuration space may be restricted.

Full statement: the same for a restriction of the cells of velocity space.  That is false, see `C124_restricted_fails`. -/
theorem C124_velocity_partial {x : Spec.Field} {f : Bytes} (hf : StoresField x f) (hx : x.OK (realSize x.realType))
    {u : Option (Dict String)} (hu : x.metaBytes = [] ∨ unpack x.metaBytes = .ok u) (h6 : x.cells.length ≤ 6)
    {cdim : Nat} {vcells : List Nat} (hcv : cdim + vcells.length = x.cells.length) (hv1 : 1 ≤ vcells.length)
    (hvc : x.cells.drop cdim = vcells)
    {rs : List Restr} {cr : Restr} (hr : List.Forall₂ Restr.OK x.cells rs) (hall : ∀ r ∈ rs.drop cdim, r = .all) (hc : cr.OK x.comps)
    (tag label : List Char) (ctx : Ctx F) {fm : Bytes} {tm lm : List Char} {cm : Ctx F} {dm : GData F} {v : NArr F}
    (hm : GData.ofFile unpack dec (Cfg.make [] none) tm lm cm fm = .ok dm) (hv : dm.values = some v)
    {K : Nat} {X : List Nat → Nat → F} (hX : IsField v vcells (vcells.length * K) X) :
    ∃ d r g g0 w, GData.ofFile unpack dec (Cfg.make (rs.map Restr.text) cr.text) tag label ctx f = .ok d ∧
      GData.ofMapped unpack dec (Cfg.make (rs.map Restr.text) cr.text) tag label ctx none (some fm) f = .ok r ∧
      r = { d with grid := some g, ctx := { d.ctx with other := r.ctx.other } } ∧ d.grid = some g0 ∧
      d.values = some w ∧ w.shape.length = x.cells.length + 1 ∧ (w.shape.dropLast).drop cdim = vcells ∧
      IsVelocityGrid g g0 cdim vcells K X ∧
      Dict.get? r.ctx.other "grid_type" = some "c2p_vel" ∧
      Dict.get? r.ctx.other "num_cdim" = some (String.ofList (Spec.dec cdim)) ∧
      Dict.get? r.ctx.other "num_vdim" = some (String.ofList (Spec.dec vcells.length)) ∧
      ∀ k, k ∉ ["grid_type", "num_cdim", "num_vdim"] → Dict.get? r.ctx.other k = Dict.get? d.ctx.other k := by
  obtain ⟨u', hu'⟩ := metaIs_of hu
  have hr' := restrsOK_iff.1 hr
  have hpos : ∀ n ∈ vcells, 1 ≤ n := by
    intro n hn
    rw [← hvc] at hn
    exact pos_of_restrs hr n (List.mem_of_mem_drop hn)
  obtain ⟨vs, hvs, hvl, hva⟩ := velAxes_ok hX hv1 hpos
  obtain ⟨c, d, g0, w, h1, h2, h3, h4, h5, h6, -, h8⟩ := mapped_field hf hx hu' (fun _ => h6) hr' hc tag label ctx
    (mapArray_ok hm hv)
  have hsl : v.shape.length - 1 = vcells.length := by simp [hX.shape]
  have hcd : x.cells.length - vcells.length = cdim := by omega
  have hci : (x.cells.length : Int) - (vcells.length : Int) = (cdim : Int) := by omega
  have h9 := h8 vs hvs
  rw [hsl, hcd, hci] at h9
  have htk : (g0.take cdim).length = cdim := by rw [List.length_take]; omega
  have hpl : (GData.pieceCells x.cells rs).length = x.cells.length := by simp [GData.pieceCells, hr'.length]
  refine ⟨d, _, _, g0, w, h1, h9, rfl, h2, h3, ?_, ?_, ⟨?_, ?_, ?_⟩, Dict.get?_set_self _ _ _, ?_, ?_, ?_⟩
  · rw [h5, List.length_append, hpl]; rfl
  · rw [h5, List.dropLast_concat, GData.pieceCells, List.drop_zipWith, hvc]
    have hl2 : (rs.drop cdim).length = vcells.length := by rw [← hvc, List.length_drop, List.length_drop, hr'.length]
    rw [show rs.drop cdim = List.replicate vcells.length .all from List.eq_replicate_iff.2 ⟨hl2, hall⟩]
    exact pieceCells_all vcells
  · rw [List.length_append, htk, hvl]
  · intro i hi
    rw [List.getElem?_append_left (by omega), List.getElem?_take, if_pos hi]
  · intro i n hi
    rw [List.getElem?_append_right (by omega), htk, Nat.add_sub_cancel_left]
    exact hva i n hi
  · rw [Dict.get?_set_ne _ _ (by decide), Dict.get?_set_self, pyStr_ofNat]
    rfl
  · rw [Dict.get?_set_ne _ _ (by decide), Dict.get?_set_ne _ _ (by decide), Dict.get?_set_self, pyStr_ofNat]
    rfl
  · intro k hk
    simp only [List.mem_cons, List.not_mem_nil, or_false, not_or] at hk
    rw [h6]
    simp only [Dict.get?_set_ne _ _ hk.1, Dict.get?_set_ne _ _ hk.2.1, Dict.get?_set_ne _ _ hk.2.2]

/-- **C124 fails for restricted cells.**  If only some of the cells are loaded, the arrays of the grid still have an entry for
every cell of the domain: the grid does not fit the values. -/
theorem C124_restricted_fails {x : Spec.Field} {f : Bytes} (hf : StoresField x f) (hx : x.OK (realSize x.realType))
    {u : Option (Dict String)} (hu : x.metaBytes = [] ∨ unpack x.metaBytes = .ok u) (hdim : 1 ≤ x.cells.length ∧ x.cells.length ≤ 6)
    {rs : List Restr} {cr : Restr} (hr : List.Forall₂ Restr.OK x.cells rs) (hc : cr.OK x.comps)
    {i n : Nat} {q : Restr} (hi : x.cells[i]? = some n) (hq : rs[i]? = some q) (hcut : q.stop n - q.start ≠ n)
    (tag label : List Char) (ctx : Ctx F) {fm : Bytes} {tm lm : List Char} {cm : Ctx F} {dm : GData F} {v : NArr F}
    (hm : GData.ofFile unpack dec (Cfg.make [] none) tm lm cm fm = .ok dm) (hv : dm.values = some v)
    {K : Nat} {X : List Nat → Nat → F} (hX : IsField v x.cells (x.cells.length * K) X) (vel : Option Bytes) :
    ∃ r g w, GData.ofMapped unpack dec (Cfg.make (rs.map Restr.text) cr.text) tag label ctx (some fm) vel f = .ok r ∧
      r.grid = some g ∧ r.values = some w ∧ ∀ d < x.cells.length, ∃ a, g[d]? = some a ∧ a.shape[i]? = some n ∧ w.shape[i]? ≠ some n := by
  obtain ⟨u', hu'⟩ := metaIs_of hu
  obtain ⟨g, hg, hg2⟩ := c2pGrid_ok hX (by omega)
  have hr' := restrsOK_iff.1 hr
  obtain ⟨c, d, g0, w, h1, h2, h3, h4, h5, h6, h7, -⟩ := mapped_field hf hx hu' (fun _ => hdim.2) hr' hc tag label ctx
    (mapArray_ok hm hv)
  have hil := (List.getElem?_eq_some_iff.1 hi).1
  refine ⟨_, g, w, h7 g vel hg, rfl, h3, fun k hk => ?_⟩
  obtain ⟨a, ha, haf⟩ := hg2.2 k hk
  refine ⟨a, ha, by rw [haf.shape, List.getElem?_append_left hil, hi], ?_⟩
  rw [h5, List.getElem?_append_left (by simp [GData.pieceCells, hr'.length]; exact hil), GData.pieceCells,
    List.getElem?_zipWith_eq_some.2 ⟨n, q, hi, hq, rfl⟩]
  simpa using hcut

end
/-! ## Concrete cases -/

namespace MappedLoadEx

/-- a number as a word of 8 bytes (here only its last byte matters) -/
def w (n : UInt8) : Word := [n, 0, 0, 0, 0, 0, 0, 0]

/-- what a word stands for here -/
def num (b : Word) : ℚ := ((b.headD 0).toNat : ℚ)

/-- a field with one component on two by three cells, and its data -/
def x : Spec.Field := ⟨[], 2, [2, 3], [w 0, w 0], [w 2, w 6], 1⟩
def data : NArr Word := ⟨[2, 3, 1], (List.range 6).map fun k => w (UInt8.ofNat (k + 1))⟩

/-- a mapping of both coordinates, with two coefficients each -/
def y : Spec.Field := ⟨[], 2, [2, 3], [w 0, w 0], [w 2, w 6], 4⟩
def map2 : NArr Word := ⟨[2, 3, 4], (List.range 24).map fun k => w (UInt8.ofNat (k + 100))⟩

/-- a mapping of the second coordinate, with three coefficients -/
def z : Spec.Field := ⟨[], 2, [3], [w 0], [w 6], 3⟩
def map1 : NArr Word := ⟨[3, 3], (List.range 9).map fun k => w (UInt8.ofNat (k + 100))⟩

theorem x_ok : x.OK (realSize x.realType) :=
  ⟨.inr rfl, by decide, by decide, by decide, by decide, by decide, by decide, rfl, rfl, by decide, by decide⟩
theorem y_ok : y.OK (realSize y.realType) :=
  ⟨.inr rfl, by decide, by decide, by decide, by decide, by decide, by decide, rfl, rfl, by decide, by decide⟩
theorem z_ok : z.OK (realSize z.realType) :=
  ⟨.inr rfl, by decide, by decide, by decide, by decide, by decide, by decide, rfl, rfl, by decide, by decide⟩

theorem stores : StoresField x (fieldFile x data) := .one ⟨rfl, by decide⟩ rfl

/-- The hypotheses of `C124_mapped_partial`; coefficient 1 of coordinate 1 in cell (1, 2) is the last number of the mapping. -/
example : ∃ (d r : GData ℚ) (g : List (NArr ℚ)) (a : NArr ℚ), GData.ofMapped (fun _ => .ok none) num (Cfg.make [none, none] none) [] [] {}
      (some (fieldFile y map2)) none (fieldFile x data) = .ok r ∧ r = { d with grid := some g, ctx := { d.ctx with other := r.ctx.other } } ∧
      g[1]? = some a ∧ a.get? [1, 2, 1] = some 123 := by
  obtain ⟨dm, h1, h2, -⟩ := C02_field_file_read_exactly (F := ℚ) (unpack := fun _ => .ok none) (dec := num) y_ok (by decide) (u := none) (.inl rfl)
    (data := map2) ⟨rfl, by decide⟩ rfl [] [] {}
  obtain ⟨d, r, g, v, -, h4, h5, -, -, ⟨-, h6⟩, -⟩ := C124_mapped_partial (F := ℚ) stores x_ok (u := none) (.inl rfl) (by decide)
    (rs := [.all, .all]) (cr := .all) (.cons (all_ok (by decide)) (.cons (all_ok (by decide)) .nil)) (by simp) (all_ok (by decide))
    [] [] {} h1 h2 (K := 2) (X := fun i k => ((map2.map num).get? (i ++ [k])).getD 0)
    ⟨rfl, rfl, fun i hi c hc => by
      obtain ⟨q, hq⟩ := Option.isSome_iff_exists.1 (NArr.get?_isSome (a := map2.map num) rfl (idx := i ++ [c]) (inRange_snoc_iff.2 ⟨hi, hc⟩))
      rw [hq]; rfl⟩ none
  obtain ⟨a, ha, haf⟩ := h6 1 (by decide)
  refine ⟨d, r, g, a, h4, h5, ha, ?_⟩
  have := haf.get [1, 2] (by decide) 1 (by decide)
  rw [show ([1, 2, 1] : List Nat) = [1, 2] ++ [1] from rfl, this]
  decide +kernel

/-- Those of `C124_velocity_partial`, with one of the two cells of configuration space loaded. -/
example : ∃ (d r : GData ℚ) (g g0 : List (NArr ℚ)), GData.ofMapped (fun _ => .ok none) num (Cfg.make [some "1".toList, none] none) [] [] {}
      none (some (fieldFile z map1)) (fieldFile x data) = .ok r ∧ r = { d with grid := some g, ctx := { d.ctx with other := r.ctx.other } } ∧
      IsVelocityGrid g g0 1 [3] 3 (fun i k => ((map1.map num).get? (i ++ [k])).getD 0) := by
  obtain ⟨dm, h1, h2, -⟩ := C02_field_file_read_exactly (F := ℚ) (unpack := fun _ => .ok none) (dec := num) z_ok (by decide) (u := none) (.inl rfl)
    (data := map1) ⟨rfl, by decide⟩ rfl [] [] {}
  obtain ⟨d, r, g, g0, v, -, h4, h5, -, -, -, -, h6, -⟩ := C124_velocity_partial (F := ℚ) stores x_ok (u := none) (.inl rfl) (by decide)
    (cdim := 1) (vcells := [3]) rfl (by decide) rfl
    (rs := [.idx 1, .all]) (cr := .all) (.cons ⟨by decide, by decide, fun a k h => by cases h⟩ (.cons (all_ok (by decide)) .nil)) (by simp) (all_ok (by decide))
    [] [] {} h1 h2 (K := 3) (X := fun i k => ((map1.map num).get? (i ++ [k])).getD 0)
    ⟨rfl, rfl, fun i hi c hc => by
      obtain ⟨q, hq⟩ := Option.isSome_iff_exists.1 (NArr.get?_isSome (a := map1.map num) rfl (idx := i ++ [c]) (inRange_snoc_iff.2 ⟨hi, hc⟩))
      rw [hq]; rfl⟩
  exact ⟨d, r, g, g0, h4, h5, h6⟩

/-- Those of `C124_restricted_fails`: of the two cells along the first axis only the second is loaded. -/
example : x.cells[0]? = some 2 ∧ [Restr.idx 1, .all][0]? = some (.idx 1) ∧ (Restr.idx 1).stop 2 - (Restr.idx 1).start ≠ 2 := by decide

end MappedLoadEx

end Pgkyl
