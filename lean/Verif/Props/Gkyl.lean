import Verif.Lemmas.GkylOpen
/-!
# Properties of loading and saving `.gkyl` files (C01-C08, C55)

Files are lists of bytes.  `Cfg.make axes comp` is the reader's configuration for the strings given as
`z0`..`z5` (`none`: not given) and `comp`; `Cfg.make [] none` is "no options".  `dec`/`enc` decode and
encode one stored real; metadata is decoded by the parameter `unpack` (the msgpack library).
-/

namespace Pgkyl
open Spec GkylReader

section
variable {F : Type} [Add F] [Sub F] [Mul F] [Div F] [IntCast F]
variable {unpack : Bytes → Except Err (Option (Dict String))} {dec : Word → F}

omit [Add F] [Sub F] [Mul F] [Div F] [IntCast F] in
theorem map_exact {enc : F → Word} {l : List F} (h : ∀ z ∈ l, dec (enc z) = z) : l.map (dec ∘ enc) = l := by
  have : l.map (dec ∘ enc) = l.map id := List.map_congr_left h
  rw [this, List.map_id]

/-- **C01.**  A dataset saved as `.gkyl` and opened again has the same values, dimensions, cells,
component count and bounds, whatever the 64-bit patterns are: all that is needed is that its numbers are ones that `enc`
and `dec` keep. -/
theorem C01_write_load_roundtrip [Min F] [Max F] {enc : F → Word} (henc : ∀ z, (enc z).length = 8)
    {d : GData F} {v : NArr F} {cells : List Nat} {nc : Nat} {lo up : List F}
    (hdec : ∀ z, z ∈ v.data ∨ z ∈ lo ∨ z ∈ up → dec (enc z) = z)
    (hv : d.values = some v) (hwf : v.WF) (hshape : v.shape = cells ++ [nc])
    (hcells : d.numCells = some cells) (hnc : d.numComps = nc)
    (hb : d.bounds = .ok (some (lo, up))) (hlo : lo.length = cells.length)
    (hup : up.length = cells.length)
    (hpos : ∀ n ∈ cells, 0 < n) (hncpos : 0 < nc)
    (hfit : ∀ n ∈ cells, n < 2 ^ 63) (hdims : cells.length < 2 ^ 63) (hn8 : nc * 8 < 2 ^ 63)
    (hsize : v.data.length < 2 ^ 63) (tag label : List Char) (ctx : Ctx F) :
    ∃ f, writeGkyl enc d = .ok f ∧
      ∃ d', GData.ofFile unpack dec (Cfg.make [] none) tag label ctx f = .ok d' ∧
        d'.values = some v ∧ d'.numCells = some cells ∧ d'.numDims = d.numDims ∧
        d'.numComps = nc ∧ d'.bounds = .ok (some (lo, up)) := by
  refine ⟨_, writeGkyl_eq hv hcells hnc hb hfit hdims hn8 hsize, ?_⟩
  have hlen : v.data.length = cells.prod * nc := by
    rw [hwf, hshape]; simp
  have hle : cells.prod ≤ v.data.length := by rw [hlen]; exact Nat.le_mul_of_pos_right _ hncpos
  have hx : (⟨[], 2, cells, lo.map enc, up.map enc, nc⟩ : Spec.Field).OK 8 :=
    { real := Or.inr rfl, metaLen := by simp, dims := hdims, cellsFit := hfit
      size := lt_of_le_of_lt hle hsize, elem := by simpa [realSize] using hn8, comps := hncpos
      lowerLen := by simpa using hlo, upperLen := by simpa using hup
      lowerW := by simp [henc], upperW := by simp [henc] }
  have hd : IsData 2 (v.map enc) := ⟨NArr.map_WF hwf, by simp [NArr.map, henc, realSize]⟩
  refine ⟨_, open_full (dec := dec) hx hpos hsize hle (u := none) (Or.inl ⟨rfl, rfl⟩) hd
    (by simpa [Spec.Field.shape] using hshape) tag label ctx, ?_, rfl, ?_, ?_, ?_⟩
  · simp only [NArr.map, List.map_map, Option.some.injEq]
    rw [map_exact fun z hz => hdec z (.inl hz)]
  · have : d.numDims = cells.length := by simp [GData.numDims, hcells]
    rw [this]; rfl
  · simp only [GData.numComps]
    cases nc with
    | zero => omega
    | succ n => rfl
  · simp only [GData.bounds, List.map_map]
    rw [map_exact fun z hz => hdec z (.inr (.inl hz)), map_exact fun z hz => hdec z (.inr (.inr hz))]

omit [Add F] [Sub F] [Mul F] [Div F] [IntCast F] in
/-- **C55.**  The saved file is laid out as documented when the dataset has one component... -/
theorem C55_written_layout_partial [Min F] [Max F] {enc : F → Word}
    {d : GData F} {v : NArr F} {cells : List Nat} {lo up : List F}
    (hv : d.values = some v) (hwf : v.WF) (hshape : v.shape = cells ++ [1])
    (hcells : d.numCells = some cells) (hnc : d.numComps = 1)
    (hb : d.bounds = .ok (some (lo, up)))
    (hfit : ∀ n ∈ cells, n < 2 ^ 63) (hdims : cells.length < 2 ^ 63)
    (hsize : v.data.length < 2 ^ 63) :
    writeGkyl enc d = .ok (fieldFile ⟨[], 2, cells, lo.map enc, up.map enc, 1⟩ (v.map enc)) := by
  rw [writeGkyl_eq hv hcells hnc hb hfit hdims (by norm_num) hsize]
  have hlen : v.data.length = cells.prod := by
    rw [hwf, hshape]; simp
  rw [hlen]; rfl

/-- **C02.**  A single-range file laid out as documented (bounds as wide as the file's reals) is read
exactly: cells, component count, bounds, values. -/
theorem C02_field_file_read_exactly {x : Spec.Field} (hx : x.OK (realSize x.realType))
    (hpos : ∀ n ∈ x.cells, 0 < n) {u : Option (Dict String)}
    (hu : x.metaBytes = [] ∨ unpack x.metaBytes = .ok u)
    {data : NArr Word} (hd : IsData x.realType data) (hs : data.shape = x.shape)
    (tag label : List Char) (ctx : Ctx F) :
    ∃ d, GData.ofFile unpack dec (Cfg.make [] none) tag label ctx (fieldFile x data) = .ok d ∧
      d.values = some (data.map dec) ∧ d.ctx.cells = some x.cells ∧
      d.ctx.numComps = some x.comps ∧ d.ctx.lower = some (x.lower.map dec) ∧
      d.ctx.upper = some (x.upper.map dec) ∧ d.tag = tag ∧ d.status = true := by
  obtain ⟨u', hu'⟩ := metaIs_of hu
  exact ⟨_, open_full hx hpos hx.size (le_refl _) hu' hd hs tag label ctx,
    rfl, rfl, rfl, rfl, rfl, rfl, rfl⟩

/-- **C03.**  A partial load of a single-range file is the slice of the full load that the restrictions
describe, and reports the extents of that slice. -/
theorem C03_partial_load_is_slice {x : Spec.Field} (hx : x.OK (realSize x.realType))
    {u : Option (Dict String)} (hu : x.metaBytes = [] ∨ unpack x.metaBytes = .ok u)
    {data : NArr Word} (hd : IsData x.realType data) (hs : data.shape = x.shape)
    (h6 : x.cells.length ≤ 6) {rs : List Restr} {cr : Restr}
    (hr : List.Forall₂ Restr.OK x.cells rs) (hc : cr.OK x.comps)
    (tag label : List Char) (ctx : Ctx F) :
    ∃ full v part, GData.ofFile unpack dec (Cfg.make [] none) tag label ctx (fieldFile x data) = .ok full ∧
      GData.ofFile unpack dec (Cfg.make (rs.map Restr.text) cr.text) tag label ctx
        (fieldFile x data) = .ok part ∧
      full.values = some v ∧ part.values = some (v.slice (Restr.slices x.cells rs x.comps cr)) ∧
      part.ctx.cells = some (List.zipWith (fun n r => Restr.stop n r - r.start) x.cells rs) ∧
      part.ctx.numComps = some (cr.stop x.comps - cr.start) := by
  obtain ⟨u', hu'⟩ := metaIs_of hu
  exact ⟨_, _, _, open_full hx (pos_of_restrs hr) hx.size (le_refl _) hu' hd hs tag label ctx,
    open_t1 hx hx.size (le_refl _) hu' (fun _ => h6) (restrsOK_iff.1 hr) hc hd hs tag label ctx,
    rfl, rfl, rfl, rfl⟩

/-- **C05.**  At every cell the loaded array has the data of the last range of the file that covers the
cell, and zero where no range does. -/
theorem C05_multi_range_assembled {x : Spec.Field} (hx : x.OK (realSize x.realType))
    (hpos : ∀ n ∈ x.cells, 0 < n) {u : Option (Dict String)}
    (hu : x.metaBytes = [] ∨ unpack x.metaBytes = .ok u)
    {rgs : List Spec.Range} (hrs : ∀ r ∈ rgs, r.OK x) (hn : rgs.length < 2 ^ 63)
    (tag label : List Char) (ctx : Ctx F) :
    ∃ d v, GData.ofFile unpack dec (Cfg.make [] none) tag label ctx (multiFile x rgs) = .ok d ∧
      d.values = some v ∧ v.WF ∧ v.shape = x.shape ∧
      d.ctx.cells = some x.cells ∧ d.ctx.numComps = some x.comps ∧
      d.ctx.lower = some (x.lower.map dec) ∧ d.ctx.upper = some (x.upper.map dec) ∧
      ∀ cell c, inRange x.shape (cell ++ [c]) = true →
        (∀ pre r post, rgs = pre ++ r :: post → r.covers cell = true →
          (∀ q ∈ post, q.covers cell = false) →
          v.get? (cell ++ [c]) =
            (r.data.get? (List.zipWith (fun i l => i + 1 - l) cell r.lo ++ [c])).map dec) ∧
        ((∀ q ∈ rgs, q.covers cell = false) →
          v.get? (cell ++ [c]) = some (dec (List.replicate (realSize x.realType) 0))) := by
  obtain ⟨u', hu'⟩ := metaIs_of hu
  obtain ⟨a, h1, h2, h3, h4⟩ := open_full3 (dec := dec) hx hpos hu' hrs hn tag label ctx
  refine ⟨_, a.map dec, h4, rfl, NArr.map_WF h1, h2, rfl, rfl, rfl, rfl, ?_⟩
  intro cell c hi
  constructor
  · intro pre r post hrg hcov hpost
    rw [NArr.map_get?, h3 _ hi, hrg, assembled_last (by simpa using hcov) (by simpa using hpost)]
    simp [Range.value]
  · intro hnone
    rw [NArr.map_get?, h3 _ hi, assembled_none (by simpa using hnone)]
    rfl

/-- **C06.**  A partial load of a multi-range file is the slice of the full load that the restrictions
describe, whichever ranges meet the window. -/
theorem C06_partial_multi_range_is_slice {x : Spec.Field} (hx : x.OK (realSize x.realType))
    {u : Option (Dict String)} (hu : x.metaBytes = [] ∨ unpack x.metaBytes = .ok u)
    {rgs : List Spec.Range} (hrs : ∀ r ∈ rgs, r.OK x) (hn : rgs.length < 2 ^ 63)
    (h6 : x.cells.length ≤ 6) {rs : List Restr} {cr : Restr}
    (hr : List.Forall₂ Restr.OK x.cells rs) (hc : cr.OK x.comps)
    (tag label : List Char) (ctx : Ctx F) :
    ∃ full v part, GData.ofFile unpack dec (Cfg.make [] none) tag label ctx (multiFile x rgs) = .ok full ∧
      GData.ofFile unpack dec (Cfg.make (rs.map Restr.text) cr.text) tag label ctx
        (multiFile x rgs) = .ok part ∧
      full.values = some v ∧ part.values = some (v.slice (Restr.slices x.cells rs x.comps cr)) ∧
      part.ctx.cells = some (List.zipWith (fun n r => Restr.stop n r - r.start) x.cells rs) ∧
      part.ctx.numComps = some (cr.stop x.comps - cr.start) := by
  obtain ⟨u', hu'⟩ := metaIs_of hu
  have hr' := restrsOK_iff.1 hr
  obtain ⟨a, h1, h2, h3, h4⟩ := open_full3 (dec := dec) hx (pos_of_restrs hr) hu' hrs hn tag label ctx
  obtain ⟨b, g1, g2, g3, g4⟩ := open_t3 (dec := dec) hx hu' (fun _ => h6) hr' hc hrs hn tag label ctx
  refine ⟨_, a.map dec, _, h4, g4, rfl, ?_, rfl, rfl⟩
  suffices hba : b = a.slice (Restr.slices x.cells rs x.comps cr) by
    simp only [NArr.slice_map, ← hba]
  have hdrop : (a.shape.drop (Restr.slices x.cells rs x.comps cr).length) = [] := by
    rw [h2, slices_length hr', List.drop_length]
  have hsl : a.slice (Restr.slices x.cells rs x.comps cr) =
      NArr.ofFn ((Restr.slices x.cells rs x.comps cr).map fun p => p.2 - p.1) fun idx =>
        a.get? (List.zipWith (· + ·) idx ((Restr.slices x.cells rs x.comps cr).map (·.1))) := by
    simp [NArr.slice, hdrop]
  have hsome : ∀ idx, inRange ((Restr.slices x.cells rs x.comps cr).map fun p => p.2 - p.1) idx =
      true → (a.get? (List.zipWith (· + ·) idx
        ((Restr.slices x.cells rs x.comps cr).map (·.1)))).isSome := by
    intro idx hi
    exact NArr.get?_isSome h1 (by rw [h2]; exact inRange_slices hr' hc hi)
  rw [hsl]
  have hbs : b.shape = (Restr.slices x.cells rs x.comps cr).map fun p => p.2 - p.1 := by
    rw [g2, winDims_slices hr']
  apply NArr.ext_get? g1 (NArr.ofFn_WF hsome) hbs
  intro idx hi
  rw [NArr.ofFn_get? hsome (by rw [← hbs]; exact hi), g3 idx hi, shift_slices,
    h3 _ (inRange_slices hr' hc (by rw [← hbs]; exact hi))]

/-- **C07.**  A time trace appended to in any number of pieces is loaded as the concatenation of the
pieces' times and rows, in file order. -/
theorem C07_dynvector_concatenated {c : Nat} (hc : c * 8 < 2 ^ 63) {ks : List Chunk}
    (hk : ∀ k ∈ ks, k.OK c) (hu : ∀ k ∈ ks, k.metaBytes = [] ∨ ∃ u, unpack k.metaBytes = .ok u)
    (hne : ks.flatMap (·.times) ≠ []) (cfg : Cfg) (tag label : List Char) (ctx : Ctx F) :
    ∃ d, GData.ofFile unpack dec cfg tag label ctx (ks.flatMap (Chunk.bytes c)) = .ok d ∧
      d.grid = some [NArr.ofList ((ks.flatMap (·.times)).map dec)] ∧
      d.values = some ⟨[(ks.flatMap (·.times)).length, c],
        ((ks.flatMap (·.rows)).flatten).map dec⟩ := by
  cases ks with
  | nil => simp at hne
  | cons k ks =>
    obtain ⟨h1, h2, _⟩ := load_t2 (unpack := unpack) (tt := "True") hc hk (by
      intro q hq
      rcases hu q hq with h | ⟨u, h⟩
      · exact ⟨none, Or.inl ⟨h, rfl⟩⟩
      · by_cases hm : q.metaBytes = []
        · exact ⟨none, Or.inl ⟨hm, rfl⟩⟩
        · exact ⟨u, Or.inr ⟨hm, h⟩⟩) cfg
      (if (Dict.get? ctx.other "grid_type").isSome then ctx.other
        else Dict.set ctx.other "grid_type" "uniform") [] rfl
    rw [List.append_nil] at h1 h2
    obtain ⟨ctx', h3⟩ := h2 rfl hne
    refine ⟨{
        grid := some [NArr.ofList (((k :: ks).flatMap (·.times)).map dec)]
        values := some ⟨[((k :: ks).flatMap (·.times)).length, c],
          (((k :: ks).flatMap (·.rows)).flatten).map dec⟩
        ctx := { ctx with other := Dict.set ctx' "grid_type" "nodal" }
        tag := tag
        customLabel := label }, ?_, rfl, rfl⟩
    simp only [GData.ofFile, h1, h3, bind, Except.bind, pure, Except.pure, dynOf]
    have e1 : ((k :: ks).map fun k => k.times.length).sum = ((k :: ks).flatMap (·.times)).length := by
      rw [List.length_flatMap]
    have e2 : ((k :: ks).flatMap fun k => k.rows.flatten) = ((k :: ks).flatMap (·.rows)).flatten := by
      generalize k :: ks = l
      induction l with
      | nil => rfl
      | cons a l ih => simp [ih]
    rw [e1, e2]

/-- **C07.**  The claim fails for time traces in single precision: the reader takes 8 bytes for each time stamp but reads words of 4
bytes from them, so the n times loaded are the first n of the 2n halves of the time stamps. -/
theorem C07_single_precision_fails {c : Nat} (hc : c * 4 < 2 ^ 63) {times : List Word} {rows : List (List Word)}
    (hne : times ≠ []) (hfit : times.length < 2 ^ 63) (ht : ∀ b ∈ times, b.length = 8)
    (hlen : rows.length = times.length) (hrl : ∀ r ∈ rows, r.length = c) (hrw : ∀ r ∈ rows, ∀ b ∈ r, b.length = 4)
    (cfg : Cfg) (tag label : List Char) (ctx : Ctx F) :
    ∃ d, GData.ofFile unpack dec cfg tag label ctx (header 2 [] ++ u64 1 ++ u64 (c * 4) ++ u64 times.length ++ times.flatten ++
        rows.flatten.flatten) = .ok d ∧
      d.grid = some [NArr.ofList (((times.flatMap fun t => [t.take 4, t.drop 4]).take times.length).map dec)] ∧
      d.values = some ⟨[times.length, c], rows.flatten.map dec⟩ := by
  obtain ⟨f, hf⟩ : ∃ f, f = header 2 [] ++ u64 1 ++ u64 (c * 4) ++ u64 times.length ++ times.flatten ++ rows.flatten.flatten := ⟨_, rfl⟩
  rw [← hf]
  obtain ⟨x1, x2, x3⟩ := halves_ok ht
  have hrowsW : ∀ b ∈ rows.flatten, b.length = 4 := by
    intro b hb
    obtain ⟨r, hr, hb⟩ := List.mem_flatten.1 hb
    exact hrw r hr b hb
  have hrowsL : rows.flatten.length = times.length * c := by
    rw [List.length_flatten, ← hlen]
    have : rows.map List.length = List.replicate rows.length c := by
      apply List.eq_replicate_iff.2
      refine ⟨by simp, ?_⟩
      intro b hb
      obtain ⟨r, hr, rfl⟩ := List.mem_map.1 hb
      exact hrl r hr
    rw [this]; simp
  have hd1 : f.drop 0 = header 2 [] ++ u64 1 ++ (u64 (c * 4) ++ (u64 times.length ++ (times.flatten ++ (rows.flatten.flatten ++ [])))) := by
    rw [hf]; simp
  have hcomp : compatible f = some 1 := compatible_ok (rest := f.drop 13) (by
    have : f = (gkyl0 ++ u64 1) ++ f.drop 13 := by
      conv_lhs => rw [← List.take_append_drop 13 f]
      congr 1
      have hl : (gkyl0 ++ u64 1).length = 13 := by simp [u64_length, gkyl0_length]
      rw [List.drop_zero] at hd1
      rw [hd1, header]
      simp only [List.append_assoc]
      rw [← List.append_assoc gkyl0, List.take_left' hl]
    simpa using this)
  have hh := readHeader_ok (unpack := unpack) (tt := "True") (st := { ctx := (if (Dict.get? ctx.other "grid_type").isSome then ctx.other
        else Dict.set ctx.other "grid_type" "uniform") }) hcomp hd1 (by norm_num) (by norm_num) (by simp) (u := none) (.inl ⟨rfl, rfl⟩)
  have h0 : f.drop 37 = u64 (c * 4) ++ (u64 times.length ++ (times.flatten ++ (rows.flatten.flatten ++ []))) := by
    have := drop_add (k := 37) hd1 (by simp only [header, List.length_append, u64_length, gkyl0_length]; rfl)
    rwa [Nat.zero_add] at this
  have h1 := drop_add h0 (u64_length _)
  have h2 := drop_add h1 (u64_length _)
  have h3 := drop_add h2 (flatten_length ht)
  have h4 := drop_add h3 (flatten_length hrowsW)
  have r0 := readI_u64 h0 hc
  have r1 := readI_u64 h1 hfit
  have h2' := h2
  rw [← x1, ← List.take_append_drop times.length (times.flatMap fun t => [t.take 4, t.drop 4]), List.flatten_append,
    List.append_assoc] at h2'
  have r2 := fromfile_all (n := times.length) h2' (fun b hb => x3 b (List.mem_of_mem_take hb)) (by
    rw [List.length_take, x2]; omega)
  have r3 := fromfile_all h3 hrowsW rfl
  have hnc : ((c * 4 : Nat) : Int).tdiv ((4 : Nat) : Int) = c := by
    push_cast
    rw [Int.mul_tdiv_cancel _ (by omega)]
  have e2 : times.length * (c * 4) = rows.flatten.length * 4 := by rw [hrowsL]; ring
  have e3 : (c : Int) * (times.length : Int) = ((rows.flatten.length : Nat) : Int) := by
    rw [hrowsL]; push_cast; ring
  have hend : f.length ≤ 37 + 8 + 8 + times.length * 8 + rows.flatten.length * 4 := List.drop_eq_nil_iff.1 h4
  obtain ⟨fuel, hfuel⟩ : ∃ n, f.length = n + 1 := ⟨f.length - 1, by
    have : 0 < f.length := by rw [hf]; simp [header, gkyl0]
    omega⟩
  have hload : ∃ ctx', load unpack "True" cfg (if (Dict.get? ctx.other "grid_type").isSome then ctx.other
        else Dict.set ctx.other "grid_type" "uniform") f = .ok (.dynvec ⟨(times.flatMap fun t => [t.take 4, t.drop 4]).take times.length,
          times.length, c, rows.flatten⟩, ctx') := by
    refine ⟨metaCtx "True" (if (Dict.get? ctx.other "grid_type").isSome then ctx.other
        else Dict.set ctx.other "grid_type" "uniform") none, ?_⟩
    simp only [load, hh, bind, Except.bind]
    rw [if_neg (by norm_num), if_pos (by norm_num)]
    simp only [readT2, bind, Except.bind, hfuel, t2Loop, List.length_nil, Nat.zero_add, Nat.add_zero, if_true, r0, r1,
      Int.toNat_natCast, hnc]
    rw [if_neg (by omega)]
    rw [show (37 + 16 : Nat) = 37 + 8 + 8 by omega, r2, e2, e3, r3, if_neg (by simp [hrowsL]), if_neg (by simp), if_pos (by omega)]
    simp only [pure, Except.pure, List.nil_append]
    rw [if_neg]
    · intro h
      have h5 := congrArg List.length h
      rw [List.length_take, x2, List.length_nil] at h5
      have h6 := List.length_pos_iff.2 hne
      omega
  obtain ⟨ctx', hl⟩ := hload
  exact ⟨_, by simp only [GData.ofFile, hcomp, hl, bind, Except.bind, pure, Except.pure]; rfl, rfl, rfl⟩
/-- C07: two time stamps, one component: the times loaded are the two halves of the first time stamp. -/
example (unpack : Bytes → Except Err (Option (Dict String))) (dec : Word → Int) :
    ∃ d, GData.ofFile unpack dec (Cfg.make [] none) [] [] {} (header 2 [] ++ u64 1 ++ u64 (1 * 4) ++ u64 2 ++
        [[1, 2, 3, 4, 5, 6, 7, 8], [9, 9, 9, 9, 9, 9, 9, 9]].flatten ++ [[[0, 0, 0, 1]], [[0, 0, 0, 2]]].flatten.flatten) = .ok d ∧
      d.grid = some [NArr.ofList [dec [1, 2, 3, 4], dec [5, 6, 7, 8]]] := by
  obtain ⟨d, h1, h2, -⟩ := C07_single_precision_fails (unpack := unpack) (dec := dec) (c := 1) (by norm_num)
    (times := [[1, 2, 3, 4, 5, 6, 7, 8], [9, 9, 9, 9, 9, 9, 9, 9]]) (rows := [[[0, 0, 0, 1]], [[0, 0, 0, 2]]])
    (by simp) (by simp) (by simp) rfl (by simp) (by simp) (Cfg.make [] none) [] [] {}
  exact ⟨d, h1, h2⟩

/-- **C07.**  A piece of another type after the first pieces is rejected. -/
theorem C07_other_type_rejected {c : Nat} (hc : c * 8 < 2 ^ 63) {ks : List Chunk} (hks : ks ≠ [])
    (hk : ∀ k ∈ ks, k.OK c) (hu : ∀ k ∈ ks, k.metaBytes = [] ∨ ∃ u, unpack k.metaBytes = .ok u)
    {ft rt : Nat} {mb rest : Bytes} (hft : ft < 2 ^ 63) (hrt : rt < 2 ^ 63) (hmb : mb.length < 2 ^ 63)
    (hmu : mb = [] ∨ ∃ u, unpack mb = .ok u) (h2 : ft ≠ 2)
    (cfg : Cfg) (tag label : List Char) (ctx : Ctx F) :
    GData.ofFile unpack dec cfg tag label ctx
      (ks.flatMap (Chunk.bytes c) ++ (header ft mb ++ u64 rt ++ rest)) = .error .typeError := by
  have hM : ∀ mb : Bytes, (mb = [] ∨ ∃ u, unpack mb = .ok u) → ∃ u, MetaIs unpack mb u := by
    intro mb h
    rcases h with h | ⟨u, h⟩
    · exact ⟨none, Or.inl ⟨h, rfl⟩⟩
    · by_cases hm : mb = []
      · exact ⟨none, Or.inl ⟨hm, rfl⟩⟩
      · exact ⟨u, Or.inr ⟨hm, h⟩⟩
  cases ks with
  | nil => exact absurd rfl hks
  | cons k ks =>
    obtain ⟨h1, _, h3⟩ := load_t2 (unpack := unpack) (tt := "True") hc hk
      (fun q hq => hM _ (hu q hq)) cfg
      (if (Dict.get? ctx.other "grid_type").isSome then ctx.other
        else Dict.set ctx.other "grid_type" "uniform") (header ft mb ++ u64 rt ++ rest) rfl
    obtain ⟨u, hmu'⟩ := hM _ hmu
    have := h3 ft mb rt rest u rfl hft hrt hmb hmu' h2
    simp only [GData.ofFile, h1, this, bind, Except.bind]

/-- **C08.**  The metadata of a field file is available after loading it, with or without
restrictions (`cells`, bounds, component count and grid type always describe the data itself). -/
theorem C08_metadata_available {x : Spec.Field} (hx : x.OK (realSize x.realType))
    {m : Dict String} (hm : x.metaBytes ≠ []) (hu : unpack x.metaBytes = .ok (some m))
    (hnd : (m.map Prod.fst).Nodup)
    {data : NArr Word} (hd : IsData x.realType data) (hs : data.shape = x.shape)
    (h6 : x.cells.length ≤ 6) {rs : List Restr} {cr : Restr}
    (hr : List.Forall₂ Restr.OK x.cells rs) (hc : cr.OK x.comps)
    (tag label : List Char) (ctx : Ctx F) :
    ∃ d, GData.ofFile unpack dec (Cfg.make (rs.map Restr.text) cr.text) tag label ctx
        (fieldFile x data) = .ok d ∧ MetaAvailable ctx.other m d.ctx.other :=
  ⟨_, open_t1 hx hx.size (le_refl _) (Or.inr ⟨hm, hu⟩) (fun _ => h6) (restrsOK_iff.1 hr) hc hd hs
    tag label ctx, metaAvailable hnd _ (prior_ok ctx) _⟩

/-- **C08** for multi-range files. -/
theorem C08_metadata_available_multi {x : Spec.Field} (hx : x.OK (realSize x.realType))
    {m : Dict String} (hm : x.metaBytes ≠ []) (hu : unpack x.metaBytes = .ok (some m))
    (hnd : (m.map Prod.fst).Nodup)
    {rgs : List Spec.Range} (hrs : ∀ r ∈ rgs, r.OK x) (hn : rgs.length < 2 ^ 63)
    (h6 : x.cells.length ≤ 6) {rs : List Restr} {cr : Restr}
    (hr : List.Forall₂ Restr.OK x.cells rs) (hc : cr.OK x.comps)
    (tag label : List Char) (ctx : Ctx F) :
    ∃ d, GData.ofFile unpack dec (Cfg.make (rs.map Restr.text) cr.text) tag label ctx
        (multiFile x rgs) = .ok d ∧ MetaAvailable ctx.other m d.ctx.other := by
  obtain ⟨a, g1, g2, g3, g4⟩ := open_t3 (dec := dec) hx (Or.inr ⟨hm, hu⟩) (fun _ => h6)
    (restrsOK_iff.1 hr) hc hrs hn tag label ctx
  exact ⟨_, g4, metaAvailable hnd _ (prior_ok ctx) _⟩

end

section exact
variable {F : Type} [_root_.Field F] [CharZero F]
variable {unpack : Bytes → Except Err (Option (Dict String))} {dec : Word → F}

/-- **C04.**  In exact arithmetic the grid of a partial load is, axis by axis, the corresponding piece of
the grid of the full load, and the reported bounds are its first and last node. -/
theorem C04_partial_load_grid {x : Spec.Field} (hx : x.OK (realSize x.realType))
    {u : Option (Dict String)} (hu : x.metaBytes = [] ∨ unpack x.metaBytes = .ok u)
    {data : NArr Word} (hd : IsData x.realType data) (hs : data.shape = x.shape)
    (h6 : x.cells.length ≤ 6) {rs : List Restr} {cr : Restr}
    (hr : List.Forall₂ Restr.OK x.cells rs) (hc : cr.OK x.comps)
    (tag label : List Char) (ctx : Ctx F) :
    ∃ full part gf gp lo up,
      GData.ofFile unpack dec (Cfg.make [] none) tag label ctx (fieldFile x data) = .ok full ∧
      GData.ofFile unpack dec (Cfg.make (rs.map Restr.text) cr.text) tag label ctx
        (fieldFile x data) = .ok part ∧
      full.grid = some gf ∧ part.grid = some gp ∧ part.ctx.lower = some lo ∧
      part.ctx.upper = some up ∧ gf.length = x.cells.length ∧ gp.length = x.cells.length ∧
      ∀ (k n : Nat) (r : Restr), x.cells[k]? = some n → rs[k]? = some r →
        ∃ g : NArr F, gf[k]? = some g ∧ g.shape = [n + 1] ∧
          gp[k]? = some (g.slice [(r.start, r.stop n + 1)]) ∧
          lo[k]? = g.get? [r.start] ∧ up[k]? = g.get? [r.stop n] := by
  obtain ⟨u', hu'⟩ := metaIs_of hu
  have hr' := restrsOK_iff.1 hr
  have hpos := pos_of_restrs hr
  have hl : (x.lower.map dec).length = x.cells.length := by simp [hx.lowerLen]
  have hup : (x.upper.map dec).length = x.cells.length := by simp [hx.upperLen]
  refine ⟨_, _, _, _, _, _, open_full hx hpos hx.size (le_refl _) hu' hd hs tag label ctx,
    open_t1 hx hx.size (le_refl _) hu' (fun _ => h6) hr' hc hd hs tag label ctx,
    rfl, rfl, rfl, rfl, ?_, ?_, ?_⟩
  · rw [List.length_map, axesOf_length (restrsOK_all hpos) hl hup]
  · rw [List.length_map, axesOf_length hr' hl hup]
  intro k n r hk hkr
  have hrn : r.OK n := by
    have := List.forall₂_iff_get.1 hr
    have h1 := (List.getElem?_eq_some_iff.1 hk)
    have h2 := (List.getElem?_eq_some_iff.1 hkr)
    have := this.2 k h1.1 h2.1
    simp only [List.get_eq_getElem] at this
    rw [h1.2, h2.2] at this; exact this
  have hn0 : 0 < n := by obtain ⟨a, b, _⟩ := hrn; omega
  obtain ⟨l, u, e1, e2, e3⟩ := axesOf_get (pl := false) (restrsOK_all hpos) hl hup hk
    (r := .all) (by
      rw [List.getElem?_replicate, if_pos (List.getElem?_eq_some_iff.1 hk).1])
  obtain ⟨l', u', e1', e2', e3'⟩ := axesOf_get (pl := (cfgOf rs cr).partialLoad) hr' hl hup hk hkr
  rw [e1] at e1'; cases e1'
  rw [e2] at e2'; cases e2'
  have hfull : (let b := axisBounds false (n : Int) ((Restr.all.start : Int),
      ((n - Restr.all.stop n : Nat) : Int)) l u
      (b, linspace b.1 b.2 (Restr.all.stop n - Restr.all.start + 1))) =
      ((l, u), linspace l u (n + 1)) := by
    simp [axisBounds, Restr.start, Restr.stop]
  have hpl : (cfgOf rs cr).partialLoad = false → r.start = 0 ∧ n - r.stop n = 0 := by
    intro hp
    have := (make_partial_false hp).1 r.text (List.mem_map.2 ⟨r, List.mem_of_getElem? hkr, rfl⟩)
    exact all_text_none this
  have hb := axisBounds_eq hrn l u hpl
  have hnodes := piece_nodes hrn l u hpl
  obtain ⟨hs1, hs2, _⟩ := hrn
  refine ⟨NArr.ofList (linspace l u (n + 1)), ?_, ?_, ?_, ?_, ?_⟩
  · rw [List.getElem?_map, e3]
    simp only at hfull
    simp only [hfull, Option.map_some]
  · simp [linspace_length]
  · rw [List.getElem?_map, e3']
    simp only at hnodes
    simp only [hnodes, Option.map_some]
    rw [ofList_slice _ _ _ (by rw [linspace_length]; omega)]
  · rw [List.getElem?_map, e3', NArr.ofList_get?, linspace_get _ _ hn0 (by omega)]
    simp only [hb, Option.map_some]
  · rw [List.getElem?_map, e3', NArr.ofList_get?, linspace_get _ _ hn0 (by omega)]
    simp only [hb, Option.map_some]

end exact

/-! ## Non-vacuity: concrete files meeting the hypotheses -/
section witnesses

/-- an 8-byte word -/
private def w8 (b : UInt8) : Word := [b, 0, 0, 0, 0, 0, 0, 0]

/-- 3 × 2 cells, 2 components, metadata of one byte -/
private def x0 : Spec.Field := ⟨[7], 2, [3, 2], [w8 0, w8 1], [w8 3, w8 5], 2⟩

private def data0 : NArr Word := ⟨[3, 2, 2], (List.range 12).map fun n => w8 (UInt8.ofNat n)⟩

private theorem x0_ok : x0.OK (realSize x0.realType) where
  real := by decide
  metaLen := by decide
  dims := by decide
  cellsFit := by decide
  size := by decide
  elem := by decide
  comps := by decide
  lowerLen := by decide
  upperLen := by decide
  lowerW := by decide
  upperW := by decide

example : x0.OK (realSize x0.realType) ∧ IsData x0.realType data0 ∧ data0.shape = x0.shape ∧
    (∀ n ∈ x0.cells, 0 < n) :=
  ⟨x0_ok, ⟨rfl, by decide⟩, by decide, by decide⟩

private def restr0 : List Restr := [.neg (some 1) 1, .idx 1]

example : List.Forall₂ Restr.OK x0.cells restr0 ∧ (Restr.range (some 1) none).OK x0.comps ∧
    restr0.map Restr.text = [some "1:-1".toList, some "1".toList] := by
  refine ⟨.cons ⟨by decide, by decide, ?_⟩ (.cons ⟨by decide, by decide, ?_⟩ .nil),
    ⟨by decide, by decide, ?_⟩, by decide⟩
  · intro a k h; cases h; decide
  · intro a k h; cases h
  · intro a k h; cases h

/-- two overlapping ranges leaving one cell uncovered -/
private def ranges0 : List Spec.Range :=
  [⟨[1, 1], [2, 2], ⟨[2, 2, 2], (List.range 8).map fun n => w8 (UInt8.ofNat n)⟩⟩,
   ⟨[2, 1], [3, 1], ⟨[2, 1, 2], (List.range 4).map fun n => w8 (UInt8.ofNat (20 + n))⟩⟩]

example : (∀ r ∈ ranges0, r.OK x0) ∧ (∀ q ∈ ranges0, q.covers [2, 1] = false) ∧
    (∀ q ∈ ranges0, q.covers [1, 0] = true) := by
  refine ⟨?_, by decide, by decide⟩
  intro r hr
  simp only [ranges0, List.mem_cons, List.not_mem_nil, or_false] at hr
  rcases hr with rfl | rfl
  · exact ⟨by simp [Range.within, x0], by decide, rfl, by decide⟩
  · exact ⟨by simp [Range.within, x0], by decide, rfl, by decide⟩

private def chunks0 : List Chunk :=
  [⟨[7], [w8 0, w8 1], [[w8 2, w8 3], [w8 4, w8 5]]⟩, ⟨[], [w8 6], [[w8 7, w8 8]]⟩]

example : (∀ k ∈ chunks0, k.OK 2) ∧ chunks0.flatMap (·.times) ≠ [] := by
  refine ⟨?_, by decide⟩
  intro k hk
  simp only [chunks0, List.mem_cons, List.not_mem_nil, or_false] at hk
  rcases hk with rfl | rfl
  · exact ⟨by decide, by decide, by decide, by decide, by decide, by decide⟩
  · exact ⟨by decide, by decide, by decide, by decide, by decide, by decide⟩

/-- C08: a dictionary as the metadata library returns it -/
example : (([("polyOrder", "1"), ("basisType", "serendipity"), ("frame", "3")] :
    Dict String).map Prod.fst).Nodup := by decide

/-- C01, C55: a dataset with computed bounds; the encoding of integers below 256 in 8 bytes. -/
example : ∃ d : GData Nat, d.values = some ⟨[2, 1], [4, 5]⟩ ∧ d.numCells = some [2] ∧
    d.numComps = 1 ∧ d.bounds = .ok (some ([1], [3])) :=
  ⟨{ values := some ⟨[2, 1], [4, 5]⟩, grid := some [⟨[3], [1, 2, 3]⟩] }, rfl, rfl, rfl, by decide +kernel⟩

/-! ## Files and datasets the code gets wrong -/

/-- a single-precision file laid out as documented: bounds are 64-bit -/
private def x32 : Spec.Field := ⟨[], 1, [1], [w8 0], [[0, 0, 0, 0, 0, 0, 240, 63]], 1⟩

private def data32 : NArr Word := ⟨[1, 1], [[0, 0, 128, 63]]⟩

/-- **C02, disagreement.**  For `real_type` 1 the documentation says the bounds are 64-bit.  The reader
reads 32-bit bounds: this conforming file cannot be loaded. -/
theorem C02_float32_bounds_counterexample :
    x32.OK 8 ∧ IsData 1 data32 ∧ data32.shape = x32.shape ∧
    (match load (V := Unit) (fun _ => .error .fail) () (Cfg.make [] none) [] (fieldFile x32 data32) with
      | .error _ => true | .ok _ => false) = true := by
  refine ⟨?_, ⟨rfl, by decide⟩, by decide, by decide +kernel⟩
  constructor <;> decide

/-- **C55, disagreement.**  A dataset with two components is written with a `size` entry that counts
every component, where the documented layout has the number of cells. -/
theorem C55_size_entry_counterexample :
    ∃ d : GData Nat, d.values = some ⟨[1, 2], [4, 5]⟩ ∧ d.numCells = some [1] ∧ d.numComps = 2 ∧
      d.bounds = .ok (some ([1], [3])) ∧
      writeGkyl (fun n => w8 (UInt8.ofNat n)) d ≠ .ok (fieldFile ⟨[], 2, [1], [w8 1], [w8 3], 2⟩
        ⟨[1, 2], [w8 4, w8 5]⟩) := by
  refine ⟨{ values := some ⟨[1, 2], [4, 5]⟩, grid := some [⟨[2], [1, 3]⟩] }, rfl, rfl, rfl,
    by decide +kernel, by decide +kernel⟩

end witnesses

end Pgkyl
