import Verif.Lemmas.GkylLoad
import Verif.Model.GDataFile
/-! `load` and `GData.ofFile` on whole files. -/

namespace Pgkyl
namespace GkylReader
open Spec

variable {V : Type} {unpack : Bytes → Except Err (Option (Dict V))} {tt : V}

/-- a field file with an arbitrary value in the `size` entry -/
def domainSz (asz : Nat) (x : Spec.Field) : Bytes :=
  u64 x.realType ++ u64 x.cells.length ++ x.cells.flatMap u64 ++ x.lower.flatten ++
    x.upper.flatten ++ u64 (x.comps * realSize x.realType) ++ u64 asz

/-- header and domain of a field file -/
theorem load_head {f rest : Bytes} {x : Spec.Field} (hx : x.OK (realSize x.realType)) {ft : Nat}
    (hft : ft < 2 ^ 63) {asz : Nat} (hasz : asz < 2 ^ 63) {u : Option (Dict V)}
    (hu : MetaIs unpack x.metaBytes u) (ctx : Dict V)
    {rs : List Restr} {cr : Restr} (h6 : (cfgOf rs cr).partialLoad = true → x.cells.length ≤ 6)
    (hr : RestrsOK x.cells rs) (hc : cr.OK x.comps)
    (hf : f = header ft x.metaBytes ++ domainSz asz x ++ rest) :
    ∃ st st' : St V, readHeader unpack tt f { ctx := ctx } = .ok st ∧
      st.fileType = ft ∧ st.version = 1 ∧ st.ctx = metaCtx tt ctx u ∧
      readDomain (cfgOf rs cr) f st = .ok (domOf asz x rs cr, st') ∧
      st' = { st with offset := st'.offset } ∧ st.dof = realSize x.realType ∧
      f.drop st'.offset = rest := by
  have hcomp : compatible f = some 1 := compatible_ok (rest := u64 ft ++ u64 x.metaBytes.length ++
    x.metaBytes ++ domainSz asz x ++ rest) (by rw [hf, header]; simp)
  have hrt : x.realType < 2 ^ 63 := by rcases hx.real with h | h <;> omega
  have hh := readHeader_ok (unpack := unpack) (tt := tt) (st := { ctx := ctx }) (ft := ft)
    (rt := x.realType) (mb := x.metaBytes) (u := u)
    (rest := u64 x.cells.length ++ x.cells.flatMap u64 ++ x.lower.flatten ++
    x.upper.flatten ++ u64 (x.comps * realSize x.realType) ++ u64 asz ++ rest) hcomp
    (by simp only [List.drop_zero]; rw [hf, domainSz]; simp) hft hrt hx.metaLen hu
  have hd : f.drop (37 + x.metaBytes.length) = u64 x.cells.length ++ x.cells.flatMap u64 ++
      x.lower.flatten ++ x.upper.flatten ++ u64 (x.comps * realSize x.realType) ++ u64 asz ++ rest := by
    have := drop_add (f := f) (off := 0) (a := header ft x.metaBytes ++ u64 x.realType)
      (b := u64 x.cells.length ++ x.cells.flatMap u64 ++
      x.lower.flatten ++ x.upper.flatten ++ u64 (x.comps * realSize x.realType) ++ u64 asz ++ rest)
      (k := 37 + x.metaBytes.length) (by simp only [List.drop_zero]; rw [hf, domainSz]; simp)
      (by simp only [header, List.length_append, u64_length, gkyl0_length]; omega)
    rw [Nat.zero_add] at this; exact this
  obtain ⟨st', e1, e2, e3⟩ := readDomain_restr (V := V) (f := f) (rest := rest)
    (st := { offset := 0 + 37 + x.metaBytes.length, dof := if x.realType = 1 then 4 else 8,
             fileType := ft, version := 1, ctx := metaCtx tt ctx u })
    hx rfl rfl hasz h6 hr hc (by simpa using hd)
  exact ⟨_, st', hh, rfl, rfl, rfl, e1, e2, rfl, e3⟩

/-- windowed copy of an array -/
def window (data : NArr Word) (x : Spec.Field) (rs : List Restr) (cr : Restr) : NArr Word :=
  NArr.ofFn (winDims (winsOf x.cells rs) (cr.stop x.comps - cr.start)) fun idx =>
    data.get? (shift (winsOf x.cells rs) cr.start idx)

theorem load_t1 {f : Bytes} {x : Spec.Field} (hx : x.OK (realSize x.realType))
    {asz : Nat} (hasz : asz < 2 ^ 63) (hasz' : x.cells.prod ≤ asz) {u : Option (Dict V)}
    (hu : MetaIs unpack x.metaBytes u) (ctx : Dict V)
    {rs : List Restr} {cr : Restr} (h6 : (cfgOf rs cr).partialLoad = true → x.cells.length ≤ 6)
    (hr : RestrsOK x.cells rs) (hc : cr.OK x.comps)
    {data : NArr Word} (hd : IsData x.realType data) (hs : data.shape = x.shape)
    (hf : f = header 1 x.metaBytes ++ domainSz asz x ++ data.data.flatten) :
    load unpack tt (cfgOf rs cr) ctx f = .ok
      (.field (domOf asz x rs cr) (window data x rs cr), metaCtx tt ctx u) := by
  obtain ⟨st, st', e1, e2, e3, e4, e5, e6, e7, e8⟩ :=
    load_head (tt := tt) hx (by norm_num) hasz hu ctx h6 hr hc hf
  have e9 := readT1_ok (st := st') hasz' hr hc hd hs (by rw [e6]; exact e7) e8
  have ht : st'.fileType = 1 := by rw [e6]; simp [e2]
  simp only [load, e1, bind, Except.bind, e2, Nat.cast_one, true_or, if_true, e5, ht, e9, pure,
    Except.pure]
  rw [e6]; simp only [e4]; rfl

theorem load_t3 {f : Bytes} {x : Spec.Field} (hx : x.OK (realSize x.realType)) {u : Option (Dict V)}
    (hu : MetaIs unpack x.metaBytes u) (ctx : Dict V)
    {rs : List Restr} {cr : Restr} (h6 : (cfgOf rs cr).partialLoad = true → x.cells.length ≤ 6)
    (hr : RestrsOK x.cells rs) (hc : cr.OK x.comps)
    {rgs : List Spec.Range} (hrs : ∀ r ∈ rgs, r.OK x) (hn : rgs.length < 2 ^ 63)
    (hf : f = multiFile x rgs) :
    ∃ data, load unpack tt (cfgOf rs cr) ctx f = .ok
      (.field (domOf x.cells.prod x rs cr) data, metaCtx tt ctx u) ∧ data.WF ∧
      data.shape = winDims (winsOf x.cells rs) (cr.stop x.comps - cr.start) ∧
      ∀ idx, inRange data.shape idx = true →
        data.get? idx = Spec.assembled x rgs (shift (winsOf x.cells rs) cr.start idx) := by
  obtain ⟨st, st', e1, e2, e3, e4, e5, e6, e7, e8⟩ :=
    load_head (f := f) (ft := 3) (tt := tt) (rest := u64 rgs.length ++ rgs.flatMap Range.bytes) hx (by norm_num)
      hx.size hu ctx h6 hr hc (by rw [hf, multiFile]; simp [Field.domain, domainSz])
  obtain ⟨w1, w2, w3⟩ := winsOf_ok hr
  obtain ⟨data, d1, d2, d3, d4⟩ := readT3_ok (st := st') (cfg := cfgOf rs cr)
    (nc := cr.stop x.comps - cr.start) hx w2 w1
    (domOf_winIs hr hc) (fun h => cfgOf_full (ns := x.cells) x.comps h)
    (by obtain ⟨h1, h2, _⟩ := hc; omega) (by obtain ⟨h1, h2, _⟩ := hc; omega) hrs hn
    (by rw [e6]; exact e7) e8
  refine ⟨data, ?_, d2, d3, by rw [d3]; exact d4⟩
  have ht : st'.fileType = 3 := by rw [e6]; simp [e2]
  have hv : st'.version = 1 := by rw [e6]; simp [e3]
  simp only [load, e1, bind, Except.bind, e2, ht, hv, pure,
    Except.pure, e5]
  norm_num
  rw [d1]
  simp only
  rw [e6]; simp only [e4]

section
variable {F : Type} [Add F] [Sub F] [Mul F] [Div F] [IntCast F]

/-- the bounds and nodes of every axis of the piece -/
def axesOf (pl : Bool) : List Nat → List Restr → List F → List F → List ((F × F) × List F)
  | n :: ns, r :: rs, l :: ls, u :: us =>
    let b := axisBounds pl (n : Int) ((r.start : Int), ((n - r.stop n : Nat) : Int)) l u
    (b, linspace b.1 b.2 (r.stop n - r.start + 1)) :: axesOf pl ns rs ls us
  | _, _, _, _ => []

theorem uniformAxes_ok (pl : Bool) : ∀ {ns : List Nat} {rs : List Restr} {ls us : List F}
    (tail : List Nat), RestrsOK ns rs → ls.length = ns.length → us.length = ns.length →
    uniformAxes pl (List.zipWith (fun (n : Nat) r => ((Restr.stop n r - r.start : Nat) : Int)) ns rs)
      (ns.map fun (n : Nat) => (n : Int))
      ((winsOf ns rs).map fun w => ((w.2.1 : Int), (w.2.2 : Int))) ls us
      ((winsOf ns rs).map (fun w => w.1 - w.2.2 - w.2.1) ++ tail) = .ok (axesOf pl ns rs ls us) := by
  intro ns
  induction ns with
  | nil =>
    intro rs ls us tail h _ _
    cases rs <;> simp [RestrsOK, uniformAxes, axesOf] at *
  | cons n ns ih =>
    intro rs ls us tail h hl hu
    cases rs with
    | nil => simp [RestrsOK] at h
    | cons r rs =>
      cases ls with
      | nil => simp at hl
      | cons l ls =>
        cases us with
        | nil => simp at hu
        | cons u us =>
          obtain ⟨h1, h2, _⟩ := h.1
          have hm : n - (n - r.stop n) - r.start = r.stop n - r.start := by omega
          have := ih (rs := rs) (ls := ls) (us := us) tail h.2 (by simpa using hl) (by simpa using hu)
          simp only [winsOf, List.zipWith_cons_cons, List.map_cons, List.cons_append, uniformAxes]
          rw [winsOf] at this
          simp only [this, bind, Except.bind, pure, Except.pure, hm, ghostBounds, ne_eq,
            not_true, if_false, axesOf]

end

theorem take_winDims (wins : List (Nat × Nat × Nat)) (nc k : Nat) (h : wins.length = k) :
    (winDims wins nc).take k = wins.map fun w => w.1 - w.2.2 - w.2.1 := by
  rw [winDims, List.take_left' (by simpa using h)]

end GkylReader

namespace GData
open GkylReader Spec
variable {F : Type} [Add F] [Sub F] [Mul F] [Div F] [IntCast F]

/-- extents of the selected piece -/
def pieceCells (ns : List Nat) (rs : List Restr) : List Nat :=
  List.zipWith (fun n r => Restr.stop n r - r.start) ns rs

theorem winDims_piece {ns : List Nat} {rs : List Restr} (h : RestrsOK ns rs) :
    (winsOf ns rs).map (fun w => w.1 - w.2.2 - w.2.1) = pieceCells ns rs := by
  induction ns generalizing rs with
  | nil => cases rs <;> simp [winsOf, pieceCells]
  | cons n ns ih =>
    cases rs with
    | nil => simp [RestrsOK] at h
    | cons r rs =>
      have := ih h.2
      obtain ⟨h1, h2, _⟩ := h.1
      simp only [winsOf, pieceCells, List.zipWith_cons_cons, List.map_cons] at *
      rw [this]
      congr 1; omega

theorem ofFile_field {unpack : Bytes → Except Err (Option (Dict String))} {dec : Word → F}
    {x : Spec.Field} {rs : List Restr} {cr : Restr} {f : Bytes} {tag label : List Char} {ctx : Ctx F}
    {w asz : Nat} {a : NArr Word} {c : Dict String} (hx : x.OK w)
    (hr : RestrsOK x.cells rs)
    (hcomp : compatible f = some 1)
    (hload : load unpack "True" (cfgOf rs cr)
      (if (Dict.get? ctx.other "grid_type").isSome then ctx.other
      else Dict.set ctx.other "grid_type" "uniform") f = .ok (.field (domOf asz x rs cr) a, c))
    (hs : a.shape = winDims (winsOf x.cells rs) (cr.stop x.comps - cr.start)) :
    ofFile unpack dec (cfgOf rs cr) tag label ctx f = .ok
      { grid := some ((axesOf (cfgOf rs cr).partialLoad x.cells rs (x.lower.map dec)
          (x.upper.map dec)).map fun q => NArr.ofList q.2)
        values := some (a.map dec)
        ctx := {
          cells := some (pieceCells x.cells rs)
          numComps := some (cr.stop x.comps - cr.start)
          lower := some ((axesOf (cfgOf rs cr).partialLoad x.cells rs (x.lower.map dec)
            (x.upper.map dec)).map fun q => q.1.1)
          upper := some ((axesOf (cfgOf rs cr).partialLoad x.cells rs (x.lower.map dec)
            (x.upper.map dec)).map fun q => q.1.2)
          other := Dict.set c "grid_type" "uniform" }
        tag := tag
        customLabel := label } := by
  have hax := uniformAxes_ok (F := F) (cfgOf rs cr).partialLoad (ls := x.lower.map dec)
    (us := x.upper.map dec) [cr.stop x.comps - cr.start] hr (by simp [hx.lowerLen])
    (by simp [hx.upperLen])
  have hl : (winsOf x.cells rs).length = x.cells.length := by simp [winsOf, hr.length]
  simp only [ofFile, hcomp, hload, bind, Except.bind, hs]
  simp only [domOf, winDims] at hax ⊢
  rw [hax]
  simp only [pure, Except.pure, Int.toNat_natCast]
  have := take_winDims (winsOf x.cells rs) (cr.stop x.comps - cr.start) x.cells.length hl
  rw [winDims, winDims_piece hr] at this
  rw [winDims_piece hr, this]

end GData
end Pgkyl
