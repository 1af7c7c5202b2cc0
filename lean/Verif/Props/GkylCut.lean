import Verif.Lemmas.GkylCut
import Verif.Props.Gkyl
/-!
# Property of `.gkyl` files that were cut short (C129)

An interrupted copy, a full disk or a crash while writing leaves the first `k` bytes of a file, `f.take k`.
-/

namespace Pgkyl
open Spec GkylReader

section
variable {F : Type} [Add F] [Sub F] [Mul F] [Div F] [IntCast F]
variable {unpack : Bytes → Except Err (Option (Dict String))} {dec : Word → F}

theorem ofFile_load {cfg : Cfg} {tag label : List Char} {ctx : Ctx F} {f : Bytes} {d : GData F}
    (h : GData.ofFile unpack dec cfg tag label ctx f = .ok d) :
    ∃ v r, compatible f = some v ∧ load unpack "True" cfg
      (if (Dict.get? ctx.other "grid_type").isSome then ctx.other
        else Dict.set ctx.other "grid_type" "uniform") f = .ok r := by
  rw [GData.ofFile] at h
  cases hc : compatible f with
  | none => simp only [hc] at h; cases h
  | some v =>
    simp only [hc, bind, Except.bind] at h
    split at h
    · cases h
    · next r hr => exact ⟨v, r, rfl, hr⟩

theorem refused {cfg : Cfg} {tag label : List Char} {ctx : Ctx F} {f : Bytes}
    (h : ∀ d, GData.ofFile unpack dec cfg tag label ctx f ≠ .ok d) :
    ∃ e, GData.ofFile unpack dec cfg tag label ctx f = .error e := by
  cases hd : GData.ofFile unpack dec cfg tag label ctx f with
  | error e => exact ⟨e, rfl⟩
  | ok d => exact absurd hd (h d)

theorem refused_t1 {x : Spec.Field} (hx : x.OK (realSize x.realType))
    (hpos : ∀ n ∈ x.cells, 0 < n) {asz : Nat} (hasz : asz < 2 ^ 63) (hasz' : x.cells.prod ≤ asz)
    {u : Option (Dict String)} (hu : MetaIs unpack x.metaBytes u)
    {data : NArr Word} (hd : IsData x.realType data) (hs : data.shape = x.shape)
    {f : Bytes} (hf : f = header 1 x.metaBytes ++ domainSz asz x ++ data.data.flatten)
    {k : Nat} (hk : k < f.length) (tag label : List Char) (ctx : Ctx F) :
    ∃ e, GData.ofFile unpack dec (Cfg.make [] none) tag label ctx (f.take k) = .error e := by
  apply refused
  intro d h
  obtain ⟨v, r, hc, hl⟩ := ofFile_load h
  have := load_t1_take hx hpos hasz hasz' hu _ hd hs hf hc hl
  omega

/-- **C129.**  A single-range file cut short anywhere is refused. -/
theorem C129_field {x : Spec.Field} (hx : x.OK (realSize x.realType))
    (hpos : ∀ n ∈ x.cells, 0 < n) {u : Option (Dict String)}
    (hu : x.metaBytes = [] ∨ unpack x.metaBytes = .ok u)
    {data : NArr Word} (hd : IsData x.realType data) (hs : data.shape = x.shape)
    {k : Nat} (hk : k < (fieldFile x data).length) (tag label : List Char) (ctx : Ctx F) :
    ∃ e, GData.ofFile unpack dec (Cfg.make [] none) tag label ctx ((fieldFile x data).take k) =
      .error e := by
  obtain ⟨u', hu'⟩ := metaIs_of hu
  exact refused_t1 hx hpos hx.size (le_refl _) hu' hd hs rfl hk tag label ctx

/-- **C129.**  A multi-range file cut short anywhere is refused. -/
theorem C129_multi {x : Spec.Field} (hx : x.OK (realSize x.realType))
    (hpos : ∀ n ∈ x.cells, 0 < n) {u : Option (Dict String)}
    (hu : x.metaBytes = [] ∨ unpack x.metaBytes = .ok u)
    {rgs : List Spec.Range} (hrs : ∀ r ∈ rgs, r.OK x) (hn : rgs.length < 2 ^ 63)
    {k : Nat} (hk : k < (multiFile x rgs).length) (tag label : List Char) (ctx : Ctx F) :
    ∃ e, GData.ofFile unpack dec (Cfg.make [] none) tag label ctx ((multiFile x rgs).take k) =
      .error e := by
  obtain ⟨u', hu'⟩ := metaIs_of hu
  apply refused
  intro d h
  obtain ⟨v, r, hc, hl⟩ := ofFile_load h
  have := load_t3_take hx hpos hu' _ hrs hn rfl hc hl
  omega

/-- **C129.**  What an interrupted save leaves behind is refused. -/
theorem C129_save [Min F] [Max F] {enc : F → Word} (henc : ∀ z, (enc z).length = 8)
    {d : GData F} {v : NArr F} {cells : List Nat} {nc : Nat} {lo up : List F}
    (hv : d.values = some v) (hwf : v.WF) (hshape : v.shape = cells ++ [nc])
    (hcells : d.numCells = some cells) (hnc : d.numComps = nc)
    (hb : d.bounds = .ok (some (lo, up))) (hlo : lo.length = cells.length)
    (hup : up.length = cells.length)
    (hpos : ∀ n ∈ cells, 0 < n) (hncpos : 0 < nc)
    (hfit : ∀ n ∈ cells, n < 2 ^ 63) (hdims : cells.length < 2 ^ 63) (hn8 : nc * 8 < 2 ^ 63)
    (hsize : v.data.length < 2 ^ 63) (tag label : List Char) (ctx : Ctx F) :
    ∃ f, writeGkyl enc d = .ok f ∧ ∀ k < f.length,
      ∃ e, GData.ofFile unpack dec (Cfg.make [] none) tag label ctx (f.take k) = .error e := by
  refine ⟨_, writeGkyl_eq hv hcells hnc hb hfit hdims hn8 hsize, ?_⟩
  have hlen : v.data.length = cells.prod * nc := by
    rw [hwf, hshape]; simp
  have hle : cells.prod ≤ v.data.length := by rw [hlen]; exact Nat.le_mul_of_pos_right _ hncpos
  have hx : (⟨[], 2, cells, lo.map enc, up.map enc, nc⟩ : Spec.Field).OK 8 :=
    { real := Or.inr rfl, metaLen := by simp, dims := hdims, cellsFit := hfit
      size := lt_of_le_of_lt hle hsize, elem := by simpa [realSize] using hn8, comps := hncpos
      lowerLen := by simpa using hlo, upperLen := by simpa using hup
      lowerW := by simp [henc], upperW := by simp [henc] }
  have hd : IsData 2 (v.map enc) := ⟨NArr.map_WF hwf, by simp [NArr.map, henc, realSize]⟩
  intro k hk
  exact refused_t1 hx hpos hsize hle (u := none) (Or.inl ⟨rfl, rfl⟩) hd
    (by simpa [Spec.Field.shape] using hshape) rfl hk tag label ctx

theorem take_pieces {c : Nat} : ∀ (ks : List Chunk) (k : Nat), k ≤ (ks.flatMap (Chunk.bytes c)).length →
    (∃ j, k = ((ks.take j).flatMap (Chunk.bytes c)).length ∧
      (ks.flatMap (Chunk.bytes c)).take k = (ks.take j).flatMap (Chunk.bytes c)) ∨
    ∃ pre q post p s, ks = pre ++ q :: post ∧ p ≠ [] ∧ s ≠ [] ∧ p ++ s = q.bytes c ∧
      (ks.flatMap (Chunk.bytes c)).take k = pre.flatMap (Chunk.bytes c) ++ p := by
  intro ks
  induction ks with
  | nil => intro k hk; left; exact ⟨0, by simpa using hk, by simp⟩
  | cons q ks ih =>
    intro k hk
    rcases Nat.lt_or_ge k (q.bytes c).length with hlt | hge
    · rcases Nat.eq_zero_or_pos k with h0 | h0
      · left; exact ⟨0, by simp [h0], by simp [h0]⟩
      · right
        refine ⟨[], q, ks, (q.bytes c).take k, (q.bytes c).drop k, rfl, ?_, ?_, List.take_append_drop _ _, ?_⟩
        · intro h; have := congrArg List.length h; rw [List.length_take, List.length_nil] at this; omega
        · intro h; have := congrArg List.length h; simp at this; omega
        · simp only [List.flatMap_cons, List.flatMap_nil, List.nil_append]
          rw [List.take_append_of_le_length (by omega)]
    · have hk' : k - (q.bytes c).length ≤ (ks.flatMap (Chunk.bytes c)).length := by
        simp only [List.flatMap_cons, List.length_append] at hk; omega
      have ht : ((q :: ks).flatMap (Chunk.bytes c)).take k =
          q.bytes c ++ (ks.flatMap (Chunk.bytes c)).take (k - (q.bytes c).length) := by
        rw [List.flatMap_cons, List.take_append, List.take_of_length_le hge]
      rcases ih _ hk' with ⟨j, h1, h2⟩ | ⟨pre, r, post, p, s, h1, h2, h3, h4, h5⟩
      · left
        refine ⟨j + 1, ?_, ?_⟩
        · simp only [List.take_succ_cons, List.flatMap_cons, List.length_append]; omega
        · rw [ht, h2]; simp
      · right
        refine ⟨q :: pre, r, post, p, s, by simp [h1], h2, h3, h4, ?_⟩
        rw [ht, h5]; simp

/-- **C129.**  A time trace cut short is refused, or loaded as the pieces that are complete in it: the
cut then fell between two pieces, at a state the trace really had. -/
theorem C129_trace {c : Nat} (hc0 : 0 < c) (hc : c * 8 < 2 ^ 63) {ks : List Chunk}
    (hk : ∀ k ∈ ks, k.OK c) (hu : ∀ k ∈ ks, k.metaBytes = [] ∨ ∃ u, unpack k.metaBytes = .ok u)
    {n : Nat} (hn : n ≤ (ks.flatMap (Chunk.bytes c)).length) (cfg : Cfg) (tag label : List Char)
    (ctx : Ctx F) :
    (∃ e, GData.ofFile unpack dec cfg tag label ctx ((ks.flatMap (Chunk.bytes c)).take n) = .error e) ∨
    ∃ j d, n = ((ks.take j).flatMap (Chunk.bytes c)).length ∧
      GData.ofFile unpack dec cfg tag label ctx ((ks.flatMap (Chunk.bytes c)).take n) = .ok d ∧
      d.grid = some [NArr.ofList (((ks.take j).flatMap (·.times)).map dec)] ∧
      d.values = some ⟨[((ks.take j).flatMap (·.times)).length, c],
        (((ks.take j).flatMap (·.rows)).flatten).map dec⟩ := by
  have hM : ∀ q ∈ ks, ∃ u, MetaIs unpack q.metaBytes u := by
    intro q hq
    rcases hu q hq with h | ⟨u, h⟩
    · exact ⟨none, Or.inl ⟨h, rfl⟩⟩
    · by_cases hm : q.metaBytes = []
      · exact ⟨none, Or.inl ⟨hm, rfl⟩⟩
      · exact ⟨u, Or.inr ⟨hm, h⟩⟩
  cases hd : GData.ofFile unpack dec cfg tag label ctx ((ks.flatMap (Chunk.bytes c)).take n) with
  | error e => exact Or.inl ⟨e, rfl⟩
  | ok d =>
    right
    obtain ⟨v, r, hcomp, hl⟩ := ofFile_load hd
    rcases take_pieces ks n hn with ⟨j, h1, h2⟩ | ⟨pre, q, post, p, s, h1, h2, h3, h4, h5⟩
    · rw [h2] at hd
      have hne : ¬ (ks.take j).flatMap (·.times) = [] := by
        intro h0
        rw [h2] at hl hcomp
        exact load_t2_empty hc (fun q hq => hk q (List.mem_of_mem_take hq))
          (fun q hq => hM q (List.mem_of_mem_take hq)) h0 cfg _ rfl hcomp hl
      obtain ⟨d', e1, e2, e3⟩ := C07_dynvector_concatenated (unpack := unpack) (dec := dec) hc (ks := ks.take j)
        (fun q hq => hk q (List.mem_of_mem_take hq)) (fun q hq => hu q (List.mem_of_mem_take hq)) hne cfg
        tag label ctx
      rw [hd] at e1
      obtain rfl : d = d' := by injection e1
      exact ⟨j, d, h1, rfl, e2, e3⟩
    · exact absurd hl (load_t2_take hc0 hc (ks := pre) (q := q)
        (fun r hr => hk r (by rw [h1]; simp at hr ⊢; tauto))
        (fun r hr => hM r (by rw [h1]; simp at hr ⊢; tauto)) cfg _ h2 h3 h4 h5 hcomp)

theorem part_of_load {cfg : Cfg} {tag label : List Char} {ctx : Ctx F} {f g : Bytes} {d : GData F} {v w : Int}
    (hf : compatible f = some v) (hg : compatible g = some w)
    (h : ∀ c r, load unpack "True" cfg c f = .ok r → load unpack "True" cfg c g = .ok r)
    (hd : GData.ofFile unpack dec cfg tag label ctx f = .ok d) :
    GData.ofFile unpack dec cfg tag label ctx g = .ok d := by
  rw [GData.ofFile] at hd ⊢
  simp only [hf, bind, Except.bind] at hd
  simp only [hg, bind, Except.bind]
  split at hd
  · cases hd
  · next r hr =>
    rw [h _ _ hr]
    exact hd

/-- **C129.**  A partial load of one component that succeeds on a file cut short gives what it gives on
the whole file: single-range and multi-range files. -/
theorem C129_part_partial {x : Spec.Field} (hx : x.OK (realSize x.realType))
    {u : Option (Dict String)} (hu : x.metaBytes = [] ∨ unpack x.metaBytes = .ok u)
    (h6 : x.cells.length ≤ 6) {rs : List Restr} {cr : Restr}
    (hr : List.Forall₂ Restr.OK x.cells rs) (hc : cr.OK x.comps) (hone : cr.stop x.comps = cr.start + 1)
    (hsome : cr.text.isSome = true ∨ ∃ r ∈ rs, r.text.isSome = true) {f : Bytes}
    (hf : (∃ data, IsData x.realType data ∧ data.shape = x.shape ∧ f = fieldFile x data) ∨
      ∃ rgs : List Spec.Range, (∀ r ∈ rgs, r.OK x) ∧ rgs.length < 2 ^ 63 ∧ f = multiFile x rgs)
    (k : Nat) (tag label : List Char) (ctx : Ctx F) {d : GData F}
    (h : GData.ofFile unpack dec (Cfg.make (rs.map Restr.text) cr.text) tag label ctx (f.take k) = .ok d) :
    GData.ofFile unpack dec (Cfg.make (rs.map Restr.text) cr.text) tag label ctx f = .ok d := by
  obtain ⟨u', hu'⟩ := metaIs_of hu
  obtain ⟨v, _, hcomp, _⟩ := ofFile_load h
  have hp : (Cfg.make (rs.map Restr.text) cr.text).partialLoad = true := by
    simp only [Cfg.make, Bool.or_eq_true, List.any_map, List.any_eq_true, Function.comp]
    rcases hsome with h | ⟨r, h1, h2⟩
    · exact Or.inr h
    · exact Or.inl ⟨r, h1, h2⟩
  have hnc : ∀ asz, (domOf asz x rs cr).numComps = 1 := by
    intro asz; simp only [domOf]; omega
  refine part_of_load hcomp (compatible_take hcomp).1 ?_ h
  intro c r hl
  rcases hf with ⟨data, hd, hs, hf⟩ | ⟨rgs, hrs, hn, hf⟩
  · obtain ⟨st, st', e1, e2, e3, e4, e5, e6, e7, e8⟩ :=
      load_head (ft := 1) (tt := "True") (rest := data.data.flatten) hx (by norm_num) hx.size hu' c (fun _ => h6) (restrsOK_iff.1 hr) hc
        (f := f) (by rw [hf, fieldFile]; rfl)
    simp only [load, bind, Except.bind] at hl ⊢
    cases g1 : readHeader unpack "True" (f.take k) { ctx := c } with
    | error e => simp only [g1] at hl; cases hl
    | ok t =>
      have ht := (readHeader_take hcomp g1).1
      simp only [g1] at hl
      simp only [ht]
      rw [e1] at ht
      obtain rfl : st = t := by injection ht
      have h1 : st.fileType = 1 ∨ st.fileType = 3 ∨ st.version = 0 := by rw [e2]; simp
      rw [if_pos h1] at hl ⊢
      split at hl
      · cases hl
      · next q g2 =>
        have hq := (readDomain_take g2).1
        rw [hq]
        rw [cfgOf] at e5
        rw [e5] at hq
        obtain rfl : (domOf x.cells.prod x rs cr, st') = q := by injection hq
        have ht1 : st'.fileType = 1 ∨ st'.version = 0 := by rw [e6]; simp [e2]
        simp only at hl ⊢
        rw [if_pos ht1] at hl ⊢
        split at hl
        · cases hl
        · next a ha =>
          rw [readT1_take hp (by rw [e6]; simp only [e7]; exact realSize_pos _) (hnc _) ha]
          exact hl
  · obtain ⟨st, st', e1, e2, e3, e4, e5, e6, e7, e8⟩ :=
      load_head (tt := "True") (ft := 3) (rest := u64 rgs.length ++ rgs.flatMap Range.bytes) hx (by norm_num) hx.size hu' c (fun _ => h6) (restrsOK_iff.1 hr) hc
        (f := f) (by rw [hf, multiFile]; simp [Field.domain, domainSz])
    simp only [load, bind, Except.bind] at hl ⊢
    cases g1 : readHeader unpack "True" (f.take k) { ctx := c } with
    | error e => simp only [g1] at hl; cases hl
    | ok t =>
      have ht := (readHeader_take hcomp g1).1
      simp only [g1] at hl
      simp only [ht]
      rw [e1] at ht
      obtain rfl : st = t := by injection ht
      have h1 : st.fileType = 1 ∨ st.fileType = 3 ∨ st.version = 0 := by rw [e2]; simp
      rw [if_pos h1] at hl ⊢
      split at hl
      · cases hl
      · next q g2 =>
        have hq := (readDomain_take g2).1
        rw [hq]
        rw [cfgOf] at e5
        rw [e5] at hq
        obtain rfl : (domOf x.cells.prod x rs cr, st') = q := by injection hq
        have ht1 : ¬ (st'.fileType = 1 ∨ st'.version = 0) := by rw [e6]; simp [e2, e3]
        have ht2 : ¬ st'.fileType = 2 := by rw [e6]; simp [e2]
        simp only at hl ⊢
        rw [if_neg ht1, if_neg ht2] at hl ⊢
        split at hl
        · cases hl
        · next a ha =>
          rw [readT3_take hp (by rw [e6]; simp only [e7]; exact realSize_pos _) (hnc _) ha]
          exact hl

end

section witnesses
namespace CutEx

/-- an 8-byte word -/
def w8 (b : UInt8) : Word := [b, 0, 0, 0, 0, 0, 0, 0]

/-- the first byte as a number -/
def dec8 (w : Word) : Int := (w.headD 0).toNat

/-- two cells with three components -/
def x : Spec.Field := ⟨[7], 2, [2], [w8 0], [w8 2], 3⟩

def data : NArr Word := ⟨[2, 3], (List.range 6).map fun n => w8 (UInt8.ofNat (n + 1))⟩

theorem x_ok : x.OK (realSize x.realType) where
  real := by decide
  metaLen := by decide
  dims := by decide
  cellsFit := by decide
  size := by decide
  elem := by decide
  comps := by decide
  lowerLen := by decide
  upperLen := by decide
  lowerW := by decide
  upperW := by decide

/-- an `unpack` accepting everything -/
def noMeta (_ : Bytes) : Except Err (Option (Dict String)) := .ok none

end CutEx

open CutEx in
/-- **C129, disagreement.**  A partial load of several components can succeed on a file cut short and
give values that are not in the file: of the three components of the last cell only the first, `4`, is
left, and NumPy copies it to all three. -/
theorem C129_part_fails :
    (fieldFile x data).length = 134 ∧
    ((GData.ofFile noMeta dec8 (Cfg.make [some "1".toList] none) [] [] {} (fieldFile x data)).toOption.map
      fun d => d.values) = some (some ⟨[1, 3], [4, 5, 6]⟩) ∧
    ((GData.ofFile noMeta dec8 (Cfg.make [some "1".toList] none) [] [] {}
      ((fieldFile x data).take 118)).toOption.map fun d => d.values) = some (some ⟨[1, 3], [4, 4, 4]⟩) := by
  refine ⟨by decide +kernel, by decide +kernel, by decide +kernel⟩

open CutEx in
/-- C129_field, C129_part_partial: a file and a restriction; the part of the first cell can be loaded from
the file without its last word, the whole file cannot. -/
example : x.OK (realSize x.realType) ∧ IsData x.realType data ∧ data.shape = x.shape ∧
    (∀ n ∈ x.cells, 0 < n) ∧ List.Forall₂ Restr.OK x.cells [.idx 0] ∧ (Restr.idx 2).OK x.comps ∧
    ((GData.ofFile noMeta dec8 (Cfg.make [some "0".toList] (some "2".toList)) [] [] {}
      ((fieldFile x data).take 126)).toOption.map fun d => d.values) = some (some ⟨[1, 1], [3]⟩) ∧
    (GData.ofFile noMeta dec8 (Cfg.make [] none) [] [] {}
      ((fieldFile x data).take 126)).toOption.isNone = true := by
  refine ⟨x_ok, ⟨rfl, by decide⟩, by decide, by decide, .cons ⟨by decide, by decide, ?_⟩ .nil,
    ⟨by decide, by decide, ?_⟩, by decide +kernel, by decide +kernel⟩
  · intro a k h; cases h
  · intro a k h; cases h

open CutEx in
/-- C129_trace: a trace of two pieces; cut between the pieces it is the first piece, cut inside the second
it is refused. -/
example : (∀ q ∈ ([⟨[7], [w8 0], [[w8 2]]⟩, ⟨[], [w8 6], [[w8 7]]⟩] : List Chunk), q.OK 1) ∧
    ((GData.ofFile noMeta dec8 {} [] [] {} ((([⟨[7], [w8 0], [[w8 2]]⟩, ⟨[], [w8 6], [[w8 7]]⟩] :
      List Chunk).flatMap (Chunk.bytes 1)).take 70)).toOption.map fun d => d.values) =
        some (some ⟨[1, 1], [2]⟩) ∧
    (GData.ofFile noMeta dec8 {} [] [] {} ((([⟨[7], [w8 0], [[w8 2]]⟩, ⟨[], [w8 6], [[w8 7]]⟩] :
      List Chunk).flatMap (Chunk.bytes 1)).take 136)).toOption.isNone = true := by
  refine ⟨?_, by decide +kernel, by decide +kernel⟩
  intro k hk
  simp only [List.mem_cons, List.not_mem_nil, or_false] at hk
  rcases hk with rfl | rfl
  · exact ⟨by decide, by decide, by decide, by decide, by decide, by decide⟩
  · exact ⟨by decide, by decide, by decide, by decide, by decide, by decide⟩

open CutEx in
/-- C129_multi: a file of two ranges, refused without its last byte -/
example : (∀ r ∈ ([⟨[1], [1], ⟨[1, 3], [w8 1, w8 2, w8 3]⟩⟩, ⟨[2], [2], ⟨[1, 3], [w8 4, w8 5, w8 6]⟩⟩] :
      List Spec.Range), r.OK x) ∧
    (GData.ofFile noMeta dec8 (Cfg.make [] none) [] [] {} ((multiFile x
      [⟨[1], [1], ⟨[1, 3], [w8 1, w8 2, w8 3]⟩⟩, ⟨[2], [2], ⟨[1, 3], [w8 4, w8 5, w8 6]⟩⟩]).take
        189)).toOption.isNone = true ∧
    (GData.ofFile noMeta dec8 (Cfg.make [] none) [] [] {} ((multiFile x
      [⟨[1], [1], ⟨[1, 3], [w8 1, w8 2, w8 3]⟩⟩, ⟨[2], [2], ⟨[1, 3], [w8 4, w8 5, w8 6]⟩⟩]).take
        190)).toOption.isNone = false := by
  refine ⟨?_, by decide +kernel, by decide +kernel⟩
  intro r hr
  simp only [List.mem_cons, List.not_mem_nil, or_false] at hr
  rcases hr with rfl | rfl
  · exact ⟨by simp [Range.within, x], by decide, rfl, by decide⟩
  · exact ⟨by simp [Range.within, x], by decide, rfl, by decide⟩

end witnesses
end Pgkyl
