import Verif.Lemmas.GkylOfFile
import Verif.Lemmas.GData
import Mathlib.Tactic.FieldSimp
import Mathlib.Tactic.Ring
import Mathlib.Algebra.CharZero.Defs
import Mathlib.Data.Nat.Cast.Field
/-! Glue between the reader lemmas and the property statements; dynvectors; metadata. -/

namespace Pgkyl
namespace NArr
variable {α β : Type}

theorem map_get? (g : α → β) (a : NArr α) (idx : List Nat) : (a.map g).get? idx = (a.get? idx).map g := by
  by_cases h : inRange a.shape idx = true <;> simp [get?, map, h]

theorem map_WF {g : α → β} {a : NArr α} (h : a.WF) : (a.map g).WF := by
  simpa [WF, map] using h

@[simp] theorem map_shape (g : α → β) (a : NArr α) : (a.map g).shape = a.shape := rfl

theorem ofFn_map (g : α → β) (sh : List Nat) (f : List Nat → Option α) :
    (ofFn sh f).map g = ofFn sh fun i => (f i).map g := by
  simp only [ofFn, map, List.map_filterMap]

theorem slice_map (g : α → β) (a : NArr α) (sl : List (Nat × Nat)) :
    (a.map g).slice sl = (a.slice sl).map g := by
  simp only [slice, ofFn_map, map_get?, map_shape]

end NArr

namespace GkylReader
open Spec

theorem restrsOK_iff {ns : List Nat} {rs : List Restr} :
    List.Forall₂ Restr.OK ns rs ↔ RestrsOK ns rs := by
  induction ns generalizing rs with
  | nil => cases rs <;> simp [RestrsOK]
  | cons n ns ih => cases rs <;> simp [RestrsOK, ih]

theorem all_ok {n : Nat} (h : 0 < n) : Restr.OK n .all := by
  refine ⟨?_, ?_, ?_⟩
  · simpa [Restr.start, Restr.stop] using h
  · simp [Restr.stop]
  · intro a k h; cases h

/-- the slices a list of restrictions stands for -/
theorem window_slice {data : NArr Word} {x : Spec.Field} {rs : List Restr} {cr : Restr}
    (hr : RestrsOK x.cells rs) (hs : data.shape = x.shape) :
    window data x rs cr = data.slice (List.zipWith (fun n r => (r.start, Restr.stop n r)) x.cells rs ++
      [(cr.start, cr.stop x.comps)]) := by
  have hl : rs.length = x.cells.length := hr.length
  have hdrop : data.shape.drop (List.zipWith (fun n r => (r.start, Restr.stop n r)) x.cells rs ++
      [(cr.start, cr.stop x.comps)]).length = [] := by
    rw [hs, Spec.Field.shape]; apply List.drop_eq_nil_of_le; simp [hl]
  have e1 : winDims (winsOf x.cells rs) (cr.stop x.comps - cr.start) =
      (List.zipWith (fun n r => (r.start, Restr.stop n r)) x.cells rs ++
      [(cr.start, cr.stop x.comps)]).map fun p => p.2 - p.1 := by
    rw [winDims, GData.winDims_piece hr, GData.pieceCells]
    simp [List.map_zipWith]
  have e2 : (winsOf x.cells rs).map (fun w => w.2.1) ++ [cr.start] =
      (List.zipWith (fun n r => (r.start, Restr.stop n r)) x.cells rs ++
      [(cr.start, cr.stop x.comps)]).map (·.1) := by
    simp [winsOf, List.map_zipWith]
  rw [window, NArr.slice]
  simp only [hdrop, List.map_nil, List.append_nil, e1]
  congr 1
  funext idx
  rw [shift, e2]

/-- no options at all is the same as giving no restriction on each axis -/
theorem cfgOf_all (k : Nat) : cfgOf (List.replicate k .all) .all = Cfg.make [] none := by
  have h1 : ((List.replicate k Restr.all).map Restr.text) = List.replicate k none := by
    simp [Restr.text]
  simp only [cfgOf, Cfg.make, h1, Restr.text]
  congr 1
  · simp [List.any_replicate]
  · congr 1
    apply List.map_congr_left
    intro i _
    simp only [List.getElem?_replicate, List.getElem?_nil]
    split <;> rfl

theorem cfgOf_all_partial (k : Nat) : (cfgOf (List.replicate k .all) .all).partialLoad = false := by
  rw [cfgOf_all]; rfl

theorem restrsOK_all {ns : List Nat} (h : ∀ n ∈ ns, 0 < n) :
    RestrsOK ns (List.replicate ns.length .all) := by
  induction ns with
  | nil => trivial
  | cons n ns ih =>
    exact ⟨all_ok (h n (by simp)), ih fun m hm => h m (by simp [hm])⟩

/-! ### dynvectors -/

variable {V : Type} {unpack : Bytes → Except Err (Option (Dict V))} {tt : V}

/-- One piece of a dynvector, header already read. -/
theorem t2Loop_step {f rest : Bytes} {k : Chunk} {c : Nat} (hk : k.OK c) (hc : c * 8 < 2 ^ 63)
    {acc : DynVec} {st : St V} (hdof : st.dof = 8) {fuel : Nat}
    (hf : f.drop st.offset = u64 (c * 8) ++ u64 k.times.length ++ k.times.flatten ++
      k.rows.flatten.flatten ++ rest) (hacc : acc.rows = 0 ∨ acc.comps = c)
    (hacc0 : acc.rows = 0 → acc.data = []) :
    ∃ o, f.drop o = rest ∧ (f.length ≤ o ↔ rest = []) ∧
    t2Loop unpack tt f (fuel + 1) acc st =
      (if rest = [] then
        .ok (⟨acc.time ++ k.times, acc.rows + k.times.length, c, acc.data ++ k.rows.flatten⟩,
          { st with offset := o })
       else (readHeader unpack tt f { st with offset := o }).bind fun st =>
        if st.fileType ≠ 2 then .error .typeError
        else t2Loop unpack tt f fuel (DynVec.mk (acc.time ++ k.times)
          (acc.rows + k.times.length) c (acc.data ++ k.rows.flatten)) st) := by
  have hrowsW : ∀ b ∈ k.rows.flatten, b.length = 8 := by
    intro b hb
    obtain ⟨r, hr, hb⟩ := List.mem_flatten.1 hb
    exact hk.rowsW r hr b hb
  have hrowsL : k.rows.flatten.length = k.times.length * c := by
    rw [List.length_flatten, ← hk.len]
    have : k.rows.map List.length = List.replicate k.rows.length c := by
      apply List.eq_replicate_iff.2
      refine ⟨by simp, ?_⟩
      intro b hb
      obtain ⟨r, hr, rfl⟩ := List.mem_map.1 hb
      exact hk.rowsLen r hr
    rw [this]; simp
  have h0 : f.drop st.offset = u64 (c * 8) ++ (u64 k.times.length ++ (k.times.flatten ++
      (k.rows.flatten.flatten ++ rest))) := by rw [hf]; simp
  have h1 := drop_add h0 (u64_length _)
  have h2 := drop_add h1 (u64_length _)
  have h3 := drop_add h2 (flatten_length hk.timesW)
  have h4 := drop_add h3 (flatten_length hrowsW)
  have r0 := readI_u64 h0 hc
  have r1 := readI_u64 h1 hk.fit
  have r2 := fromfile_all h2 hk.timesW rfl
  have r3 := fromfile_all h3 hrowsW rfl
  have hnc : ((c * 8 : Nat) : Int).tdiv 8 = c := by
    push_cast
    rw [Int.mul_tdiv_cancel _ (by omega)]
  refine ⟨st.offset + 8 + 8 + k.times.length * 8 + k.rows.flatten.length * 8, h4, ?_, ?_⟩
  · constructor
    · intro h; rw [← h4]; exact List.drop_eq_nil_of_le h
    · intro h; rw [h] at h4; exact List.drop_eq_nil_iff.1 h4
  · have hlen : f.length ≤ st.offset + 8 + 8 + k.times.length * 8 + k.rows.flatten.length * 8 ↔
        rest = [] := by
      constructor
      · intro h; rw [← h4]; exact List.drop_eq_nil_of_le h
      · intro h; rw [h] at h4; exact List.drop_eq_nil_iff.1 h4
    have e1 : st.offset + 16 = st.offset + 8 + 8 := by omega
    have e2 : k.times.length * (c * 8) = k.rows.flatten.length * 8 := by rw [hrowsL]; ring
    have e3 : (c : Int) * (k.times.length : Int) = ((k.rows.flatten.length : Nat) : Int) := by
      rw [hrowsL]; push_cast; ring
    simp only [t2Loop, r0, r1, bind, Except.bind, hdof, Int.toNat_natCast]
    rw [if_neg (by omega)]
    have hnc' : ((c * 8 : Nat) : Int).tdiv ((8 : Nat) : Int) = c := hnc
    rw [hnc', Int.toNat_natCast, e1, r2, e2, e3, r3, if_neg (by simp [hrowsL]),
      if_neg (by
        rintro ⟨ha, hb⟩
        rcases hacc with h | h
        · exact ha h
        · exact hb h)]
    have e4 : (if acc.rows = 0 then k.rows.flatten else acc.data ++ k.rows.flatten) =
        acc.data ++ k.rows.flatten := by
      split
      · next h => rw [hacc0 h]; rfl
      · rfl
    simp only [e4, hlen]
    by_cases hrest : rest = []
    · simp only [if_pos hrest, pure, Except.pure]
    · simp only [if_neg hrest]

/-- accumulated result of a list of chunks -/
def dynOf (c : Nat) (ks : List Chunk) : DynVec where
  time := ks.flatMap (·.times)
  rows := (ks.map fun k => k.times.length).sum
  comps := c
  data := ks.flatMap fun k => k.rows.flatten

theorem bytes_length_pos {c : Nat} {k : Chunk} : 0 < (Chunk.bytes c k).length := by
  simp [Chunk.bytes, header, gkyl0]; 

/-- The loop over the remaining chunks. -/
theorem t2Loop_ok {f : Bytes} {c : Nat} (hc : c * 8 < 2 ^ 63) {v : Int}
    (hcomp : compatible f = some v) (tail : Bytes) :
    ∀ (ks : List Chunk) (k : Chunk) (acc : DynVec) (st : St V) (fuel : Nat),
      (∀ q ∈ k :: ks, q.OK c) → (∀ q ∈ ks, ∃ u, MetaIs unpack q.metaBytes u) →
      st.dof = 8 → ks.length < fuel →
      f.drop st.offset = u64 (c * 8) ++ u64 k.times.length ++ k.times.flatten ++
        k.rows.flatten.flatten ++ (ks.flatMap (Chunk.bytes c) ++ tail) →
      (acc.rows = 0 ∨ acc.comps = c) → (acc.rows = 0 → acc.data = []) →
      (tail = [] → ∃ st', t2Loop unpack tt f fuel acc st = .ok
        (⟨acc.time ++ (k :: ks).flatMap (·.times),
          acc.rows + ((k :: ks).map fun k => k.times.length).sum, c,
          acc.data ++ (k :: ks).flatMap fun k => k.rows.flatten⟩, st')) ∧
      (∀ ft mb rt rest u, tail = header ft mb ++ u64 rt ++ rest → ft < 2 ^ 63 → rt < 2 ^ 63 →
        mb.length < 2 ^ 63 → MetaIs unpack mb u → ft ≠ 2 →
        t2Loop unpack tt f fuel acc st = .error .typeError) := by
  intro ks
  induction ks with
  | nil =>
    intro k acc st fuel hk _ hdof hfuel hf ha ha0
    obtain ⟨fuel, rfl⟩ : ∃ n, fuel = n + 1 := ⟨fuel - 1, by simp at hfuel; omega⟩
    obtain ⟨o, ho, hlen, hstep⟩ := t2Loop_step (unpack := unpack) (tt := tt) (fuel := fuel)
      (hk k (by simp)) hc hdof hf ha ha0
    constructor
    · intro ht
      subst ht
      refine ⟨{ st with offset := o }, ?_⟩
      rw [hstep, if_pos (by simp)]
      simp
    · intro ft mb rt rest u ht h1 h2 h3 h4 h5
      subst ht
      have hne : ¬ (([] : List Chunk).flatMap (Chunk.bytes c) ++ (header ft mb ++ u64 rt ++ rest)) =
          [] := by simp [header, gkyl0]
      rw [hstep, if_neg hne]
      have := readHeader_ok (unpack := unpack) (tt := tt) (st := { st with offset := o }) hcomp
        (by simpa using ho) h1 h2 h3 h4
      simp only [this, Except.bind]
      rw [if_pos (by omega)]
  | cons k' ks ih =>
    intro k acc st fuel hk hu hdof hfuel hf ha ha0
    obtain ⟨fuel, rfl⟩ : ∃ n, fuel = n + 1 := ⟨fuel - 1, by simp at hfuel; omega⟩
    obtain ⟨o, ho, hlen, hstep⟩ := t2Loop_step (unpack := unpack) (tt := tt) (fuel := fuel)
      (hk k (by simp)) hc hdof hf ha ha0
    have hne : ¬ ((k' :: ks).flatMap (Chunk.bytes c) ++ tail) = [] := by
      simp [Chunk.bytes, header, gkyl0]
    rw [if_neg hne] at hstep
    obtain ⟨u', hu'⟩ := hu k' (by simp)
    have hk' := hk k' (by simp)
    have hd1 : f.drop o = header 2 k'.metaBytes ++ u64 2 ++ (u64 (c * 8) ++ u64 k'.times.length ++
        k'.times.flatten ++ k'.rows.flatten.flatten ++ (ks.flatMap (Chunk.bytes c) ++ tail)) := by
      rw [ho]; simp [Chunk.bytes]
    have hh := readHeader_ok (unpack := unpack) (tt := tt) (st := { st with offset := o }) hcomp
      hd1 (by norm_num) (by norm_num) hk'.metaLen hu'
    have hd2 : f.drop (o + 37 + k'.metaBytes.length) = u64 (c * 8) ++ u64 k'.times.length ++
        k'.times.flatten ++ k'.rows.flatten.flatten ++ (ks.flatMap (Chunk.bytes c) ++ tail) := by
      rw [Nat.add_assoc]
      exact drop_add hd1 (by simp only [header, List.length_append, u64_length, gkyl0_length]; omega)
    simp only [hh, Except.bind] at hstep
    rw [if_neg (by norm_num)] at hstep
    rw [hstep]
    obtain ⟨i1, i2⟩ := ih k' ⟨acc.time ++ k.times, acc.rows + k.times.length, c,
        acc.data ++ k.rows.flatten⟩
      { offset := o + 37 + k'.metaBytes.length, dof := if (2 : Nat) = 1 then 4 else st.dof,
        fileType := ((2 : Nat) : Int), version := 1, ctx := metaCtx tt st.ctx u' } fuel
      (fun q hq => hk q (List.mem_cons_of_mem _ hq)) (fun q hq => hu q (List.mem_cons_of_mem _ hq))
      (by simpa using hdof) (by simp at hfuel; omega) hd2 (Or.inr rfl) (by
        intro h
        have h1 : acc.rows = 0 := by simp at h; omega
        have h2 : k.times.length = 0 := by simp at h; simp [h]
        have h3 : k.rows = [] := List.eq_nil_of_length_eq_zero (by
          rw [(hk k (by simp)).len, h2])
        simp [ha0 h1, h3])
    refine ⟨?_, i2⟩
    intro ht
    obtain ⟨st', hst⟩ := i1 ht
    refine ⟨st', ?_⟩
    rw [hst]
    simp [List.append_assoc, Nat.add_assoc]

theorem flatMap_bytes_length {c : Nat} (ks : List Chunk) :
    ks.length ≤ (ks.flatMap (Chunk.bytes c)).length := by
  induction ks with
  | nil => simp
  | cons k ks ih =>
    have := bytes_length_pos (c := c) (k := k)
    simp only [List.flatMap_cons, List.length_append, List.length_cons]
    omega

/-- The head of a dynvector file and the loop. -/
theorem load_t2 {f : Bytes} {c : Nat} (hc : c * 8 < 2 ^ 63) {ks : List Chunk} {k : Chunk}
    (hk : ∀ q ∈ k :: ks, q.OK c) (hu : ∀ q ∈ k :: ks, ∃ u, MetaIs unpack q.metaBytes u)
    (cfg : Cfg) (ctx : Dict V) (tail : Bytes)
    (hf : f = (k :: ks).flatMap (Chunk.bytes c) ++ tail) :
    compatible f = some 1 ∧
    (tail = [] → (k :: ks).flatMap (·.times) ≠ [] → ∃ ctx',
      load unpack tt cfg ctx f = .ok (.dynvec (dynOf c (k :: ks)), ctx')) ∧
    (∀ ft mb rt rest u, tail = header ft mb ++ u64 rt ++ rest → ft < 2 ^ 63 → rt < 2 ^ 63 →
        mb.length < 2 ^ 63 → MetaIs unpack mb u → ft ≠ 2 →
        load unpack tt cfg ctx f = .error .typeError) := by
  obtain ⟨u, hu0⟩ := hu k (by simp)
  have hk0 := hk k (by simp)
  have hd1 : f.drop 0 = header 2 k.metaBytes ++ u64 2 ++ (u64 (c * 8) ++ u64 k.times.length ++
      k.times.flatten ++ k.rows.flatten.flatten ++ (ks.flatMap (Chunk.bytes c) ++ tail)) := by
    rw [hf]; simp [Chunk.bytes]
  have hcomp : compatible f = some 1 := compatible_ok (rest := f.drop 13) (by
    have : f = (gkyl0 ++ u64 1) ++ f.drop 13 := by
      conv_lhs => rw [← List.take_append_drop 13 f]
      congr 1
      have hl : (gkyl0 ++ u64 1).length = 13 := by simp [u64_length, gkyl0_length]
      rw [List.drop_zero] at hd1
      rw [hd1, header]
      simp only [List.append_assoc]
      rw [← List.append_assoc gkyl0, List.take_left' hl]
    simpa using this)
  have hh := readHeader_ok (unpack := unpack) (tt := tt) (st := { ctx := ctx }) hcomp
    hd1 (by norm_num) (by norm_num) hk0.metaLen hu0
  have hd2 : f.drop (0 + 37 + k.metaBytes.length) = u64 (c * 8) ++ u64 k.times.length ++
      k.times.flatten ++ k.rows.flatten.flatten ++ (ks.flatMap (Chunk.bytes c) ++ tail) := by
    rw [Nat.add_assoc]
    exact drop_add hd1 (by simp only [header, List.length_append, u64_length, gkyl0_length]; omega)
  have hfuel : ks.length < f.length := by
    have h1 := flatMap_bytes_length (c := c) (k :: ks)
    rw [hf, List.length_append]
    simp only [List.length_cons] at h1 ⊢
    omega
  obtain ⟨i1, i2⟩ := t2Loop_ok (unpack := unpack) (tt := tt) hc hcomp tail ks k {}
      { offset := 0 + 37 + k.metaBytes.length, dof := if (2 : Nat) = 1 then 4 else 8,
        fileType := ((2 : Nat) : Int), version := 1, ctx := metaCtx tt ctx u } f.length
      hk (fun q hq => hu q (List.mem_cons_of_mem _ hq)) (by simp) hfuel hd2 (Or.inl rfl)
      (fun _ => rfl)
  refine ⟨hcomp, ?_, ?_⟩
  · intro ht hne
    obtain ⟨st', hst⟩ := i1 ht
    refine ⟨st'.ctx, ?_⟩
    simp only [load, hh, bind, Except.bind]
    rw [if_neg (by norm_num), if_pos (by norm_num)]
    simp only [readT2, bind, Except.bind, hst, List.nil_append, if_neg hne, pure, Except.pure,
      Nat.zero_add]
    rfl
  · intro ft mb rt rest u ht h1 h2 h3 h4 h5
    have := i2 ft mb rt rest u ht h1 h2 h3 h4 h5
    simp only [load, hh, bind, Except.bind]
    rw [if_neg (by norm_num), if_pos (by norm_num)]
    simp only [readT2, bind, Except.bind, this]

theorem halves_ok : ∀ {times : List Word}, (∀ b ∈ times, b.length = 8) →
    (times.flatMap fun t => [t.take 4, t.drop 4]).flatten = times.flatten ∧
    (times.flatMap fun t => [t.take 4, t.drop 4]).length = 2 * times.length ∧
    ∀ b ∈ times.flatMap fun t => [t.take 4, t.drop 4], b.length = 4
  | [], _ => by simp
  | t :: ts, h => by
    obtain ⟨h1, h2, h3⟩ := halves_ok (times := ts) fun b hb => h b (by simp [hb])
    have ht := h t (by simp)
    refine ⟨by simp [h1, ← List.append_assoc], by simp [h2]; omega, fun b hb => ?_⟩
    simp only [List.flatMap_cons, List.cons_append, List.nil_append, List.mem_cons] at hb
    rcases hb with rfl | rfl | hb
    · simp [ht]
    · simp [ht]
    · exact h3 b hb

/-! ### metadata -/

/-- value written to key `t` by a metadata entry -/
def wr (tt : V) (t : String) (kv : String × V) : Option V :=
  if t = "poly_order" then
    if kv.1 = "polyOrder" ∨ kv.1 = "poly_order" then some kv.2 else none
  else if t = "basis_type" then
    if kv.1 = "basisType" ∨ kv.1 = "basis_type" then some kv.2 else none
  else if t = "is_modal" then
    if kv.1 = "basisType" ∨ kv.1 = "basis_type" then some tt
    else if kv.1 = "is_modal" then some kv.2 else none
  else if kv.1 = t then some kv.2 else none

theorem metaStep_get (tt : V) (ctx : Dict V) (kv : String × V) (t : String)
    (h1 : t ≠ "polyOrder") (h2 : t ≠ "basisType") :
    Dict.get? (metaStep tt ctx kv) t = (wr tt t kv).or (Dict.get? ctx t) := by
  obtain ⟨k, v⟩ := kv
  simp only [metaStep, wr]
  by_cases hp : k = "polyOrder" ∨ k = "poly_order"
  · rw [if_pos hp, Dict.get?_set]
    have hb : ¬ (k = "basisType" ∨ k = "basis_type") := by
      rcases hp with rfl | rfl <;> decide
    have hm : ¬ k = "is_modal" := by rcases hp with rfl | rfl <;> decide
    by_cases ht : t = "poly_order"
    · simp [ht, hp]
    · have hkt : ¬ k = t := by
        rintro rfl
        rcases hp with h | h
        · exact h1 h
        · exact ht h
      simp [ht, hb, hm, hkt]
  · rw [if_neg hp]
    by_cases hb : k = "basisType" ∨ k = "basis_type"
    · rw [if_pos hb, Dict.get?_set, Dict.get?_set]
      by_cases ht : t = "poly_order"
      · subst ht; simp [hp]
      · by_cases hbt : t = "basis_type"
        · subst hbt; simp [hb]
        · by_cases hm : t = "is_modal"
          · subst hm; simp [hb]
          · have hkt : ¬ k = t := by
              rintro rfl
              rcases hb with h | h
              · exact h2 h
              · exact hbt h
            simp [ht, hbt, hm, hkt]
    · rw [if_neg hb, Dict.get?_set]
      by_cases ht : t = "poly_order"
      · have hk : ¬ "poly_order" = k := fun h => hp (Or.inr h.symm)
        subst ht; simp [hp, hk]
      · by_cases hbt : t = "basis_type"
        · have hk : ¬ "basis_type" = k := fun h => hb (Or.inr h.symm)
          subst hbt; simp [hb, hk]
        · by_cases hm : t = "is_modal"
          · subst hm
            by_cases hk : k = "is_modal"
            · simp [hk]
            · have hk' : ¬ "is_modal" = k := fun h => hk h.symm
              simp [hb, hk, hk']
          · by_cases hk : k = t
            · subst hk; simp [ht, hbt, hm]
            · have hk' : ¬ t = k := fun h => hk h.symm
              simp [ht, hbt, hm, hk, hk']

theorem metaFold_get (tt : V) (t : String) (h1 : t ≠ "polyOrder") (h2 : t ≠ "basisType") :
    ∀ (m ctx : Dict V), Dict.get? (m.foldl (metaStep tt) ctx) t =
      (m.reverse.findSome? (wr tt t)).or (Dict.get? ctx t) := by
  intro m
  induction m with
  | nil => intro ctx; simp
  | cons kv m ih =>
    intro ctx
    rw [List.foldl_cons, ih, metaStep_get tt ctx kv t h1 h2, List.reverse_cons,
      List.findSome?_append, Option.or_assoc]
    simp only [List.findSome?_cons, List.findSome?_nil]
    cases wr tt t kv <;> rfl

theorem findSome_eq {α β : Type} {l : List α} {g : α → Option β} {v : β}
    (h1 : ∀ a ∈ l, ∀ w, g a = some w → w = v) (h2 : ∃ a ∈ l, ∃ w, g a = some w) :
    l.reverse.findSome? g = some v := by
  obtain ⟨a, ha, w, hw⟩ := h2
  have hs : (l.reverse.findSome? g).isSome := by
    rw [List.findSome?_isSome_iff]
    exact ⟨a, List.mem_reverse.2 ha, by rw [hw]; rfl⟩
  obtain ⟨z, hz⟩ := Option.isSome_iff_exists.1 hs
  obtain ⟨b, hb, hgb⟩ := List.exists_of_findSome?_eq_some hz
  rw [hz, h1 b (List.mem_reverse.1 hb) z hgb]

theorem findSome_none {α β : Type} {l : List α} {g : α → Option β}
    (h : ∀ a ∈ l, g a = none) : l.reverse.findSome? g = none := by
  rw [List.findSome?_eq_none_iff]
  intro a ha; exact h a (List.mem_reverse.1 ha)

theorem nodup_val {m : Dict V} (hm : (m.map Prod.fst).Nodup) {k : String} {v w : V}
    (h1 : (k, v) ∈ m) (h2 : (k, w) ∈ m) : w = v := by
  have := List.inj_on_of_nodup_map hm h1 h2 rfl
  simpa using (Prod.mk.inj this).2.symm

/-- The context after the metadata. -/
theorem metaAvailable {m prior : Dict String} (hm : (m.map Prod.fst).Nodup) (prior' : Dict String)
    (hp : ∀ k, k ≠ "grid_type" → Dict.get? prior' k = Dict.get? prior k) (g : String) :
    MetaAvailable prior m (Dict.set (m.foldl (metaStep "True") prior') "grid_type" g) := by
  have key : ∀ t, t ≠ "grid_type" → t ≠ "polyOrder" → t ≠ "basisType" →
      Dict.get? (Dict.set (m.foldl (metaStep "True") prior') "grid_type" g) t =
      (m.reverse.findSome? (wr "True" t)).or (Dict.get? prior t) := by
    intro t h0 h1 h2
    rw [Dict.get?_set_ne _ _ h0, metaFold_get _ _ h1 h2, hp t h0]
  constructor
  · intro k v hk hr hs
    simp only [reservedKeys, spelledKeys, List.mem_cons, List.not_mem_nil, or_false, not_or] at hr hs
    rw [key k hr.2.2.2.2 hs.1 hs.2.2.1]
    rw [findSome_eq (v := v)]
    · rfl
    · rintro ⟨k', w⟩ hkw z hz
      simp only [wr, hs, if_false] at hz
      split at hz
      · next h =>
        subst h
        cases hz
        exact nodup_val hm hk hkw
      · cases hz
    · exact ⟨(k, v), hk, v, by simp [wr, hs]⟩
  · intro v hv hu
    rw [key _ (by decide) (by decide) (by decide), findSome_eq (v := v)]
    · rfl
    · rintro ⟨k', w⟩ hkw z hz
      simp only [wr, if_true] at hz
      split at hz
      · next h =>
        cases hz
        rcases h with h | h <;> subst h
        · exact hu _ (Or.inl hkw)
        · exact hu _ (Or.inr hkw)
      · cases hz
    · rcases hv with h | h
      · exact ⟨_, h, v, by simp [wr]⟩
      · exact ⟨_, h, v, by simp [wr]⟩
  · intro v hv hu
    rw [key _ (by decide) (by decide) (by decide), findSome_eq (v := v)]
    · rfl
    · rintro ⟨k', w⟩ hkw z hz
      simp only [wr] at hz
      rw [if_neg (by decide), if_pos trivial] at hz
      split at hz
      · next h =>
        cases hz
        rcases h with h | h <;> subst h
        · exact hu _ (Or.inl hkw)
        · exact hu _ (Or.inr hkw)
      · cases hz
    · rcases hv with h | h
      · exact ⟨_, h, v, by simp [wr]⟩
      · exact ⟨_, h, v, by simp [wr]⟩
  · intro hnm hb
    rw [key _ (by decide) (by decide) (by decide), findSome_eq (v := "True")]
    · rfl
    · rintro ⟨k', w⟩ hkw z hz
      simp only [wr] at hz
      rw [if_neg (by decide), if_neg (by decide), if_pos trivial] at hz
      split at hz
      · cases hz; rfl
      · split at hz
        · next h => subst h; exact absurd hkw (hnm w)
        · cases hz
    · obtain ⟨v, h | h⟩ := hb
      · exact ⟨_, h, "True", by simp [wr]⟩
      · exact ⟨_, h, "True", by simp [wr]⟩
  · intro hnm hb
    rw [key _ (by decide) (by decide) (by decide), findSome_none]
    · rfl
    · rintro ⟨k', w⟩ hkw
      simp only [wr]
      rw [if_neg (by decide), if_neg (by decide), if_pos trivial]
      rw [if_neg, if_neg]
      · rintro rfl; exact hnm w hkw
      · rintro (rfl | rfl)
        · exact (hb w).1 hkw
        · exact (hb w).2 hkw
  · intro k hr hs hk
    simp only [reservedKeys, spelledKeys, List.mem_cons, List.not_mem_nil, or_false, not_or] at hr hs
    rw [key k hr.2.2.2.2 hs.1 hs.2.2.1, findSome_none]
    · rfl
    · rintro ⟨k', w⟩ hkw
      simp only [wr, hs, if_false]
      rw [if_neg]
      rintro rfl; exact hk w hkw

end GkylReader
end Pgkyl

namespace Pgkyl
namespace GkylReader
open Spec

/-! ### grids in exact arithmetic -/

section exact
variable {F : Type} [Field F] [CharZero F]

theorem linspace_length {F : Type} [Add F] [Sub F] [Mul F] [Div F] [IntCast F] (lo up : F) (n : Nat) :
    (linspace lo up n).length = n := by simp [linspace]

theorem linspace_get (lo up : F) {m : Nat} (hm : 0 < m) {i : Nat} (hi : i ≤ m) :
    (linspace lo up (m + 1))[i]? = some (lo + (i : F) * ((up - lo) / (m : F))) := by
  have hm' : (m : F) ≠ 0 := by exact_mod_cast hm.ne'
  rw [linspace, List.getElem?_map, List.getElem?_range (by omega)]
  simp only [Option.map_some, Option.some.injEq]
  split
  · next h =>
    have : i = m := by omega
    subst this
    field_simp
    ring
  · push_cast
    rw [add_sub_cancel_right]; ring

omit [CharZero F] in
theorem axesOf_get {pl : Bool} : ∀ {ns : List Nat} {rs : List Restr} {ls us : List F},
    RestrsOK ns rs → ls.length = ns.length → us.length = ns.length →
    ∀ {k n : Nat} {r : Restr}, ns[k]? = some n → rs[k]? = some r →
    ∃ l u, ls[k]? = some l ∧ us[k]? = some u ∧
      (axesOf pl ns rs ls us)[k]? =
        (let b := axisBounds pl (n : Int) ((r.start : Int), ((n - r.stop n : Nat) : Int)) l u
         some (b, linspace b.1 b.2 (r.stop n - r.start + 1))) := by
  intro ns
  induction ns with
  | nil => intro rs ls us _ _ _ k n r hk; simp at hk
  | cons n ns ih =>
    intro rs ls us h hl hu k n' r' hk hr
    cases rs with
    | nil => simp [RestrsOK] at h
    | cons r rs =>
      cases ls with
      | nil => simp at hl
      | cons l ls =>
        cases us with
        | nil => simp at hu
        | cons u us =>
          cases k with
          | zero =>
            simp only [List.getElem?_cons_zero, Option.some.injEq] at hk hr
            subst hk hr
            exact ⟨l, u, rfl, rfl, rfl⟩
          | succ k =>
            simp only [List.getElem?_cons_succ] at hk hr ⊢
            simp only [axesOf, List.getElem?_cons_succ]
            exact ih h.2 (by simpa using hl) (by simpa using hu) hk hr

theorem axesOf_length {F : Type} [Add F] [Sub F] [Mul F] [Div F] [IntCast F] {pl : Bool} :
    ∀ {ns : List Nat} {rs : List Restr} {ls us : List F},
    RestrsOK ns rs → ls.length = ns.length → us.length = ns.length →
    (axesOf pl ns rs ls us).length = ns.length := by
  intro ns
  induction ns with
  | nil => intro rs ls us _ _ _; cases rs <;> simp [axesOf]
  | cons n ns ih =>
    intro rs ls us h hl hu
    cases rs with
    | nil => simp [RestrsOK] at h
    | cons r rs =>
      cases ls with
      | nil => simp at hl
      | cons l ls =>
        cases us with
        | nil => simp at hu
        | cons u us =>
          simp only [axesOf, List.length_cons]
          rw [ih h.2 (by simpa using hl) (by simpa using hu)]

/-- bounds of a piece -/
theorem axisBounds_eq {pl : Bool} {n : Nat} {r : Restr} (h : r.OK n) (l u : F)
    (hpl : pl = false → r.start = 0 ∧ n - r.stop n = 0) :
    axisBounds pl (n : Int) ((r.start : Int), ((n - r.stop n : Nat) : Int)) l u =
      (l + (r.start : F) * ((u - l) / (n : F)), l + (r.stop n : F) * ((u - l) / (n : F))) := by
  obtain ⟨h1, h2, _⟩ := h
  have hn : (n : F) ≠ 0 := by
    have : n ≠ 0 := by omega
    exact_mod_cast this
  cases pl with
  | false =>
    obtain ⟨e1, e2⟩ := hpl rfl
    have e3 : r.stop n = n := by omega
    simp only [axisBounds, Bool.false_eq_true, if_false, e1, e3]
    congr 1
    · simp
    · field_simp; ring
  | true =>
    simp only [axisBounds, if_true]
    congr 1
    · simp
    · rw [Int.cast_natCast, Nat.cast_sub h2]
      push_cast
      field_simp
      ring

/-- nodes of a piece -/
theorem piece_nodes {pl : Bool} {n : Nat} {r : Restr} (h : r.OK n) (l u : F)
    (hpl : pl = false → r.start = 0 ∧ n - r.stop n = 0) :
    (let b := axisBounds pl (n : Int) ((r.start : Int), ((n - r.stop n : Nat) : Int)) l u
     linspace b.1 b.2 (r.stop n - r.start + 1)) =
    ((linspace l u (n + 1)).take (r.stop n + 1)).drop r.start := by
  obtain ⟨h1, h2, h3⟩ := h
  have hn : (n : F) ≠ 0 := by
    have : n ≠ 0 := by omega
    exact_mod_cast this
  have hd : ((r.stop n - r.start : Nat) : F) ≠ 0 := by
    have : r.stop n - r.start ≠ 0 := by omega
    exact_mod_cast this
  rw [axisBounds_eq ⟨h1, h2, h3⟩ l u hpl]
  apply List.ext_getElem?
  intro i
  simp only
  by_cases hi : i ≤ r.stop n - r.start
  · rw [linspace_get _ _ (by omega) hi, List.getElem?_drop, List.getElem?_take, if_pos (by omega),
      linspace_get _ _ (by omega) (by omega)]
    congr 1
    have : (r.stop n : F) = (r.start : F) + ((r.stop n - r.start : Nat) : F) := by
      rw [Nat.cast_sub (by omega)]; ring
    rw [this]
    push_cast
    field_simp
    ring
  · rw [List.getElem?_eq_none (by rw [linspace_length]; omega), List.getElem?_eq_none
      (by simp [linspace_length]; omega)]

end exact

theorem ofList_slice {α : Type} (l : List α) (a b : Nat) (hb : b ≤ l.length) :
    (NArr.ofList l).slice [(a, b)] = NArr.ofList ((l.take b).drop a) := by
  have hlen : ((l.take b).drop a).length = b - a := by simp; omega
  have hsome : ∀ idx, inRange [b - a] idx = true →
      ((NArr.ofList l).get? (List.zipWith (· + ·) idx [a])).isSome := by
    intro idx hi
    obtain ⟨i, rfl⟩ : ∃ i, idx = [i] := by
      have := inRange_length hi
      match idx, this with
      | [i], _ => exact ⟨i, rfl⟩
    simp only [inRange, Bool.and_true, decide_eq_true_eq] at hi
    simp only [List.zipWith_cons_cons, List.zipWith_nil_left, NArr.ofList_get?]
    rw [List.getElem?_eq_getElem (by omega)]; rfl
  have hsl : (NArr.ofList l).slice [(a, b)] =
      NArr.ofFn [b - a] fun idx => (NArr.ofList l).get? (List.zipWith (· + ·) idx [a]) := by
    simp [NArr.slice]
  rw [hsl]
  apply NArr.ext_get? (NArr.ofFn_WF hsome) (NArr.ofList_WF _) (by simp; omega)
  intro idx hi
  rw [NArr.ofFn_get? hsome hi]
  obtain ⟨i, rfl⟩ : ∃ i, idx = [i] := by
    have := inRange_length hi
    match idx, this with
    | [i], _ => exact ⟨i, rfl⟩
  simp only [NArr.ofFn_shape, inRange, Bool.and_true, decide_eq_true_eq] at hi
  simp only [List.zipWith_cons_cons, List.zipWith_nil_left, NArr.ofList_get?, List.getElem?_drop,
    List.getElem?_take]
  rw [if_pos (by omega), Nat.add_comm]

end GkylReader
end Pgkyl
