import Verif.Lemmas.GkylProps
import Verif.Lemmas.GkylOpen
/-! Reading a file that was cut short: whatever the reader gets from it, it gets from the file itself. -/

namespace Pgkyl

theorem chunks_length {sz : Nat} (hsz : 0 < sz) (n : Nat) (bs : Bytes) :
    (chunks sz n bs).length = min n (bs.length / sz) := by
  induction n generalizing bs with
  | zero => simp [chunks]
  | succ n ih =>
    rw [chunks]
    split
    · next h => rw [Nat.div_eq_of_lt h]; simp
    · next h =>
      have h' : sz ≤ bs.length := by omega
      have := Nat.div_pos h' hsz
      rw [List.length_cons, ih, List.length_drop, sub_div_self h' hsz]
      omega
where
  sub_div_self {a b : Nat} (h : b ≤ a) (hb : 0 < b) : (a - b) / b = a / b - 1 := by
    rw [Nat.div_eq_sub_div hb h]; simp

theorem chunks_take {sz : Nat} (n : Nat) (bs : Bytes) {k : Nat} (h : n * sz ≤ k) :
    chunks sz n (bs.take k) = chunks sz n bs := by
  induction n generalizing bs k with
  | zero => rfl
  | succ n ih =>
    rw [Nat.succ_mul] at h
    rw [chunks, chunks]
    by_cases hl : bs.length < sz
    · rw [if_pos (by simp; omega), if_pos hl]
    · rw [if_neg (by simp; omega), if_neg hl, List.take_take, Nat.min_eq_left (by omega),
        List.drop_take, ih _ (by omega)]

/-- items before the cut -/
theorem fromfile_take {f : Bytes} {k sz n o : Nat} (h : o + n * sz ≤ k) :
    fromfile (f.take k) sz n o = fromfile f sz n o := by
  rw [fromfile, fromfile, if_neg (by omega), if_neg (by omega), List.drop_take]
  exact chunks_take _ _ (by simp; omega)

/-- all items can only be read when the file reaches as far -/
theorem fromfile_full {f : Bytes} {k sz n o : Nat} (hsz : 0 < sz)
    (h : (fromfile (f.take k) sz n o).length = n) : n = 0 ∨ o + n * sz ≤ k := by
  rw [fromfile, if_neg (by omega), Int.toNat_natCast, chunks_length hsz, List.length_drop,
    List.length_take] at h
  rcases Nat.eq_zero_or_pos n with h0 | h0
  · exact Or.inl h0
  · right
    have h1 : n ≤ (min k f.length - o) / sz := by omega
    have h2 := (Nat.le_div_iff_mul_le hsz).1 h1
    have : 0 < n * sz := Nat.mul_pos h0 hsz
    omega

theorem readI_take {f : Bytes} {k o : Nat} {v : Int} (h : readI (f.take k) o = .ok v) :
    o + 8 ≤ k ∧ readI f o = .ok v := by
  have h1 : o + 8 ≤ k := by
    have hl : (fromfile (f.take k) 8 (1 : Nat) o).length = 1 := by
      have hle : (fromfile (f.take k) 8 (1 : Nat) o).length ≤ 1 := by
        rw [fromfile, if_neg (by omega), chunks_length (by omega)]; simp
      have hne : fromfile (f.take k) 8 (1 : Nat) o ≠ [] := by
        intro h0
        rw [readI] at h
        rw [show ((1 : Nat) : Int) = 1 from rfl] at h0
        rw [h0] at h
        cases h
      have := List.length_pos_iff.2 hne
      omega
    rcases fromfile_full (by omega) hl with h0 | h0
    · omega
    · omega
  refine ⟨h1, ?_⟩
  rw [readI] at h ⊢
  have := fromfile_take (f := f) (k := k) (sz := 8) (n := 1) (o := o) (by omega)
  rw [show ((1 : Nat) : Int) = 1 from rfl] at this
  rw [← this]
  exact h

theorem readIs_take {f : Bytes} {k n o : Nat} (h : o + n * 8 ≤ k) :
    readIs (f.take k) n o = readIs f n o := by
  rw [readIs, readIs, fromfile_take h]

namespace GkylReader
open Spec
variable {V : Type} {unpack : Bytes → Except Err (Option (Dict V))} {tt : V}

theorem compatible_take {f : Bytes} {k : Nat} {v : Int} (h : compatible (f.take k) = some v) :
    compatible f = some v ∧ 13 ≤ k := by
  rw [compatible] at h
  split at h
  · next hm =>
    cases hr : readI (f.take k) 5 with
    | error e => rw [hr] at h; cases h
    | ok w =>
      rw [hr] at h
      obtain ⟨h1, h2⟩ := readI_take hr
      refine ⟨?_, by omega⟩
      rw [List.take_take, Nat.min_eq_left (by omega)] at hm
      rw [compatible, if_pos hm, h2]
      exact h
  · cases h

theorem advance_le {off : Nat} {m : Int} {o : Nat} (hm : 0 < m) (h : advance off m = .ok o) :
    o = off + m.toNat := by
  rw [advance] at h
  split at h
  · cases h
  · simp only [Except.ok.injEq] at h; omega

theorem readHeader_take {f : Bytes} {k : Nat} {st st' : St V} {v : Int}
    (hc : compatible (f.take k) = some v)
    (h : readHeader unpack tt (f.take k) st = .ok st') :
    readHeader unpack tt f st = .ok st' ∧ st'.offset ≤ k := by
  obtain ⟨hc', _⟩ := compatible_take hc
  simp only [readHeader, hc, hc', bind, Except.bind] at h ⊢
  cases h1 : readI (f.take k) (st.offset + 5) with
  | error e => simp only [h1] at h; cases h
  | ok a =>
  cases h2 : readI (f.take k) (st.offset + 13) with
  | error e => simp only [h1, h2] at h; cases h
  | ok b =>
  cases h3 : readI (f.take k) (st.offset + 21) with
  | error e => simp only [h1, h2, h3] at h; cases h
  | ok m =>
  simp only [h1, h2, h3] at h
  simp only [(readI_take h1).2, (readI_take h2).2, (readI_take h3).2]
  obtain ⟨g, hg⟩ : ∃ g, g = readMeta unpack tt (f.take k)
    ({ st with offset := st.offset + 29, version := a, fileType := b } : St V) m := ⟨_, rfl⟩
  rw [← hg] at h
  cases g with
  | error e => simp only at h; cases h
  | ok s =>
    simp only at h
    cases hr : readI (f.take k) s.offset with
    | error e => simp only [hr] at h; cases h
    | ok rt =>
      simp only [hr, pure, Except.pure, Except.ok.injEq] at h
      obtain ⟨hk, hr'⟩ := readI_take hr
      have hm : readMeta unpack tt f
          ({ st with offset := st.offset + 29, version := a, fileType := b } : St V) m = .ok s := by
        rw [readMeta] at hg ⊢
        by_cases hpos : 0 < m
        · rw [if_pos hpos] at hg ⊢
          simp only [bind, Except.bind] at hg ⊢
          cases hu : unpack (((f.take k).drop (st.offset + 29)).take m.toNat) with
          | error e => simp only [hu] at hg; cases hg
          | ok u =>
            simp only [hu] at hg
            cases ha : advance (st.offset + 29) m with
            | error e => simp only [ha] at hg; cases hg
            | ok o =>
              simp only [ha, pure, Except.pure, Except.ok.injEq] at hg
              have ho := advance_le hpos ha
              have hso : s.offset = o := by rw [hg]
              have ht : ((f.take k).drop (st.offset + 29)).take m.toNat =
                  (f.drop (st.offset + 29)).take m.toNat := by
                rw [List.drop_take, List.take_take, Nat.min_eq_left (by omega)]
              rw [ht] at hu
              simp only [hu, pure, Except.pure, hg]
        · rw [if_neg hpos] at hg ⊢
          exact hg.symm
      simp only [hm, hr', pure, Except.pure, Except.ok.injEq]
      exact ⟨h, by rw [← h]; exact hk⟩

theorem readDomain_take {cfg : Cfg} {f : Bytes} {k : Nat} {st st' : St V} {d : Dom}
    (h : readDomain cfg (f.take k) st = .ok (d, st')) :
    readDomain cfg f st = .ok (d, st') ∧ st'.offset ≤ k := by
  simp only [readDomain, bind, Except.bind] at h ⊢
  cases h1 : readI (f.take k) st.offset with
  | error e => simp only [h1] at h; cases h
  | ok nd =>
  simp only [h1] at h
  simp only [(readI_take h1).2]
  by_cases hn : nd < 0
  · rw [if_pos hn] at h; cases h
  rw [if_neg hn] at h ⊢
  obtain ⟨n, hnd⟩ : ∃ n : Nat, n = nd.toNat := ⟨_, rfl⟩
  simp only [← hnd] at h ⊢
  cases h2 : readI (f.take k) (st.offset + 8 + n * 8 + n * st.dof + n * st.dof) with
  | error e => simp only [h2] at h; cases h
  | ok raw =>
  simp only [h2] at h
  cases h3 : readI (f.take k) (st.offset + 8 + n * 8 + n * st.dof + n * st.dof + 8) with
  | error e => simp only [h3] at h; cases h
  | ok asz =>
  simp only [h3] at h
  have hk := (readI_take h3).1
  simp only [(readI_take h2).2, (readI_take h3).2]
  rw [readIs_take (by omega), fromfile_take (by omega), fromfile_take (by omega)] at h
  refine ⟨h, ?_⟩
  have hst : st' = { st with offset := st.offset + 8 + n * 8 + n * st.dof + n * st.dof + 16 } := by
    revert h
    split
    · cases parseAxes (readIs f n (st.offset + 8)) cfg.idxs with
      | error e => intro h; cases h
      | ok gs =>
        simp only
        cases parseRestr (raw.tdiv st.dof) (cfg.idxs.getD 6 []) with
        | error e => intro h; cases h
        | ok cg =>
          simp only [pure, Except.pure, Except.ok.injEq, Prod.mk.injEq]
          intro h; exact h.2.symm
    · simp only [pure, Except.pure, Except.ok.injEq, Prod.mk.injEq]
      intro h; exact h.2.symm
  rw [hst]; show _ ≤ _; omega

/-! ### complete loads -/

theorem reshape_length {ws : List Word} {sh : List Int} {a : NArr Word} (h : reshape ws sh = .ok a) :
    ws.length = (sh.map Int.toNat).prod := by
  rw [reshape] at h
  split at h
  · cases h
  · split at h
    · assumption
    · cases h

/-- a complete read of a block reaches the end of the block -/
theorem getData_take_full {cfg : Cfg} (hp : cfg.partialLoad = false) {f : Bytes} {k dof : Nat}
    (hdof : 0 < dof) {d : Dom} {n m : Nat} {rng : Option (List Int × List Int)} {off : Nat} (hoff : off ≤ k)
    {r : Option (NArr Word × List (Int × Int)) × Nat}
    (hm : (((match rng with
      | some (lo, up) => List.zipWith (fun l u => u - l + 1) lo up
      | none => d.cells) ++ [d.numComps]).map Int.toNat).prod = m) (hmn : m ≤ n)
    (h : getData cfg (f.take k) dof d n rng off = .ok r) :
    off + m * dof ≤ k ∧ r.2 = off + n * dof := by
  have key : ∀ sh : List Int, (sh.map Int.toNat).prod = m → ∀ a,
      reshape (fromfile (f.take k) dof n off) sh = .ok a → off + m * dof ≤ k := by
    intro sh hsh a ha
    have hl := reshape_length ha
    rw [hsh] at hl
    have hl' : (fromfile (f.take k) dof m off).length = m := by
      rw [fromfile, if_neg (by omega), Int.toNat_natCast, chunks_length hdof] at hl ⊢
      omega
    rcases fromfile_full hdof hl' with h0 | h0
    · rw [h0]; omega
    · exact h0
  have hadv : advance off ((n : Int) * (dof : Int)) = .ok (off + n * dof) := by
    rw [advance, if_neg (by have : (0 : Int) ≤ (n : Int) * (dof : Int) := Int.mul_nonneg (by omega) (by omega); omega)]
    congr 1
  rw [getData, hp] at h
  simp only [Bool.not_false, if_true, bind, Except.bind, hadv] at h
  cases rng with
  | none =>
    simp only at h hm
    cases ha : reshape (fromfile (f.take k) dof n off) (d.cells ++ [d.numComps]) with
    | error e => simp only [ha] at h; cases h
    | ok a =>
      simp only [ha, pure, Except.pure, Except.ok.injEq] at h
      exact ⟨key _ hm a ha, by rw [← h]⟩
  | some q =>
    obtain ⟨lo, up⟩ := q
    simp only at h hm
    cases ha : reshape (fromfile (f.take k) dof n off)
        (List.zipWith (fun l u => u - l + 1) lo up ++ [d.numComps]) with
    | error e => simp only [ha] at h; cases h
    | ok a =>
      simp only [ha, pure, Except.pure, Except.ok.injEq] at h
      exact ⟨key _ hm a ha, by rw [← h]⟩

theorem drop_le {f rest : Bytes} {o : Nat} (h : f.drop o = rest) : f.length ≤ o + rest.length := by
  have := congrArg List.length h
  rw [List.length_drop] at this; omega

theorem realSize_pos (t : Nat) : 0 < realSize t := by rw [realSize]; split <;> omega

theorem winsOf_all_prod {x : Spec.Field} :
    (List.zipWith (fun (n : Nat) (r : Restr) => ((r.stop n - r.start : Nat) : Int)) x.cells
      (List.replicate x.cells.length .all)).map Int.toNat = x.cells := by
  induction x.cells with
  | nil => rfl
  | cons n ns ih =>
    simp only [List.length_cons, List.replicate_succ, List.zipWith_cons_cons, List.map_cons, ih]
    simp [Restr.stop, Restr.start]

/-- no proper prefix of a single-range file can be loaded -/
theorem load_t1_take {f : Bytes} {x : Spec.Field} (hx : x.OK (realSize x.realType))
    (hpos : ∀ n ∈ x.cells, 0 < n)
    {asz : Nat} (hasz : asz < 2 ^ 63) (hasz' : x.cells.prod ≤ asz) {u : Option (Dict V)}
    (hu : MetaIs unpack x.metaBytes u) (ctx : Dict V)
    {data : NArr Word} (hd : IsData x.realType data) (hs : data.shape = x.shape)
    (hf : f = header 1 x.metaBytes ++ domainSz asz x ++ data.data.flatten) {k : Nat} {v : Int}
    (hc : compatible (f.take k) = some v) {r : Loaded × Dict V}
    (h : load unpack tt (Cfg.make [] none) ctx (f.take k) = .ok r) : f.length ≤ k := by
  obtain ⟨st, st', e1, e2, e3, e4, e5, e6, e7, e8⟩ :=
    load_head (tt := tt) (rs := List.replicate x.cells.length .all) (cr := .all) hx (by norm_num) hasz
      hu ctx (by rw [cfgOf_all_partial]; intro h; cases h) (restrsOK_all hpos) (all_ok hx.comps) hf
  rw [cfgOf_all] at e5
  simp only [load, bind, Except.bind] at h
  cases g1 : readHeader unpack tt (f.take k) { ctx := ctx } with
  | error e => simp only [g1] at h; cases h
  | ok t =>
    have ht := (readHeader_take hc g1).1
    rw [e1] at ht
    obtain rfl : st = t := by injection ht
    simp only [g1, e2, Nat.cast_one, true_or, if_true] at h
    cases g2 : readDomain (Cfg.make [] none) (f.take k) st with
    | error e => simp only [g2] at h; cases h
    | ok q =>
      obtain ⟨d, t'⟩ := q
      obtain ⟨hq, hk⟩ := readDomain_take g2
      rw [e5] at hq
      simp only [Except.ok.injEq, Prod.mk.injEq] at hq
      obtain ⟨rfl, rfl⟩ := hq
      have ht1 : st'.fileType = 1 := by rw [e6]; simp [e2]
      simp only [g2, ht1, true_or, if_true, readT1, bind, Except.bind] at h
      generalize hdom : domOf asz x (List.replicate x.cells.length .all) .all = dom at h
      have hcount : dom.asize * dom.numComps = ((asz * x.comps : Nat) : Int) := by
        rw [← hdom]; simp [domOf, Restr.stop, Restr.start]
      rw [hcount] at h
      cases g3 : getData (Cfg.make [] none) (f.take k) st'.dof dom ((asz * x.comps : Nat) : Int) none
          st'.offset with
      | error e => simp only [g3] at h; cases h
      | ok w =>
        have hdof : st'.dof = realSize x.realType := by rw [e6]; exact e7
        have hm := getData_take_full (m := x.cells.prod * x.comps) rfl
          (by rw [hdof]; exact realSize_pos _) hk (by
            rw [← hdom]
            simp only [domOf, List.map_append, winsOf_all_prod, List.prod_append]
            simp [Restr.stop, Restr.start]) (Nat.mul_le_mul_right _ hasz') g3
        have hl := drop_le e8
        have hwf : data.data.length = x.cells.prod * x.comps := by
          rw [hd.1, hs]; simp [Spec.Field.shape]
        rw [flatten_length hd.2, hwf] at hl
        rw [hdof] at hm
        omega

/-- the loop over the ranges only ends when the file reaches its end -/
theorem t3Loop_take {cfg : Cfg} (hp : cfg.partialLoad = false) {f : Bytes} {x : Spec.Field}
    (hx : x.OK (realSize x.realType)) {d : Dom} (hnd : d.numDims = x.cells.length)
    (hoc : d.origComps = x.comps) (hnc : d.numComps = x.comps) {k : Nat} :
    ∀ (rs : List Spec.Range), (∀ r ∈ rs, r.OK x) → ∀ (data : NArr Word) (off : Nat),
      f.drop off = rs.flatMap Spec.Range.bytes → off ≤ k → ∀ s,
      iterM rs.length (t3Step cfg (f.take k) (realSize x.realType) d) (data, off) = .ok s →
      f.length ≤ k := by
  intro rs
  induction rs with
  | nil =>
    intro _ data off hf hk s _
    have := drop_le hf
    simp at this; omega
  | cons r rs ih =>
    intro hrs data off hf hk s h
    have hr := hrs r (by simp)
    obtain ⟨hl1, hl2⟩ := within_lens hr.inside
    have hf0 : f.drop off = r.lo.flatMap Spec.u64 ++ (r.up.flatMap Spec.u64 ++
        (Spec.u64 r.extents.prod ++ (r.data.data.flatten ++ rs.flatMap Spec.Range.bytes))) := by
      rw [hf]; simp [Spec.Range.bytes]
    obtain ⟨hloFit, hupFit, hext, hextZ⟩ := within_fits hx.cellsFit hr.inside
    have hextFit : r.extents.prod < 2 ^ 63 := Nat.lt_of_le_of_lt hext hx.size
    have hf1 := drop_add hf0 (flatMap_u64_length _)
    have hf2 := drop_add hf1 (flatMap_u64_length _)
    have hf3 := drop_add hf2 (u64_length _)
    have hf4 := drop_add hf3 (flatten_length hr.data.2)
    have r1 := readIs_u64 hf0 hl1 hloFit
    have r2 := readIs_u64 hf1 hl2 hupFit
    have r3 := readI_u64 hf2 hextFit
    rw [hl1] at hf1 r2 hf2 r3 hf3 hf4
    rw [hl2] at hf2 r3 hf3 hf4
    simp only [List.length_cons, iterM, bind, Except.bind] at h
    cases g : t3Step cfg (f.take k) (realSize x.realType) d (data, off) with
    | error e => simp only [g] at h; cases h
    | ok s1 =>
      simp only [g] at h
      simp only [t3Step, bind, Except.bind, hnd] at g
      cases g1 : readI (f.take k) (off + x.cells.length * 8 + x.cells.length * 8) with
      | error e => simp only [g1] at g; cases g
      | ok asz =>
        obtain ⟨hk1, g1'⟩ := readI_take g1
        rw [r3] at g1'
        obtain rfl : (r.extents.prod : Int) = asz := by injection g1'
        simp only [g1] at g
        rw [readIs_take (by omega), readIs_take (by omega), r1, r2, hoc] at g
        have hcount : (r.extents.prod : Int) * (x.comps : Int) = ((r.extents.prod * x.comps : Nat) : Int) := by
          push_cast; rfl
        rw [hcount] at g
        cases g2 : getData cfg (f.take k) (realSize x.realType) d ((r.extents.prod * x.comps : Nat) : Int)
            (some (r.lo.map (fun (n : Nat) => (n : Int)), r.up.map (fun (n : Nat) => (n : Int))))
            (off + x.cells.length * 8 + x.cells.length * 8 + 8) with
        | error e => simp only [g2] at g; cases g
        | ok w =>
          obtain ⟨hm1, hm2⟩ := getData_take_full (m := r.extents.prod * x.comps) hp (realSize_pos _) hk1
            (by simp only [List.map_append, hextZ, List.prod_append, hnc]; simp [Spec.Range.extents])
            (le_refl _) g2
          have hso : s1.2 = w.2 := by
            simp only [g2] at g
            obtain ⟨b, o⟩ := w
            cases b with
            | none => simp only [pure, Except.pure, Except.ok.injEq] at g; rw [← g]
            | some b =>
              obtain ⟨b, tgt⟩ := b
              simp only at g
              split at g
              · simp only [pure, Except.pure, Except.ok.injEq] at g; rw [← g]
              · cases hab : assignBlock data tgt b with
                | error e => simp only [hab] at g; cases g
                | ok z => simp only [hab, pure, Except.pure, Except.ok.injEq] at g; rw [← g]
          have hlen : r.data.data.length = r.extents.prod * x.comps := by
            rw [hr.data.1, hr.shape]; simp
          rw [hlen] at hf4
          refine ih (fun q hq => hrs q (by simp [hq])) s1.1 s1.2 ?_ ?_ s h
          · rw [hso, hm2]; exact hf4
          · rw [hso, hm2]; exact hm1
where
  within_fits : ∀ {ns ls us : List Nat}, (∀ n ∈ ns, n < 2 ^ 63) → Spec.Range.within ns ls us →
      (∀ n ∈ ls, n < 2 ^ 63) ∧ (∀ n ∈ us, n < 2 ^ 63) ∧
      (List.zipWith (fun l u => u + 1 - l) ls us).prod ≤ ns.prod ∧
      (List.zipWith (fun (l u : Int) => u - l + 1) (ls.map fun (n : Nat) => (n : Int))
        (us.map fun (n : Nat) => (n : Int))).map Int.toNat =
        List.zipWith (fun l u => u + 1 - l) ls us := by
    intro ns
    induction ns with
    | nil => intro ls us _ h; cases ls <;> cases us <;> simp [Spec.Range.within] at *
    | cons n ns ih =>
      intro ls us hn h
      cases ls <;> cases us <;> simp only [Spec.Range.within] at h
      rename_i l ls u us
      obtain ⟨⟨h1, h2, h3⟩, h⟩ := h
      obtain ⟨i1, i2, i3, i4⟩ := ih (fun m hm => hn m (by simp [hm])) h
      have := hn n (by simp)
      refine ⟨?_, ?_, ?_, ?_⟩
      · intro m hm
        rcases List.mem_cons.1 hm with rfl | hm
        · omega
        · exact i1 m hm
      · intro m hm
        rcases List.mem_cons.1 hm with rfl | hm
        · omega
        · exact i2 m hm
      · simp only [List.zipWith_cons_cons, List.prod_cons]
        exact Nat.mul_le_mul (by omega) i3
      · simp only [List.map_cons, List.zipWith_cons_cons, i4]
        congr 1
        omega

/-- no proper prefix of a multi-range file can be loaded -/
theorem load_t3_take {f : Bytes} {x : Spec.Field} (hx : x.OK (realSize x.realType))
    (hpos : ∀ n ∈ x.cells, 0 < n) {u : Option (Dict V)}
    (hu : MetaIs unpack x.metaBytes u) (ctx : Dict V)
    {rgs : List Spec.Range} (hrs : ∀ r ∈ rgs, r.OK x) (hn : rgs.length < 2 ^ 63)
    (hf : f = multiFile x rgs) {k : Nat} {v : Int}
    (hc : compatible (f.take k) = some v) {r : Loaded × Dict V}
    (h : load unpack tt (Cfg.make [] none) ctx (f.take k) = .ok r) : f.length ≤ k := by
  obtain ⟨st, st', e1, e2, e3, e4, e5, e6, e7, e8⟩ :=
    load_head (f := f) (ft := 3) (tt := tt) (rest := u64 rgs.length ++ rgs.flatMap Range.bytes)
      (rs := List.replicate x.cells.length .all) (cr := .all) hx (by norm_num) hx.size
      hu ctx (by rw [cfgOf_all_partial]; intro h; cases h) (restrsOK_all hpos) (all_ok hx.comps)
      (by rw [hf, multiFile]; simp [Field.domain, domainSz])
  rw [cfgOf_all] at e5
  simp only [load, bind, Except.bind] at h
  cases g1 : readHeader unpack tt (f.take k) { ctx := ctx } with
  | error e => simp only [g1] at h; cases h
  | ok t =>
    have ht := (readHeader_take hc g1).1
    rw [e1] at ht
    obtain rfl : st = t := by injection ht
    have h3 : st.fileType = 1 ∨ st.fileType = 3 ∨ st.version = 0 := by rw [e2]; simp
    simp only [g1] at h
    rw [if_pos h3] at h
    cases g2 : readDomain (Cfg.make [] none) (f.take k) st with
    | error e => simp only [g2] at h; cases h
    | ok q =>
      obtain ⟨d, t'⟩ := q
      obtain ⟨hq, hk⟩ := readDomain_take g2
      rw [e5] at hq
      simp only [Except.ok.injEq, Prod.mk.injEq] at hq
      obtain ⟨rfl, rfl⟩ := hq
      have ht3 : st'.fileType = 3 := by rw [e6]; simp [e2]
      have hv1 : st'.version = 1 := by rw [e6]; simp [e3]
      simp only [g2, ht3, hv1] at h
      rw [if_neg (by norm_num), if_neg (by norm_num)] at h
      generalize hdom : domOf x.cells.prod x (List.replicate x.cells.length .all) .all = dom at h
      simp only [readT3, bind, Except.bind] at h
      have r1 := readI_u64 e8 hn
      have e9 := drop_add e8 (u64_length _)
      cases g3 : readI (f.take k) st'.offset with
      | error e => simp only [g3] at h; cases h
      | ok nr =>
        obtain ⟨hk3, g3'⟩ := readI_take g3
        rw [r1] at g3'
        obtain rfl : (rgs.length : Int) = nr := by injection g3'
        simp only [g3] at h
        split at h
        · cases h
        · next w hw =>
          split at hw
          · cases hw
          · split at hw
            · cases hw
            · next s hs =>
              rw [Int.toNat_natCast] at hs
              have hdof : st'.dof = realSize x.realType := by rw [e6]; exact e7
              rw [hdof] at hs
              exact t3Loop_take rfl hx (by rw [← hdom]; rfl) (by rw [← hdom]; rfl)
                (by rw [← hdom]; simp [domOf, Restr.stop, Restr.start]) rgs hrs _ _ e9 hk3 _ hs

/-! ### time traces -/

/-- the loop of a time trace after complete pieces, with something left over -/
theorem t2Loop_reach {f : Bytes} {c : Nat} (hc : c * 8 < 2 ^ 63) {v : Int}
    (hcomp : compatible f = some v) {tail : Bytes} (htail : tail ≠ []) :
    ∀ (ks : List Chunk) (k : Chunk) (acc : DynVec) (st : St V) (fuel : Nat),
      (∀ q ∈ k :: ks, q.OK c) → (∀ q ∈ ks, ∃ u, MetaIs unpack q.metaBytes u) →
      st.dof = 8 → ks.length < fuel →
      f.drop st.offset = u64 (c * 8) ++ u64 k.times.length ++ k.times.flatten ++
        k.rows.flatten.flatten ++ (ks.flatMap (Chunk.bytes c) ++ tail) →
      (acc.rows = 0 ∨ acc.comps = c) → (acc.rows = 0 → acc.data = []) →
      ∃ (o fuel' : Nat) (acc' : DynVec) (st' : St V), f.drop o = tail ∧ st'.dof = 8 ∧ st'.offset = o ∧
        t2Loop unpack tt f fuel acc st = (readHeader unpack tt f st').bind fun st =>
          if st.fileType ≠ 2 then .error .typeError else t2Loop unpack tt f fuel' acc' st := by
  intro ks
  induction ks with
  | nil =>
    intro k acc st fuel hk _ hdof hfuel hf ha ha0
    obtain ⟨fuel, rfl⟩ : ∃ n, fuel = n + 1 := ⟨fuel - 1, by simp at hfuel; omega⟩
    obtain ⟨o, ho, hlen, hstep⟩ := t2Loop_step (unpack := unpack) (tt := tt) (fuel := fuel)
      (hk k (by simp)) hc hdof hf ha ha0
    have hne : ¬ (([] : List Chunk).flatMap (Chunk.bytes c) ++ tail) = [] := by simpa using htail
    rw [if_neg hne] at hstep
    exact ⟨o, fuel, _, { st with offset := o }, by simpa using ho, hdof, rfl, hstep⟩
  | cons k' ks ih =>
    intro k acc st fuel hk hu hdof hfuel hf ha ha0
    obtain ⟨fuel, rfl⟩ : ∃ n, fuel = n + 1 := ⟨fuel - 1, by simp at hfuel; omega⟩
    obtain ⟨o, ho, hlen, hstep⟩ := t2Loop_step (unpack := unpack) (tt := tt) (fuel := fuel)
      (hk k (by simp)) hc hdof hf ha ha0
    have hne : ¬ ((k' :: ks).flatMap (Chunk.bytes c) ++ tail) = [] := by
      simp [Chunk.bytes, header, gkyl0]
    rw [if_neg hne] at hstep
    obtain ⟨u', hu'⟩ := hu k' (by simp)
    have hk' := hk k' (by simp)
    have hd1 : f.drop o = header 2 k'.metaBytes ++ u64 2 ++ (u64 (c * 8) ++ u64 k'.times.length ++
        k'.times.flatten ++ k'.rows.flatten.flatten ++ (ks.flatMap (Chunk.bytes c) ++ tail)) := by
      rw [ho]; simp [Chunk.bytes]
    have hh := readHeader_ok (unpack := unpack) (tt := tt) (st := { st with offset := o }) hcomp
      hd1 (by norm_num) (by norm_num) hk'.metaLen hu'
    have hd2 : f.drop (o + 37 + k'.metaBytes.length) = u64 (c * 8) ++ u64 k'.times.length ++
        k'.times.flatten ++ k'.rows.flatten.flatten ++ (ks.flatMap (Chunk.bytes c) ++ tail) := by
      rw [Nat.add_assoc]
      exact drop_add hd1 (by simp only [header, List.length_append, u64_length, gkyl0_length]; omega)
    simp only [hh, Except.bind] at hstep
    rw [if_neg (by norm_num)] at hstep
    rw [hstep]
    exact ih k' ⟨acc.time ++ k.times, acc.rows + k.times.length, c,
        acc.data ++ k.rows.flatten⟩
      { offset := o + 37 + k'.metaBytes.length, dof := if (2 : Nat) = 1 then 4 else st.dof,
        fileType := ((2 : Nat) : Int), version := 1, ctx := metaCtx tt st.ctx u' } fuel
      (fun q hq => hk q (List.mem_cons_of_mem _ hq)) (fun q hq => hu q (List.mem_cons_of_mem _ hq))
      (by simpa using hdof) (by simp at hfuel; omega) hd2 (Or.inr rfl) (by
        intro h
        have h1 : acc.rows = 0 := by simp at h; omega
        have h2 : k.times.length = 0 := by simp at h; simp [h]
        have h3 : k.rows = [] := List.eq_nil_of_length_eq_zero (by
          rw [(hk k (by simp)).len, h2])
        simp [ha0 h1, h3])

theorem rows_length {c : Nat} {q : Chunk} (hq : q.OK c) : q.rows.flatten.length = q.times.length * c ∧
    ∀ b ∈ q.rows.flatten, b.length = 8 := by
  constructor
  · rw [List.length_flatten, ← hq.len]
    have : q.rows.map List.length = List.replicate q.rows.length c := by
      apply List.eq_replicate_iff.2
      refine ⟨by simp, ?_⟩
      intro b hb
      obtain ⟨r, hr, rfl⟩ := List.mem_map.1 hb
      exact hq.rowsLen r hr
    rw [this]; simp
  · intro b hb
    obtain ⟨r, hr, hb⟩ := List.mem_flatten.1 hb
    exact hq.rowsW r hr b hb

/-- a piece that was cut short cannot be read -/
theorem t2_take {F : Bytes} {k : Nat} {c : Nat} (hc0 : 0 < c) (hc : c * 8 < 2 ^ 63) {q : Chunk} (hq : q.OK c)
    (hu : ∃ u, MetaIs unpack q.metaBytes u) {v : Int} (hcomp : compatible (F.take k) = some v) {st : St V}
    (hdof : st.dof = 8) (hF : F.drop st.offset = q.bytes c) (hk : k < F.length)
    {fuel : Nat} {acc : DynVec} {r : DynVec × St V} :
    (readHeader unpack tt (F.take k) st).bind (fun st =>
      if st.fileType ≠ 2 then .error .typeError else t2Loop unpack tt (F.take k) fuel acc st) ≠ .ok r := by
  intro h
  obtain ⟨u, hu⟩ := hu
  have hd1 : F.drop st.offset = header 2 q.metaBytes ++ u64 2 ++ (u64 (c * 8) ++ u64 q.times.length ++
      q.times.flatten ++ q.rows.flatten.flatten) := by
    rw [hF]; simp [Chunk.bytes]
  have hh := readHeader_ok (unpack := unpack) (tt := tt) (st := st) (compatible_take hcomp).1
    hd1 (by norm_num) (by norm_num) hq.metaLen hu
  have hd2 : F.drop (st.offset + 37 + q.metaBytes.length) = u64 (c * 8) ++ (u64 q.times.length ++
      (q.times.flatten ++ q.rows.flatten.flatten)) := by
    rw [Nat.add_assoc]
    have := drop_add (k := 37 + q.metaBytes.length) hd1
      (by simp only [header, List.length_append, u64_length, gkyl0_length]; omega)
    rw [this]; simp
  cases g : readHeader unpack tt (F.take k) st with
  | error e => simp only [g, Except.bind] at h; cases h
  | ok t =>
    have ht := (readHeader_take hcomp g).1
    rw [hh] at ht
    obtain ⟨o, ho⟩ : ∃ o, o = st.offset + 37 + q.metaBytes.length := ⟨_, rfl⟩
    obtain ⟨tOff, td, tf⟩ : t.offset = o ∧ t.dof = 8 ∧ t.fileType = 2 := by
      injection ht with ht
      rw [← ht, ho]
      exact ⟨rfl, by simpa using hdof, rfl⟩
    rw [← ho] at hd2
    simp only [g, Except.bind, tf] at h
    rw [if_neg (by norm_num)] at h
    cases fuel with
    | zero => rw [t2Loop] at h; cases h
    | succ fuel =>
      simp only [t2Loop, tOff, td, bind, Except.bind] at h
      have r1 := readI_u64 hd2 hc
      have hd3 := drop_add hd2 (u64_length _)
      have r2 := readI_u64 hd3 hq.fit
      have hd4 := drop_add hd3 (u64_length _)
      have hd5 := drop_add hd4 (flatten_length hq.timesW)
      obtain ⟨hrl, hrw⟩ := rows_length hq
      have hend := drop_le hd5
      rw [flatten_length hrw, hrl] at hend
      cases g1 : readI (F.take k) o with
      | error e => simp only [g1] at h; cases h
      | ok raw =>
        have g1' := (readI_take g1).2
        rw [r1] at g1'
        obtain rfl : ((c * 8 : Nat) : Int) = raw := by injection g1'
        simp only [g1] at h
        cases g2 : readI (F.take k) (o + 8) with
        | error e => simp only [g2] at h; cases h
        | ok n =>
          obtain ⟨hk2, g2'⟩ := readI_take g2
          rw [r2] at g2'
          obtain rfl : (q.times.length : Int) = n := by injection g2'
          simp only [g2] at h
          rw [if_neg (by omega)] at h
          have hnc : (((c * 8 : Nat) : Int).tdiv ((8 : Nat) : Int)).toNat = c := by
            rw [Nat.cast_mul, Int.mul_tdiv_cancel _ (by norm_num)]; simp
          simp only [hnc, Int.toNat_natCast] at h
          have hcn : (c : Int) * (q.times.length : Int) = ((q.times.length * c : Nat) : Int) := by
            push_cast; ring
          rw [hcn] at h
          by_cases hlen : (fromfile (F.take k) 8 ((q.times.length * c : Nat) : Int)
              (o + 16 + q.times.length * 8)).length = q.times.length * c
          · rcases fromfile_full (by norm_num) hlen with h0 | h0
            · have hz : q.times.length = 0 := by
                rcases Nat.mul_eq_zero.1 h0 with h0 | h0
                · exact h0
                · omega
              rw [hz] at hend
              omega
            · omega
          · rw [if_pos hlen] at h
            cases h

/-- a time trace whose last piece was cut short cannot be loaded -/
theorem load_t2_take {f p s : Bytes} {c : Nat} (hc0 : 0 < c) (hc : c * 8 < 2 ^ 63) {ks : List Chunk}
    {q : Chunk} (hk : ∀ r ∈ ks ++ [q], r.OK c) (hu : ∀ r ∈ ks ++ [q], ∃ u, MetaIs unpack r.metaBytes u)
    (cfg : Cfg) (ctx : Dict V) (hp : p ≠ []) (hs : s ≠ []) (hps : p ++ s = q.bytes c)
    (hf : f = ks.flatMap (Chunk.bytes c) ++ p) {v : Int} (hcomp : compatible f = some v)
    {r : Loaded × Dict V} : load unpack tt cfg ctx f ≠ .ok r := by
  intro h
  have hq := hk q (by simp)
  have huq := hu q (by simp)
  obtain ⟨F, hF⟩ : ∃ F, F = f ++ s := ⟨_, rfl⟩
  have hft : f = F.take f.length := by rw [hF]; simp
  have hlt : f.length < F.length := by
    rw [hF, List.length_append]; have := List.length_pos_iff.2 hs; omega
  have hcF : compatible (F.take f.length) = some v := by rw [← hft]; exact hcomp
  -- what follows the header of the first piece
  have hnot1 : ∀ (st : St V), readHeader unpack tt f { ctx := ctx } = .ok st → st.fileType = 2 →
      st.version = 1 → (∃ w, readT2 unpack tt f st = .ok w) := by
    intro st hst h2 h1
    simp only [load, hst, bind, Except.bind] at h
    rw [if_neg (by rw [h2, h1]; norm_num), if_pos h2] at h
    cases g : readT2 unpack tt f st with
    | error e => simp only [g] at h; cases h
    | ok w => exact ⟨w, rfl⟩
  have loopOf : ∀ st : St V, (∃ w, readT2 unpack tt f st = .ok w) →
      ∃ w, t2Loop unpack tt f f.length {} st = .ok w := by
    intro st ⟨w, hw⟩
    simp only [readT2, bind, Except.bind] at hw
    cases g : t2Loop unpack tt f f.length {} st with
    | error e => simp only [g] at hw; cases hw
    | ok w => exact ⟨w, rfl⟩
  cases ks with
  | nil =>
    have hF0 : F.drop 0 = q.bytes c := by rw [hF, hf]; simpa using hps
    have hb : ∃ st : St V, readHeader unpack tt f { ctx := ctx } = .ok st ∧ st.fileType = 2 ∧ st.version = 1 := by
      cases g : readHeader unpack tt f { ctx := ctx } with
      | error e => simp only [load, g, bind, Except.bind] at h; cases h
      | ok t =>
        have g' := g
        rw [hft] at g'
        have ht := (readHeader_take hcF g').1
        obtain ⟨u, hu'⟩ := huq
        have hh := readHeader_ok (unpack := unpack) (tt := tt) (st := ({ ctx := ctx } : St V))
          (ft := 2) (rt := 2) (mb := q.metaBytes) (rest := u64 (c * 8) ++ u64 q.times.length ++
            q.times.flatten ++ q.rows.flatten.flatten) (compatible_take hcF).1
          (by rw [hF0]; simp [Chunk.bytes]) (by norm_num) (by norm_num) hq.metaLen hu'
        rw [hh] at ht
        injection ht with ht
        exact ⟨t, rfl, by rw [← ht]; rfl, by rw [← ht]⟩
    obtain ⟨st, hst, h2, h1⟩ := hb
    obtain ⟨w, hw⟩ := loopOf st (hnot1 st hst h2 h1)
    refine t2_take (unpack := unpack) (tt := tt) hc0 hc hq huq hcF (st := { ctx := ctx }) rfl hF0 hlt (fuel := f.length) (acc := {})
      (r := w) ?_
    rw [← hft]
    simp only [hst, Except.bind, h2]
    rw [if_neg (by norm_num)]
    exact hw
  | cons k ks =>
    have hk0 := hk k (by simp)
    obtain ⟨u, hu0⟩ := hu k (by simp)
    have hd1 : f.drop 0 = header 2 k.metaBytes ++ u64 2 ++ (u64 (c * 8) ++ u64 k.times.length ++
        k.times.flatten ++ k.rows.flatten.flatten ++ (ks.flatMap (Chunk.bytes c) ++ p)) := by
      rw [hf]; simp [Chunk.bytes]
    have hh := readHeader_ok (unpack := unpack) (tt := tt) (st := ({ ctx := ctx } : St V)) hcomp
      hd1 (by norm_num) (by norm_num) hk0.metaLen hu0
    have hd2 : f.drop (0 + 37 + k.metaBytes.length) = u64 (c * 8) ++ u64 k.times.length ++
        k.times.flatten ++ k.rows.flatten.flatten ++ (ks.flatMap (Chunk.bytes c) ++ p) := by
      rw [Nat.add_assoc]
      exact drop_add hd1 (by simp only [header, List.length_append, u64_length, gkyl0_length]; omega)
    have hfuel : ks.length < f.length := by
      have h1 := flatMap_bytes_length (c := c) (k :: ks)
      rw [hf, List.length_append]
      simp only [List.length_cons] at h1
      omega
    obtain ⟨w, hw⟩ := loopOf _ (hnot1 _ hh rfl rfl)
    obtain ⟨o, fuel', acc', st', ho, hdof, hso, hstep⟩ := t2Loop_reach (unpack := unpack) (tt := tt) hc hcomp hp ks k {}
      { offset := 0 + 37 + k.metaBytes.length, dof := if (2 : Nat) = 1 then 4 else 8,
        fileType := ((2 : Nat) : Int), version := 1, ctx := metaCtx tt ctx u } f.length
      (fun r hr => hk r (by rcases List.mem_cons.1 hr with rfl | hr <;> simp [*]))
      (fun r hr => hu r (by simp [hr])) rfl hfuel hd2 (Or.inl rfl) (fun _ => rfl)
    rw [hstep] at hw
    have hol : o ≤ f.length := by
      have := congrArg List.length ho
      have h2 := List.length_pos_iff.2 hp
      rw [List.length_drop] at this; omega
    have hF0 : F.drop st'.offset = q.bytes c := by
      rw [hso, hF, List.drop_append_of_le_length hol, ho, hps]
    refine t2_take (unpack := unpack) (tt := tt) hc0 hc hq huq hcF hdof hF0 hlt (fuel := fuel') (acc := acc')
      (r := w) ?_
    rw [← hft]
    exact hw

/-- a time trace without any time stamp cannot be loaded -/
theorem load_t2_empty {f : Bytes} {c : Nat} (hc : c * 8 < 2 ^ 63) {ks : List Chunk}
    (hk : ∀ q ∈ ks, q.OK c) (hu : ∀ q ∈ ks, ∃ u, MetaIs unpack q.metaBytes u)
    (h0 : ks.flatMap (·.times) = []) (cfg : Cfg) (ctx : Dict V)
    (hf : f = ks.flatMap (Chunk.bytes c)) {v : Int} (hcomp : compatible f = some v)
    {r : Loaded × Dict V} : load unpack tt cfg ctx f ≠ .ok r := by
  intro h
  cases ks with
  | nil => rw [hf] at hcomp; simp [compatible, magic] at hcomp
  | cons k ks =>
    obtain ⟨u, hu0⟩ := hu k (by simp)
    have hk0 := hk k (by simp)
    have hd1 : f.drop 0 = header 2 k.metaBytes ++ u64 2 ++ (u64 (c * 8) ++ u64 k.times.length ++
        k.times.flatten ++ k.rows.flatten.flatten ++ (ks.flatMap (Chunk.bytes c) ++ [])) := by
      rw [hf]; simp [Chunk.bytes]
    have hh := readHeader_ok (unpack := unpack) (tt := tt) (st := ({ ctx := ctx } : St V)) hcomp
      hd1 (by norm_num) (by norm_num) hk0.metaLen hu0
    have hd2 : f.drop (0 + 37 + k.metaBytes.length) = u64 (c * 8) ++ u64 k.times.length ++
        k.times.flatten ++ k.rows.flatten.flatten ++ (ks.flatMap (Chunk.bytes c) ++ []) := by
      rw [Nat.add_assoc]
      exact drop_add hd1 (by simp only [header, List.length_append, u64_length, gkyl0_length]; omega)
    have hfuel : ks.length < f.length := by
      have h1 := flatMap_bytes_length (c := c) (k :: ks)
      rw [hf]
      simp only [List.length_cons] at h1
      omega
    obtain ⟨i1, -⟩ := t2Loop_ok (unpack := unpack) (tt := tt) hc hcomp [] ks k {}
      { offset := 0 + 37 + k.metaBytes.length, dof := if (2 : Nat) = 1 then 4 else 8,
        fileType := ((2 : Nat) : Int), version := 1, ctx := metaCtx tt ctx u } f.length
      hk (fun q hq => hu q (List.mem_cons_of_mem _ hq)) rfl hfuel hd2 (Or.inl rfl)
      (fun _ => rfl)
    obtain ⟨st', hst⟩ := i1 rfl
    simp only [load, hh, bind, Except.bind] at h
    rw [if_neg (by norm_num), if_pos (by norm_num)] at h
    simp only [readT2, bind, Except.bind, hst, List.nil_append, h0, if_true] at h
    cases h

/-! ### partial loads of one component -/

theorem iterM_mono {α : Type} {g h : α → Except Err α} (hgh : ∀ s s', g s = .ok s' → h s = .ok s') :
    ∀ (n : Nat) (s s' : α), iterM n g s = .ok s' → iterM n h s = .ok s' := by
  intro n
  induction n with
  | zero => intro s s' hs; exact hs
  | succ n ih =>
    intro s s' hs
    simp only [iterM, bind, Except.bind] at hs ⊢
    cases g1 : g s with
    | error e => simp only [g1] at hs; cases hs
    | ok t =>
      simp only [g1] at hs
      simp only [hgh _ _ g1]
      exact ih t s' hs

theorem getBlock_take {f : Bytes} {k dof c0 c1 nc0 : Nat} (hdof : 0 < dof) :
    ∀ (ds : List BlockDim) (s s' : BlkSt), getBlock (f.take k) dof 1 c0 c1 nc0 ds s = .ok s' →
      getBlock f dof 1 c0 c1 nc0 ds s = .ok s' := by
  intro ds
  induction ds with
  | nil =>
    intro s s' h
    simp only [getBlock, bind, Except.bind] at h ⊢
    cases g : assignSlice s.out s.idx 1 (fromfile (f.take k) dof (1 : Nat) (s.offset + c0 * dof)) with
    | error e => simp only [g] at h; cases h
    | ok t =>
      simp only [g] at h
      have : assignSlice s.out s.idx 1 (fromfile f dof (1 : Nat) (s.offset + c0 * dof)) = .ok t := by
        by_cases hl : (fromfile (f.take k) dof (1 : Nat) (s.offset + c0 * dof)).length = 1
        · rcases fromfile_full hdof hl with h0 | h0
          · omega
          · rw [fromfile_take h0] at g; exact g
        · have hle : ∀ b : Bytes, (fromfile b dof (1 : Nat) (s.offset + c0 * dof)).length ≤ 1 := by
            intro b; rw [fromfile, if_neg (by omega), chunks_length hdof]; simp
          have h1 := hle (f.take k)
          have h2 := hle f
          have h0 : fromfile (f.take k) dof (1 : Nat) (s.offset + c0 * dof) = [] :=
            List.eq_nil_of_length_eq_zero (by omega)
          rw [h0] at g
          simp only [assignSlice, List.length_nil] at g ⊢
          split at g
          · next hz =>
            split
            · next hy =>
              have : fromfile f dof (1 : Nat) (s.offset + c0 * dof) = [] :=
                List.eq_nil_of_length_eq_zero (by omega)
              rw [this]; exact g
            · next hy =>
              rw [if_pos (by omega), ← hz]
              simpa using g
          · simp at g
      simp only [this]
      exact h
  | cons d ds ih =>
    intro s s' h
    simp only [getBlock, bind, Except.bind] at h ⊢
    split at h
    · cases h
    · next t ht =>
      rw [iterM_mono ih _ _ _ ht]
      exact h

theorem getData_take {cfg : Cfg} (hp : cfg.partialLoad = true) {f : Bytes} {k dof : Nat} (hdof : 0 < dof)
    {d : Dom} (hnc : d.numComps = 1) {count : Int} {rng : Option (List Int × List Int)} {off : Nat}
    {r : Option (NArr Word × List (Int × Int)) × Nat}
    (h : getData cfg (f.take k) dof d count rng off = .ok r) : getData cfg f dof d count rng off = .ok r := by
  rw [getData, hp] at h ⊢
  simp only [Bool.not_true, Bool.false_eq_true, if_false] at h ⊢
  split at h
  · next hm => rw [if_pos hm]; exact h
  · next hm =>
    rw [if_neg hm]
    rw [hnc] at h ⊢
    rw [if_neg (by norm_num)] at h ⊢
    simp only [bind, Except.bind, show (1 : Int).toNat = 1 from rfl] at h ⊢
    split at h
    · cases h
    · next t ht =>
      rw [getBlock_take hdof _ _ _ ht]
      exact h

theorem readT1_take {cfg : Cfg} (hp : cfg.partialLoad = true) {f : Bytes} {k : Nat} {st : St V}
    (hdof : 0 < st.dof) {d : Dom} (hnc : d.numComps = 1) {a : NArr Word}
    (h : readT1 cfg (f.take k) st d = .ok a) : readT1 cfg f st d = .ok a := by
  simp only [readT1, bind, Except.bind] at h ⊢
  split at h
  · cases h
  · next t ht =>
    rw [getData_take hp hdof hnc ht]
    exact h

theorem t3Step_take {cfg : Cfg} (hp : cfg.partialLoad = true) {f : Bytes} {k dof : Nat}
    (hdof : 0 < dof) {d : Dom} (hnc : d.numComps = 1) (s s' : NArr Word × Nat)
    (h : t3Step cfg (f.take k) dof d s = .ok s') : t3Step cfg f dof d s = .ok s' := by
  simp only [t3Step, bind, Except.bind] at h ⊢
  cases g1 : readI (f.take k) (s.2 + d.numDims * 8 + d.numDims * 8) with
  | error e => simp only [g1] at h; cases h
  | ok asz =>
    obtain ⟨hk, g1'⟩ := readI_take g1
    simp only [g1] at h
    simp only [g1']
    rw [readIs_take (by omega), readIs_take (by omega)] at h
    split at h
    · cases h
    · next t ht =>
      rw [getData_take hp hdof hnc ht]
      exact h

theorem readT3_take {cfg : Cfg} (hp : cfg.partialLoad = true) {f : Bytes} {k : Nat} {st : St V}
    (hdof : 0 < st.dof) {d : Dom} (hnc : d.numComps = 1) {a : NArr Word}
    (h : readT3 cfg (f.take k) st d = .ok a) : readT3 cfg f st d = .ok a := by
  simp only [readT3, bind, Except.bind] at h ⊢
  cases g1 : readI (f.take k) st.offset with
  | error e => simp only [g1] at h; cases h
  | ok nr =>
    obtain ⟨hk, g1'⟩ := readI_take g1
    simp only [g1] at h
    simp only [g1']
    split at h
    · next hs => cases h
    · next hs =>
      rw [if_neg hs]
      split at h
      · cases h
      · next t ht =>
        rw [iterM_mono (t3Step_take hp hdof hnc) _ _ _ ht]
        exact h

end GkylReader
end Pgkyl
