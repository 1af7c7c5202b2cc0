import Verif.Model.Animate
import Verif.Spec.Animate
import Verif.Lemmas.Py
import Verif.Lemmas.StoreProps
import Mathlib.Data.List.Sort
/-! # C81: frame numbers from the file names of multi-block data -/

namespace Pgkyl.Anim
open Spec

theorem sortedDistinct_ascending (l : List Int) : Ascending l (sortedDistinct l) := by
  unfold sortedDistinct
  have hp : (l.dedup.mergeSort fun a b => decide (a ≤ b)).Perm l.dedup := List.mergeSort_perm _ _
  refine ⟨?_, fun n => ?_⟩
  · have h1 : (l.dedup.mergeSort fun a b => decide (a ≤ b)).Pairwise fun a b => decide (a ≤ b) = true :=
      List.pairwise_mergeSort (fun a b c h1 h2 => by simp at *; omega) (fun a b => by simp; omega) _
    have h2 : (l.dedup.mergeSort fun a b => decide (a ≤ b)).Nodup := hp.nodup_iff.2 (List.nodup_dedup l)
    refine (h1.and h2).imp fun {a b} h => ?_
    have := of_decide_eq_true h.1
    exact lt_of_le_of_ne this h.2
  · rw [hp.mem_iff, List.mem_dedup]

theorem beforeSub_append (sub a b : Str) (h : ∀ i < a.length, ¬ sub <+: (a ++ b).drop i) :
    beforeSub sub (a ++ b) = a ++ beforeSub sub b := by
  induction a with
  | nil => rfl
  | cons c a ih =>
    have h0 := h 0 (by simp)
    simp only [List.cons_append, List.drop_zero] at h0
    rw [List.cons_append, beforeSub, if_neg (by rwa [List.isPrefixOf_iff_prefix]), ih fun i hi => by
      have := h (i + 1) (by simpa using hi)
      simpa using this]
    rfl

/-- No extension starts within the stem or the number. -/
theorem no_ext {stem : Str} (hs : ¬ ".gkyl".toList <:+: stem) (n : Nat) (tail : Str) :
    ∀ i < (stem ++ Nat.toDigits 10 n).length,
      ¬ ".gkyl".toList <+: ((stem ++ Nat.toDigits 10 n) ++ tail).drop i := by
  intro i hi hp
  have hdig : ∀ c ∈ Nat.toDigits 10 n, isDig c = true := List.all_eq_true.1 (toDigits_all_isDig n)
  rcases Nat.lt_or_ge i stem.length with h | h
  · rw [List.append_assoc, List.drop_append_of_le_length (by omega)] at hp
    obtain ⟨u, hu⟩ := hp
    rcases Nat.lt_or_ge (stem.drop i).length 5 with h5 | h5
    · -- the string would have to contain a digit
      have hne : Nat.toDigits 10 n ≠ [] := toDigits_ne_nil n
      obtain ⟨d, ds, hd⟩ := List.exists_cons_of_ne_nil hne
      have e : (".gkyl".toList ++ u)[(stem.drop i).length]? = some d := by
        rw [hu, List.getElem?_append_right (le_refl _), Nat.sub_self, hd]
        rfl
      have e2 : (".gkyl".toList ++ u)[(stem.drop i).length]? = ".gkyl".toList[(stem.drop i).length]? :=
        List.getElem?_append_left (by simpa using h5)
      rw [e2] at e
      have hmem := List.mem_of_getElem? e
      have := hdig d (by rw [hd]; simp)
      have hall : ∀ c ∈ ".gkyl".toList, isDig c = false := by decide
      rw [hall d hmem] at this
      cases this
    · refine hs ⟨stem.take i, (stem.drop i).drop 5, ?_⟩
      have h1 : (".gkyl".toList ++ u).take 5 = (stem.drop i).take 5 := by
        rw [hu, List.take_append_of_le_length h5]
      have h2 : (".gkyl".toList ++ u).take 5 = ".gkyl".toList := by simp
      rw [h2] at h1
      rw [h1, List.append_assoc, List.take_append_drop, List.take_append_drop]
  · rw [List.append_assoc, List.drop_append, List.drop_eq_nil_of_le h, List.nil_append] at hp
    have hj : i - stem.length < (Nat.toDigits 10 n).length := by
      simp only [List.length_append] at hi ⊢; omega
    rw [List.drop_append_of_le_length hj.le] at hp
    obtain ⟨u, hu⟩ := hp
    have e : (".gkyl".toList ++ u)[0]? = (Nat.toDigits 10 n)[i - stem.length]? := by
      rw [hu, List.getElem?_append_left (by rw [List.length_drop]; omega), List.getElem?_drop, Nat.add_zero]
    have hmem : '.' ∈ Nat.toDigits 10 n := List.mem_of_getElem? (i := i - stem.length) (by rw [← e]; rfl)
    exact absurd (hdig _ hmem) (by decide)

/-- What may follow the number in a file name. -/
def Tail (t : Str) : Prop := t = ".gkyl".toList ∨ ∃ r, t = '_' :: r

theorem frameIn_number {stem : Str} (hs : ¬ ".gkyl".toList <:+: stem) (n : Nat) {tail : Str} (ht : Tail tail) :
    frameIn stem.length (stem ++ (Nat.toDigits 10 n ++ tail)) = .ok (n : Int) := by
  unfold frameIn
  rw [← List.append_assoc, beforeSub_append _ _ _ (no_ext hs n _), List.append_assoc, List.drop_left]
  have hd := notMem_of_all_isDig (toDigits_all_isDig n) (c := '_') (by decide)
  have hh : (splitOn '_' (Nat.toDigits 10 n ++ beforeSub ".gkyl".toList tail)).headD [] = Nat.toDigits 10 n := by
    rcases ht with rfl | ⟨r, rfl⟩
    · rw [show beforeSub ".gkyl".toList ".gkyl".toList = [] from by decide, List.append_nil, splitOn_notMem hd]
      rfl
    · rw [show beforeSub ".gkyl".toList ('_' :: r) = '_' :: beforeSub ".gkyl".toList r from by
        rw [beforeSub, if_neg (by simp [List.isPrefixOf])], splitOn_append hd]
      rfl
  rw [hh]
  unfold intOrErr
  rw [← pyStr_ofNat, pyInt_pyStr]

theorem foldl_shortest_mem : ∀ (fs : List Str) (f : Str),
    fs.foldl (fun m g => if g.length < m.length then g else m) f ∈ f :: fs
  | [], f => by simp
  | g :: fs, f => by
    rw [List.foldl_cons]
    have := foldl_shortest_mem fs (if g.length < f.length then g else f)
    rcases List.mem_cons.1 this with h | h
    · rw [h]; split <;> simp
    · exact List.mem_cons_of_mem _ (List.mem_cons_of_mem _ h)

theorem shortest_mem {files : List Str} (h : files ≠ []) : ∃ m, shortest files = some m ∧ m ∈ files := by
  cases files with
  | nil => exact absurd rfl h
  | cons f fs => exact ⟨_, rfl, foldl_shortest_mem fs f⟩

theorem firstDiff_eq {files : List Str} {short : Str} {k : Nat} (hk : k < short.length)
    (hb : ∀ j < k, ∀ f ∈ files, short[j]? = f[j]?) (hd : ∃ f ∈ files, short[k]? ≠ f[k]?) :
    firstDiff files short = some k := by
  unfold firstDiff
  rw [List.find?_range_eq_some]
  refine ⟨?_, List.mem_range.2 hk, fun j hj => ?_⟩
  · obtain ⟨f, h1, h2⟩ := hd
    rw [List.any_eq_true]
    exact ⟨f, h1, by simpa using h2⟩
  · rw [Bool.not_eq_true', List.any_eq_false]
    intro f hf
    simpa using hb j hj f hf

/-- The number at the place where the names begin to differ is read, if not all numbers start with the same digit. -/
theorem fileFrames_number {stem : Str} (hs : ¬ ".gkyl".toList <:+: stem) {l : List (Nat × Str)}
    (ht : ∀ e ∈ l, Tail e.2) (hd : ∃ a ∈ l, ∃ b ∈ l, leadDigit a.1 ≠ leadDigit b.1) :
    fileFrames (l.map fun e => stem ++ (Nat.toDigits 10 e.1 ++ e.2)) = .ok (l.map fun e => (e.1 : Int)) := by
  obtain ⟨a, ha, b, hb, hab⟩ := hd
  have hne : (l.map fun e => stem ++ (Nat.toDigits 10 e.1 ++ e.2)) ≠ [] := by
    intro h
    rw [List.map_eq_nil_iff] at h
    rw [h] at ha; cases ha
  obtain ⟨m, hm, hmem⟩ := shortest_mem hne
  obtain ⟨e0, he0, rfl⟩ := List.mem_map.1 hmem
  have hpre : ∀ (e : Nat × Str) j, j < stem.length → (stem ++ (Nat.toDigits 10 e.1 ++ e.2))[j]? = stem[j]? :=
    fun e j hj => by rw [List.getElem?_append_left hj]
  have hat : ∀ e : Nat × Str, (stem ++ (Nat.toDigits 10 e.1 ++ e.2))[stem.length]? = leadDigit e.1 := fun e => by
    unfold leadDigit
    rw [List.getElem?_append_right (le_refl _), Nat.sub_self]
    obtain ⟨d, ds, h⟩ := List.exists_cons_of_ne_nil (toDigits_ne_nil e.1)
    rw [h]; rfl
  have hk := firstDiff_eq (files := l.map fun e => stem ++ (Nat.toDigits 10 e.1 ++ e.2))
    (short := stem ++ (Nat.toDigits 10 e0.1 ++ e0.2)) (k := stem.length) (by
      have := List.length_pos_iff.2 (toDigits_ne_nil e0.1)
      rw [List.length_append, List.length_append]; omega)
    (fun j hj f hf => by
      obtain ⟨e, -, rfl⟩ := List.mem_map.1 hf
      rw [hpre e0 j hj, hpre e j hj])
    (by
      rcases eq_or_ne (leadDigit e0.1) (leadDigit a.1) with h | h
      · exact ⟨_, List.mem_map.2 ⟨b, hb, rfl⟩, by rw [hat, hat, h]; exact hab⟩
      · exact ⟨_, List.mem_map.2 ⟨a, ha, rfl⟩, by rw [hat, hat]; exact h⟩)
  unfold fileFrames
  rw [hm]
  simp only
  rw [hk]
  simp only
  rw [List.mapM_map]
  exact Space.mapM_ok_of_forall fun e he => frameIn_number hs e.1 (ht e he)

/-- The frames of multi-block files are read from the names if not all frame numbers start with the same digit. -/
theorem fileFrames_block {stem : Str} (hs : ¬ ".gkyl".toList <:+: stem) {l : List (Nat × Str)}
    (hd : ∃ a ∈ l, ∃ b ∈ l, leadDigit a.1 ≠ leadDigit b.1) :
    fileFrames (l.map fun e => frameFile stem e.1 e.2) = .ok (l.map fun e => (e.1 : Int)) := by
  have := fileFrames_number hs (l := l.map fun e => (e.1, '_' :: (e.2 ++ ".gkyl".toList)))
    (fun e he => by
      obtain ⟨e', -, rfl⟩ := List.mem_map.1 he
      exact Or.inr ⟨_, rfl⟩)
    (by
      obtain ⟨a, ha, b, hb, h⟩ := hd
      exact ⟨_, List.mem_map.2 ⟨a, ha, rfl⟩, _, List.mem_map.2 ⟨b, hb, rfl⟩, h⟩)
  rw [List.map_map, List.map_map] at this
  exact this

theorem visit_all {F : Type} {s : Space F} {ids : List Nat} (h : ∀ i ∈ ids, s.active i = true) :
    visit s.active true ids = ids.zipIdx.map fun e => (e.2, e.1) := by
  unfold visit
  rw [List.filter_eq_self.2]
  intro e he
  obtain ⟨i, k⟩ := e
  simp only [Bool.not_true, Bool.false_or]
  exact h _ (List.fst_mem_of_mem_zipIdx he)

theorem toList_single {F : Type} {s : Space F} {t : Tag} {ids : List Nat} (hd : s.dict = [(t, ids)])
    (h : ∀ i ∈ ids, s.active i = true) (enum : Bool) :
    s.toList none enum true .none = .ok (ids.zipIdx.map fun e => (e.2, e.1)) := by
  have hl : s.lookup t = some ids := by simp [Space.lookup, hd]
  rw [Space.toList_none (ls := fun _ => ids) (fun u hu => by
    simp only [Space.tagsOf, hd, List.map_cons, List.map_nil, List.mem_singleton] at hu
    rw [hu, hl]) enum true]
  simp [Space.tagsOf, hd, visit_all h]

theorem mapM_assign (frames : List Int) : ∀ (l : List (Nat × Nat)) (g : Nat → Int),
    (∀ e ∈ l, frames[e.1]? = some (g e.2)) → assign frames l = .ok (l.map fun e => (e.2, g e.2)) := by
  intro l g h
  exact Space.mapM_ok_of_forall fun e he => by rw [h e he]

/-- C81 (partial: one tag, all datasets active, at least two frame numbers that start with different digits): every
dataset gets the frame number in its file name, and the distinct frame numbers are returned in ascending order. -/
theorem C81_frames_partial {F : Type} {s : Space F} {t : Tag} {ids : List Nat} {stem : Str} {frame : Nat → Nat}
    {rest : Nat → Str} (hd : s.dict = [(t, ids)]) (hs : ¬ ".gkyl".toList <:+: stem)
    (hf : ∀ i ∈ ids, ∃ d, s.heap[i]? = some d ∧ d.status = true ∧ d.fileName = frameFile stem (frame i) (rest i))
    (hl : ∃ i ∈ ids, ∃ j ∈ ids, leadDigit (frame i) ≠ leadDigit (frame j)) :
    ∃ frames, setFrame s = .ok (ids.map fun i => (i, (frame i : Int)), frames) ∧
      Ascending (ids.map fun i => (frame i : Int)) frames := by
  have ha : ∀ i ∈ ids, s.active i = true := fun i hi => by
    obtain ⟨d, h1, h2, -⟩ := hf i hi
    simp [Space.active, h1, h2]
  have hfiles : (ids.zipIdx.map fun e => (e.2, e.1)).map (fun e => ((s.heap[e.2]?).map (·.fileName)).getD []) =
      (ids.map fun i => (frame i, rest i)).map fun e => frameFile stem e.1 e.2 := by
    rw [List.map_map, List.map_map]
    have : ids.zipIdx.map Prod.fst = ids := by simp
    conv_rhs => rw [← this, List.map_map]
    refine List.map_congr_left fun e he => ?_
    obtain ⟨i, k⟩ := e
    obtain ⟨d, h1, -, h3⟩ := hf i (List.fst_mem_of_mem_zipIdx he)
    simp [h1, h3]
  refine ⟨sortedDistinct (ids.map fun i => (frame i : Int)), ?_, sortedDistinct_ascending _⟩
  unfold setFrame
  rw [toList_single hd ha, toList_single hd ha]
  simp only [bind, Except.bind]
  rw [hfiles, fileFrames_block hs (by
    obtain ⟨i, hi, j, hj, h⟩ := hl
    exact ⟨_, List.mem_map.2 ⟨i, hi, rfl⟩, _, List.mem_map.2 ⟨j, hj, rfl⟩, h⟩)]
  simp only [List.map_map]
  rw [mapM_assign _ _ (fun i => (frame i : Int)) (fun e he => by
    obtain ⟨⟨i, k⟩, h1, rfl⟩ := List.mem_map.1 he
    have h2 := List.mem_zipIdx_iff_getElem?.1 h1
    simp only at h2 ⊢
    rw [List.getElem?_map, h2]
    rfl)]
  simp only [pure, Except.pure, Except.ok.injEq, Prod.mk.injEq]
  refine ⟨?_, rfl⟩
  rw [List.map_map]
  have : ids.zipIdx.map Prod.fst = ids := by simp
  conv_rhs => rw [← this, List.map_map]
  rfl

theorem digit_infix {stem : Str} (hs : ¬ ".gkyl".toList <:+: stem) {c : Char} (hc : c ≠ 'l') :
    ¬ ".gkyl".toList <:+: stem ++ [c] := by
  rintro ⟨a, b, h⟩
  rcases List.eq_nil_or_concat b with rfl | ⟨b', x, rfl⟩
  · rw [List.append_nil, show ".gkyl".toList = ".gky".toList ++ ['l'] from by decide, ← List.append_assoc] at h
    have := (List.append_inj' h rfl).2
    exact hc (by simpa using this.symm)
  · rw [List.concat_eq_append, ← List.append_assoc] at h
    exact hs ⟨a, b', (List.append_inj' h rfl).1⟩

/-- C81 fails for frame numbers that all start with the same digit: of the frames 10 to 19 only the last digit is
read. -/
theorem C81_same_digit_fails {stem : Str} (hs : ¬ ".gkyl".toList <:+: stem) {l : List (Nat × Str)}
    (h10 : ∀ e ∈ l, e.1 < 10) (hd : ∃ a ∈ l, ∃ b ∈ l, a.1 ≠ b.1) :
    fileFrames (l.map fun e => frameFile stem (10 + e.1) e.2) = .ok (l.map fun e => (e.1 : Int)) := by
  have h1 : ∀ k < 10, Nat.toDigits 10 (10 + k) = '1' :: Nat.toDigits 10 k := by decide
  have h2 : ∀ a < 10, ∀ b < 10, leadDigit a = leadDigit b → a = b := by decide
  rw [← fileFrames_block (digit_infix hs (c := '1') (by decide)) (l := l)]
  · congr 1
    refine List.map_congr_left fun e he => ?_
    unfold frameFile
    rw [h1 _ (h10 e he)]
    simp
  · obtain ⟨a, ha, b, hb, h⟩ := hd
    exact ⟨a, ha, b, hb, fun h' => h (h2 _ (h10 a ha) _ (h10 b hb) h')⟩

/-- C81 fails for a single frame: the blocks `..._b0.gkyl`, `..._b1.gkyl`, ... of one frame `n` are taken for
different frames, the number of the block for that of the frame. -/
theorem C81_single_frame_fails {stem : Str} {n : Nat} (hs : ¬ ".gkyl".toList <:+: stem ++ (Nat.toDigits 10 n ++ "_b".toList))
    {blocks : List Nat} (hd : ∃ a ∈ blocks, ∃ b ∈ blocks, leadDigit a ≠ leadDigit b) :
    fileFrames (blocks.map fun b => frameFile stem n ('b' :: Nat.toDigits 10 b)) =
      .ok (blocks.map fun b : Nat => (b : Int)) := by
  have := fileFrames_number hs (l := blocks.map fun b => (b, ".gkyl".toList))
    (fun e he => by
      obtain ⟨e', -, rfl⟩ := List.mem_map.1 he
      exact Or.inl rfl)
    (by
      obtain ⟨a, ha, b, hb, h⟩ := hd
      exact ⟨_, List.mem_map.2 ⟨a, ha, rfl⟩, _, List.mem_map.2 ⟨b, hb, rfl⟩, h⟩)
  rw [List.map_map, List.map_map] at this
  rw [show (fun b => frameFile stem n ('b' :: Nat.toDigits 10 b)) = (fun e : Nat × Str => stem ++
    (Nat.toDigits 10 n ++ "_b".toList) ++ (Nat.toDigits 10 e.1 ++ e.2)) ∘ fun b => (b, ".gkyl".toList) from by
      funext b
      simp [frameFile]]
  exact this

/-- C81 fails for a single file: the command ends in an error. -/
theorem C81_single_file_fails (f : Str) : fileFrames [f] = .error .typeError := by
  have : firstDiff [f] f = none := by simp [firstDiff, List.find?_eq_none]
  simp [fileFrames, shortest, this]

/-- C81 fails for datasets with different tags: the first dataset of the second tag gets the frame of the first dataset
of the first one. -/
theorem C81_tags_fails {F : Type} {s : Space F} {t u : Tag} (htu : t ≠ u) {d e : GData F} {stem : Str}
    {m n : Nat} {r r' : Str} (hs : ¬ ".gkyl".toList <:+: stem) (hdict : s.dict = [(t, [0]), (u, [1])])
    (hheap : s.heap = [d, e]) (h1 : d.status = true) (h2 : e.status = true)
    (hdf : d.fileName = frameFile stem m r) (hef : e.fileName = frameFile stem n r')
    (hmn : leadDigit m ≠ leadDigit n) : ∃ frames, setFrame s = .ok ([(0, (m : Int)), (1, (m : Int))], frames) := by
  have a0 : s.active 0 = true := by simp [Space.active, hheap, h1]
  have a1 : s.active 1 = true := by simp [Space.active, hheap, h2]
  have hl : ∀ enum, s.toList none enum true .none = .ok [(0, 0), (0, 1)] := fun enum => by
    rw [Space.toList_none (ls := fun v => if v = t then [0] else [1]) (fun v hv => by
      simp only [Space.tagsOf, hdict, List.map_cons, List.map_nil, List.mem_cons, List.not_mem_nil, or_false] at hv
      rcases hv with rfl | rfl
      · simp [Space.lookup, hdict]
      · simp [Space.lookup, hdict, htu, Ne.symm htu]) enum true]
    simp [Space.tagsOf, hdict, visit, List.zipIdx, a0, a1, Ne.symm htu]
  have hff := fileFrames_block hs (l := [(m, r), (n, r')]) ⟨(m, r), by simp, (n, r'), by simp, hmn⟩
  refine ⟨sortedDistinct [(m : Int), (n : Int)], ?_⟩
  unfold setFrame
  rw [hl, hl]
  simp only [bind, Except.bind, List.map_cons, List.map_nil, hheap, List.getElem?_cons_zero, List.getElem?_cons_succ,
    Option.map_some, Option.getD_some, hdf, hef]
  simp only [List.map_cons, List.map_nil] at hff
  rw [hff]
  rfl

/-- Frames 0 and 1 of two blocks: the hypotheses of C81 are met. -/
example : ∃ s : Space Nat, ∃ frames, setFrame s = .ok ([(0, 0), (1, 0), (2, 1), (3, 1)], frames) ∧
    Ascending [0, 0, 1, 1] frames := by
  let file (n b : Nat) : GData Nat := { fileName := frameFile "sim_".toList n ('b' :: Nat.toDigits 10 b) }
  obtain ⟨frames, h1, h2⟩ := C81_frames_partial (F := Nat)
    (s := ⟨[file 0 0, file 0 1, file 1 0, file 1 1], [("default".toList, [0, 1, 2, 3])]⟩)
    (stem := "sim_".toList) (frame := fun i => i / 2) (rest := fun i => 'b' :: Nat.toDigits 10 (i % 2)) rfl
    (by decide) (by
      intro i hi
      simp only [List.mem_cons, List.not_mem_nil, or_false] at hi
      rcases hi with rfl | rfl | rfl | rfl <;> exact ⟨_, rfl, rfl, rfl⟩)
    ⟨0, by simp, 2, by simp, by decide⟩
  exact ⟨_, frames, h1, h2⟩

/-- Frames 10 and 11 are taken for 0 and 1. -/
example : fileFrames ["sim_10_b0.gkyl".toList, "sim_11_b0.gkyl".toList] = .ok [0, 1] :=
  C81_same_digit_fails (stem := "sim_".toList) (by decide) (l := [(0, "b0".toList), (1, "b0".toList)]) (by decide)
    ⟨(0, "b0".toList), by simp, (1, "b0".toList), by simp, by decide⟩

/-- Blocks 0 and 1 of frame 7 are taken for frames 0 and 1. -/
example : fileFrames ["sim_7_b0.gkyl".toList, "sim_7_b1.gkyl".toList] = .ok [0, 1] :=
  C81_single_frame_fails (stem := "sim_".toList) (n := 7) (by decide) (blocks := [0, 1])
    ⟨0, by simp, 1, by simp, by decide⟩

/-- Frame 3 under the second tag gets number 2. -/
example : ∃ frames, setFrame (F := Nat)
    ⟨[{ fileName := frameFile "s_".toList 2 "b0".toList }, { fileName := frameFile "s_".toList 3 "b0".toList }],
      [("a".toList, [0]), ("b".toList, [1])]⟩ = .ok ([(0, 2), (1, 2)], frames) :=
  C81_tags_fails (by decide) (by decide) rfl rfl rfl rfl rfl rfl (by decide)

end Pgkyl.Anim
