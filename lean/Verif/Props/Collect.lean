import Verif.Lemmas.CollectCmd
/-! # C32, C33: collecting frames -/

namespace Pgkyl
open Spec Space Collect
variable {F : Type} [Zero F] [DecidableEq F] [IntCast F] [Add F] [Sub F] [LinearOrder F]

/-- C32: `collect` of the active datasets of one tag, all frames of one shape and with non-zero times, replaces them by
one active dataset whose first coordinate is the sorted list of the times, and whose `k`-th slice is the values that go
with the `k`-th time; no frame is lost or duplicated.

Missing: frames with time 0, for which the claim fails (`C32_zero_time_fails`). -/
theorem C32_collect_partial {timeOf : GData F → Option F} {frameOf : GData F → Option Int} {argsort : List F → List Nat}
    (ha : IsArgsort argsort) (fmod : F → F → F) {o : Opts F} {s : Space F} (hs : Reachable s) {tag : Tag} (h0 : tag ≠ [])
    (hcm : ',' ∉ tag) (hu : o.use = some tag) (hT : o.tag = none) (hsd : o.sumdata = false) (hp : o.period = none)
    (hc : o.chunk = none) {ids : List Nat} (hl : s.lookup tag = some ids) {sh : List Nat}
    {C : List (F × NArr F × List (NArr F))} (hC : C ≠ [])
    (hL : List.Forall₂ (fun e c => Frame timeOf sh e.2 c ∧ c.1 ≠ 0) (activeOf s ids) C) :
    ∃ s' out, collectCmd timeOf frameOf argsort fmod o s = .ok s' ∧ Replaced s s' ids tag [out] ∧
      Collected out (firstGrid C) (C.map fun c => (c.1, c.2.1)) := by
  have hm := frames_mem hL
  obtain ⟨s', outs, h1, h2, h3⟩ := collect_core ha fmod hs h0 hcm hu hl (by simp [hc]) hC
    (frames_contribute (frameOf := frameOf) (o := o) hsd hL) (sh := sh)
    (fun c hcc => by obtain ⟨⟨e, _, hf⟩, _⟩ := hm c hcc; exact ⟨hf.wf, hf.shape⟩) (by simp [hsd])
    (fun _ c hcc => by obtain ⟨⟨e, _, hf⟩, _⟩ := hm c hcc; exact ⟨hf.dims, hf.axes⟩) hT
  rw [hc, show size none = none from rfl, go_none] at h3
  match outs, h3 with
  | [out], .cons h .nil =>
    refine ⟨s', out, h1, h2, ?_⟩
    have hw : ∀ c : F × NArr F × List (NArr F), (written fmod o c.1, c.2.1) = (c.1, c.2.1) := fun c => by
      simp [written, hp]
    simpa [hsd, hw] using h.2

/-- C32 with a period: the first coordinate is the sorted list of `(t - offset) % period`. -/
theorem C32_collect_period_partial {timeOf : GData F → Option F} {frameOf : GData F → Option Int}
    {argsort : List F → List Nat} (ha : IsArgsort argsort) (fmod : F → F → F) {o : Opts F} {s : Space F}
    (hs : Reachable s) {tag : Tag} (h0 : tag ≠ []) (hcm : ',' ∉ tag) (hu : o.use = some tag) (hT : o.tag = none)
    (hsd : o.sumdata = false) {p : F} (hp : o.period = some p) (hp0 : p ≠ 0) (hc : o.chunk = none) {ids : List Nat}
    (hl : s.lookup tag = some ids) {sh : List Nat} {C : List (F × NArr F × List (NArr F))} (hC : C ≠ [])
    (hL : List.Forall₂ (fun e c => Frame timeOf sh e.2 c ∧ c.1 ≠ 0) (activeOf s ids) C) :
    ∃ s' out, collectCmd timeOf frameOf argsort fmod o s = .ok s' ∧ Replaced s s' ids tag [out] ∧
      Collected out (firstGrid C) (C.map fun c => (fmod (c.1 - o.offset) p, c.2.1)) := by
  have hm := frames_mem hL
  obtain ⟨s', outs, h1, h2, h3⟩ := collect_core ha fmod hs h0 hcm hu hl (by simp [hc]) hC
    (frames_contribute (frameOf := frameOf) (o := o) hsd hL) (sh := sh)
    (fun c hcc => by obtain ⟨⟨e, _, hf⟩, _⟩ := hm c hcc; exact ⟨hf.wf, hf.shape⟩) (by simp [hsd])
    (fun _ c hcc => by obtain ⟨⟨e, _, hf⟩, _⟩ := hm c hcc; exact ⟨hf.dims, hf.axes⟩) hT
  rw [hc, show size none = none from rfl, go_none] at h3
  match outs, h3 with
  | [out], .cons h .nil =>
    refine ⟨s', out, h1, h2, ?_⟩
    have hw : ∀ c : F × NArr F × List (NArr F), (written fmod o c.1, c.2.1) = (fmod (c.1 - o.offset) p, c.2.1) :=
      fun c => by simp [written, hp, hp0]
    simpa [hsd, hw] using h.2

/-- C33: with `--chunk n` the active datasets are split, in order, into consecutive groups of `n` (the last possibly
shorter) and each group gives one collected dataset, in the same order.  (The time stamps `ts` a group is sorted by are
the times of its frames if these are not 0, see `C33_times_partial`.) -/
theorem C33_chunks {timeOf : GData F → Option F} {frameOf : GData F → Option Int} {argsort : List F → List Nat}
    (ha : IsArgsort argsort) (fmod : F → F → F) {o : Opts F} {s : Space F} (hs : Reachable s) {tag : Tag} (h0 : tag ≠ [])
    (hcm : ',' ∉ tag) (hu : o.use = some tag) (hT : o.tag = none) (hsd : o.sumdata = false)
    {n : Nat} (hn : 1 ≤ n) (hc : o.chunk = some (n : Int)) {ids : List Nat} (hl : s.lookup tag = some ids) {sh : List Nat}
    {C : List (F × NArr F × List (NArr F))} (hC : C ≠ [])
    (hL : List.Forall₂ (fun e c => Frame timeOf sh e.2 c ∧ (c.1 = 0 → ∃ f, frameOf e.2 = some f)) (activeOf s ids) C) :
    ∃ s' groups outs, collectCmd timeOf frameOf argsort fmod o s = .ok s' ∧ IsChunks n C groups ∧
      Replaced s s' ids tag outs ∧
      List.Forall₂ (fun g out => ∃ ts : List F, ts.length = g.length ∧
        Collected out (firstGrid g) (ts.zip (g.map fun c => c.2.1))) groups outs := by
  have hm := frames_mem' hL
  obtain ⟨C', hL', hCC⟩ := frames_stamped (frameOf := frameOf) (o := o) hsd hL
  have hsz : size (some (n : Int)) = some n := by
    simp only [size]
    rw [if_neg (by omega)]
    simp
  have hm' : ∀ c ∈ C', c.2.1.WF ∧ c.2.1.shape = sh ∧ c.2.2.length + 1 = sh.length ∧ ∀ g ∈ c.2.2, g.data ≠ [] := by
    intro c hc
    have : c.2 ∈ C.map Prod.snd := by rw [← hCC]; exact List.mem_map.2 ⟨c, hc, rfl⟩
    obtain ⟨c', hc', he⟩ := List.mem_map.1 this
    rw [← he]
    exact hm c' hc'
  obtain ⟨s', outs, h1, h2, h3⟩ := collect_core ha fmod hs h0 hcm hu hl (by simp [hc]) (C := C')
    (by rintro rfl; exact hC (by simpa using hCC.symm)) hL' (sh := sh)
    (fun c hcc => ⟨(hm' c hcc).1, (hm' c hcc).2.1⟩) (by simp [hsd])
    (fun _ c hcc => (hm' c hcc).2.2) hT
  rw [hc, hsz] at h3
  have hch := go_chunks hn C [] [] (by simp) (by simp) (by simpa using hC)
  refine ⟨s', go (some n) [] [] C, outs, h1, ⟨by simpa using go_flatten (some n) C [] [], hch.1, hch.2⟩, h2, ?_⟩
  have e1 := go_map (Prod.snd : F × NArr F × List (NArr F) → _) (some n) C [] []
  have e2 := go_map (Prod.snd : F × NArr F × List (NArr F) → _) (some n) C' [] []
  rw [hCC, e1] at e2
  rw [List.forall₂_iff_get] at h3 ⊢
  have hlen : (go (some n) [] [] C).length = (go (some n) [] [] C').length := by
    have := congrArg List.length e2
    simpa using this
  refine ⟨hlen.trans h3.1, fun k k1 k2 => ?_⟩
  have := h3.2 k (hlen ▸ k1) k2
  have hk : ((go (some n) [] [] C)[k]).map Prod.snd = ((go (some n) [] [] C')[k]'(hlen ▸ k1)).map Prod.snd := by
    have := congrArg (fun l => l[k]?) e2
    simp only [List.getElem?_map, List.getElem?_eq_getElem k1, List.getElem?_eq_getElem (hlen ▸ k1), Option.map_some,
      Option.some.injEq] at this
    exact this
  simp only [List.get_eq_getElem] at this ⊢
  generalize (go (some n) [] [] C)[k] = g at hk ⊢
  generalize (go (some n) [] [] C')[k]'(hlen ▸ k1) = g' at hk this
  refine ⟨g'.map fun c => written fmod o c.1, ?_, ?_⟩
  · have := congrArg List.length hk
    simpa using this.symm
  · have hg : firstGrid g = firstGrid g' := by
      cases g with
      | nil => cases g' with
        | nil => rfl
        | cons => simp at hk
      | cons a as => cases g' with
        | nil => simp at hk
        | cons b bs =>
          simp only [List.map_cons, List.cons.injEq] at hk
          simp [firstGrid, hk.1]
    have hv : (g.map fun c => c.2.1) = g'.map fun c => c.2.1 := by
      have := congrArg (List.map Prod.fst) hk
      rw [List.map_map, List.map_map] at this
      exact this
    rw [hg, hv, List.zip_map']
    simpa [hsd] using this.2

/-- C33 with C32: every chunk's first coordinate is the sorted list of the times of its frames.

Missing: frames with time 0 (`C32_zero_time_fails`). -/
theorem C33_times_partial {timeOf : GData F → Option F} {frameOf : GData F → Option Int} {argsort : List F → List Nat}
    (ha : IsArgsort argsort) (fmod : F → F → F) {o : Opts F} {s : Space F} (hs : Reachable s) {tag : Tag} (h0 : tag ≠ [])
    (hcm : ',' ∉ tag) (hu : o.use = some tag) (hT : o.tag = none) (hsd : o.sumdata = false) (hp : o.period = none)
    {n : Nat} (hn : 1 ≤ n) (hc : o.chunk = some (n : Int)) {ids : List Nat} (hl : s.lookup tag = some ids) {sh : List Nat}
    {C : List (F × NArr F × List (NArr F))} (hC : C ≠ [])
    (hL : List.Forall₂ (fun e c => Frame timeOf sh e.2 c ∧ c.1 ≠ 0) (activeOf s ids) C) :
    ∃ s' groups outs, collectCmd timeOf frameOf argsort fmod o s = .ok s' ∧ IsChunks n C groups ∧
      Replaced s s' ids tag outs ∧
      List.Forall₂ (fun g out => Collected out (firstGrid g) (g.map fun c => (c.1, c.2.1))) groups outs := by
  have hm := frames_mem hL
  obtain ⟨s', outs, h1, h2, h3⟩ := collect_core ha fmod hs h0 hcm hu hl (by simp [hc]) hC
    (frames_contribute (frameOf := frameOf) (o := o) hsd hL) (sh := sh)
    (fun c hcc => by obtain ⟨⟨e, _, hf⟩, _⟩ := hm c hcc; exact ⟨hf.wf, hf.shape⟩) (by simp [hsd])
    (fun _ c hcc => by obtain ⟨⟨e, _, hf⟩, _⟩ := hm c hcc; exact ⟨hf.dims, hf.axes⟩) hT
  have hsz : size (some (n : Int)) = some n := by
    simp only [size]
    rw [if_neg (by omega)]
    simp
  rw [hc, hsz] at h3
  have hch := go_chunks hn C [] [] (by simp) (by simp) (by simpa using hC)
  refine ⟨s', _, outs, h1, ⟨by simpa using go_flatten (some n) C [] [], hch.1, hch.2⟩, h2, h3.imp fun g out h => ?_⟩
  have hw : ∀ c : F × NArr F × List (NArr F), (written fmod o c.1, c.2.1) = (c.1, c.2.1) := fun c => by
    simp [written, hp]
  simpa [hsd, hw] using h.2

/-- C32 is false for frames with time 0: two datasets with times 1 and 0 are collected at the coordinates 1 and 1 (the
position of the second one), whatever the sorting function, and the frame with time 0 need not come first. -/
theorem C32_zero_time_fails {argsort : List F → List Nat} (ha : IsArgsort argsort) (fmod : F → F → F)
    {timeOf : GData F → Option F} {frameOf : GData F → Option Int} {o : Opts F} {s : Space F} (hs : Reachable s)
    {tag : Tag} (h0 : tag ≠ []) (hcm : ',' ∉ tag) (hu : o.use = some tag) (hT : o.tag = none) (hsd : o.sumdata = false)
    (hp : o.period = none) (hc : o.chunk = none) {i j : Nat} (hl : s.lookup tag = some [i, j]) {d e : GData F}
    (hi : s.heap[i]? = some d) (hj : s.heap[j]? = some e) (hda : d.status = true) (hea : e.status = true) {sh : List Nat}
    {u v : NArr F} {g h : List (NArr F)} {t : F} (ht : t ≠ 0) (ht1 : t = ((1 : Int) : F)) (hd : Frame timeOf sh d (t, u, g))
    (he : Frame timeOf sh e (0, v, h)) (hf : frameOf e = some 0) :
    ∃ s' out, collectCmd timeOf frameOf argsort fmod o s = .ok s' ∧ Replaced s s' [i, j] tag [out] ∧
      ∃ gr, out.grid = some (NArr.ofList [t, t] :: gr) := by
  have hL : activeOf s [i, j] = [(0, d), (1, e)] := by simp [activeOf, List.zipIdx, hi, hj, hda, hea]
  obtain ⟨s', outs, h1, h2, h3⟩ := collect_core (timeOf := timeOf) (frameOf := frameOf) ha fmod hs h0 hcm hu hl
    (by simp [hc]) (C := [(t, u, g), (t, v, h)]) (by simp)
    (by
      rw [hL]
      refine .cons ⟨by simp [stamp, hd.time, ht], hd.grid, hd.nonempty, u, hd.values, by simp [summed, hsd]⟩
        (.cons ⟨?_, he.grid, he.nonempty, v, he.values, by simp [summed, hsd]⟩ .nil)
      simp [stamp, he.time, hf, ht1])
    (sh := sh)
    (by simp only [List.mem_cons, List.not_mem_nil, or_false, forall_eq_or_imp, forall_eq]
        exact ⟨⟨hd.wf, hd.shape⟩, he.wf, he.shape⟩) (by simp [hsd])
    (by simp only [List.mem_cons, List.not_mem_nil, or_false, forall_eq_or_imp, forall_eq]
        exact fun _ => ⟨⟨hd.dims, hd.axes⟩, he.dims, he.axes⟩) hT
  rw [hc, show size none = none from rfl, go_none] at h3
  match outs, h3 with
  | [out], .cons hh .nil =>
    refine ⟨s', out, h1, h2, ?_⟩
    obtain ⟨order, V, q1, _, q3, _⟩ := hh.2
    have hw : ∀ x : F, written fmod o x = x := fun x => by simp [written, hp]
    have hperm := q1.map Prod.fst
    simp only [List.nil_append, List.map_cons, List.map_nil, hw] at hperm
    have : order.map Prod.fst = [t, t] := by
      have := List.perm_replicate (n := 2) (a := t) (l := order.map Prod.fst)
      exact this.1 hperm
    rw [this] at q3
    exact ⟨_, q3⟩

/-- C32: a dataset without a time in its metadata makes `collect` fail. -/
theorem C32_missing_time_fails {argsort : List F → List Nat} {fmod : F → F → F} {timeOf : GData F → Option F}
    {frameOf : GData F → Option Int} {o : Opts F} {s : Space F} {tag : Tag} (h0 : tag ≠ []) (hcm : ',' ∉ tag)
    (hu : o.use = some tag) {ids : List Nat} (hl : s.lookup tag = some ids) {e : Nat × GData F} {L : List (Nat × GData F)}
    (hL : activeOf s ids = e :: L) (ht : timeOf e.2 = none) :
    collectCmd timeOf frameOf argsort fmod o s = .error .keyError := by
  rw [collectCmd_one h0 hcm hu]
  have htg : s.tagsOf (some tag) = [tag] := by simp only [tagsOf, if_neg h0, splitOn_notMem hcm]
  have hlist := toList_none (s := s) (tag := some tag) (ls := fun _ => ids) (by rw [htg]; simpa using hl) true true
  rw [htg] at hlist
  simp only [List.flatMap_cons, List.flatMap_nil, List.append_nil] at hlist
  have hvis : (visit s.active true ids).foldlM (init := ({} : St F)) (stepAt timeOf frameOf o s) = .error .keyError := by
    refine (foldlM_visit s (step timeOf frameOf o) ids {}).trans ?_
    rw [hL, List.foldlM_cons]
    have : step timeOf frameOf o {} e.1 e.2 = .error .keyError := by
      simp [step, stamp, ht, bind, Except.bind]
    rw [this]
    rfl
  unfold collectTag
  rw [hlist]
  simp only [bind, Except.bind, hvis]

/-- C32: the result of a collection cannot be collected again: it carries no time. -/
theorem C32_collect_twice_fails {timeOf : GData F → Option F} {frameOf : GData F → Option Int}
    {argsort : List F → List Nat} (ha : IsArgsort argsort) (fmod : F → F → F) {o : Opts F} {s : Space F}
    (hs : Reachable s) {tag : Tag} (h0 : tag ≠ []) (hcm : ',' ∉ tag) (hu : o.use = some tag) (hT : o.tag = none)
    (hsd : o.sumdata = false) (hc : o.chunk = none) {ids : List Nat} (hl : s.lookup tag = some ids) {sh : List Nat}
    {C : List (F × NArr F × List (NArr F))} (hC : C ≠ [])
    (hL : List.Forall₂ (fun e c => Frame timeOf sh e.2 c ∧ c.1 ≠ 0) (activeOf s ids) C)
    (hkey : ∀ d : GData F, d.ctx.other = [] → timeOf d = none) :
    (collectCmd timeOf frameOf argsort fmod o s).bind (collectCmd timeOf frameOf argsort fmod o) =
      .error .keyError := by
  have hm := frames_mem hL
  obtain ⟨s', outs, h1, h2, h3⟩ := collect_core ha fmod hs h0 hcm hu hl (by simp [hc]) hC
    (frames_contribute (frameOf := frameOf) (o := o) hsd hL) (sh := sh)
    (fun c hcc => by obtain ⟨⟨e, _, hf⟩, _⟩ := hm c hcc; exact ⟨hf.wf, hf.shape⟩) (by simp [hsd])
    (fun _ c hcc => by obtain ⟨⟨e, _, hf⟩, _⟩ := hm c hcc; exact ⟨hf.dims, hf.axes⟩) hT
  rw [hc, show size none = none from rfl, go_none] at h3
  match outs, h3 with
  | [out], .cons h .nil =>
    rw [h1]
    obtain ⟨q1, q2, q3, q4, q5⟩ := h2
    obtain ⟨r1, r2, r3⟩ := q3 0 out rfl
    have hlk : s'.lookup tag = some (ids ++ [s.heap.length]) := by
      rw [hl] at q5
      cases hx : s'.lookup tag with
      | none => rw [hx] at q5; simp at q5
      | some y => rw [hx] at q5; simpa using q5
    have hact : activeOf s' (ids ++ [s.heap.length]) = [(ids.length, out)] := by
      unfold activeOf
      rw [List.zipIdx_append, List.filterMap_append]
      have e1 : ids.zipIdx.filterMap (fun e => (s'.heap[e.1]?).bind fun d =>
          if d.status = true then some (e.2, d) else none) = [] := by
        rw [List.filterMap_eq_nil_iff]
        intro e he
        have hmem : e.1 ∈ ids := by
          rw [List.mem_zipIdx_iff_getElem?] at he
          exact List.mem_of_getElem? he
        have hlt := (reachable_inv hs).lt hl hmem
        rw [q2 e.1 hlt, if_pos hmem, List.getElem?_eq_getElem hlt]
        rfl
      rw [e1]
      have : s'.heap[s.heap.length]? = some out := by simpa using r1
      simp [List.zipIdx, this, r2]
    exact C32_missing_time_fails h0 hcm hu hlk hact (hkey out h.1)

/-! ### Collecting sums -/

section Sum
variable {K : Type} [_root_.Field K] [LinearOrder K]

/-- C32 with `--sumdata`: the collected slices are the sums over all cells, one number per component. -/
theorem C32_collect_sum_partial {timeOf : GData K → Option K} {frameOf : GData K → Option Int}
    {argsort : List K → List Nat} (ha : IsArgsort argsort) (fmod : K → K → K) {o : Opts K} {s : Space K}
    (hs : Reachable s) {tag : Tag} (h0 : tag ≠ []) (hcm : ',' ∉ tag) (hu : o.use = some tag) (hT : o.tag = none)
    (hsd : o.sumdata = true) (hp : o.period = none) (hc : o.chunk = none) {ids : List Nat}
    (hl : s.lookup tag = some ids) {cells : List Nat} {m : Nat} {C : List (K × NArr K × List (NArr K))} (hC : C ≠ [])
    (hL : List.Forall₂ (fun e c => Frame timeOf (cells ++ [m]) e.2 c ∧ c.1 ≠ 0 ∧ e.2.ctx.cells = some cells)
      (activeOf s ids) C) :
    ∃ s' out sums, collectCmd timeOf frameOf argsort fmod o s = .ok s' ∧ Replaced s s' ids tag [out] ∧
      List.Forall₂ (fun (c : K × NArr K × List (NArr K)) (e : K × NArr K) => e.1 = c.1 ∧ e.2.shape = [m] ∧
        ∀ k < m, e.2.get? [k] = some ((indices cells).map fun i => (c.2.1.get? (i ++ [k])).getD 0).sum) C sums ∧
      Collected out [] sums := by
  have hex : ∀ {L : List (Nat × GData K)} {C : List (K × NArr K × List (NArr K))},
      List.Forall₂ (fun e c => Frame timeOf (cells ++ [m]) e.2 c ∧ c.1 ≠ 0 ∧ e.2.ctx.cells = some cells) L C →
      ∃ C' : List (K × NArr K × List (NArr K)), List.Forall₂ (Contributes timeOf frameOf o) L C' ∧
        List.Forall₂ (fun (c c' : K × NArr K × List (NArr K)) => c'.1 = c.1 ∧ c'.2.1.shape = [m] ∧ c'.2.1.WF ∧
          ∀ k < m, c'.2.1.get? [k] = some ((indices cells).map fun i => (c.2.1.get? (i ++ [k])).getD 0).sum) C C' := by
    intro L C h
    induction h with
    | nil => exact ⟨[], .nil, .nil⟩
    | @cons e c L C h _ ih =>
      obtain ⟨C', h1, h2⟩ := ih
      obtain ⟨hf, hne, hcl⟩ := h
      obtain ⟨u, hu1, hu2, hu3, hu4⟩ := NArr.sumAxes_ok hf.wf hf.shape
      refine ⟨(c.1, u, c.2.2) :: C', .cons ⟨by simp [stamp, hf.time, hne], hf.grid, hf.nonempty, c.2.1, hf.values, ?_⟩ h1,
        .cons ⟨rfl, hu3, hu2, hu4⟩ h2⟩
      have : e.2.numDims = cells.length := by simp [GData.numDims, GData.numCells, hcl]
      simp only [summed, hsd, if_true, this]
      exact hu1
  obtain ⟨C', hL', hCC⟩ := hex hL
  have hm : ∀ c ∈ C', c.2.1.WF ∧ c.2.1.shape = [m] := by
    intro c hc
    clear hL' hL
    induction hCC with
    | nil => simp at hc
    | cons h _ ih =>
      rcases List.mem_cons.1 hc with rfl | hc
      · exact ⟨h.2.2.1, h.2.1⟩
      · exact ih (by
          rintro rfl
          rename_i h' 
          cases h'
          simp at hc) hc
  obtain ⟨s', outs, h1, h2, h3⟩ := collect_core ha fmod hs h0 hcm hu hl (by simp [hc]) (C := C')
    (by rintro rfl; cases hCC; exact hC rfl) hL' (sh := [m]) hm (by simp) (by simp [hsd]) hT
  rw [hc, show size none = none from rfl, go_none] at h3
  match outs, h3 with
  | [out], .cons h .nil =>
    refine ⟨s', out, C'.map fun c => (c.1, c.2.1), h1, h2, ?_, ?_⟩
    · rw [List.forall₂_map_right_iff]
      exact hCC.imp fun c c' h => ⟨h.1, h.2.1, h.2.2.2⟩
    · have hw : ∀ c : K × NArr K × List (NArr K), (written fmod o c.1, c.2.1) = (c.1, c.2.1) := fun c => by
        simp [written, hp]
      simpa [hsd, hw] using h.2

end Sum

/-! ### The hypotheses are met -/

namespace CollectEx

/-- A sorting function. -/
def argsort (l : List ℚ) : List Nat := (l.zipIdx.mergeSort fun a b => a.1 ≤ b.1).map Prod.snd

theorem argsort_ok : IsArgsort argsort := by
  intro l
  have hp : (l.zipIdx.mergeSort fun a b => decide (a.1 ≤ b.1)).Perm l.zipIdx := List.mergeSort_perm _ _
  refine ⟨?_, ?_⟩
  · have := hp.map Prod.snd
    rwa [List.zipIdx_map_snd, ← List.range_eq_range'] at this
  · have hs := List.pairwise_mergeSort (le := fun a b : ℚ × Nat => decide (a.1 ≤ b.1))
      (fun a b c h1 h2 => by simp only [decide_eq_true_eq] at *; exact h1.trans h2)
      (fun a b => by simp only [Bool.or_eq_true, decide_eq_true_eq]; exact le_total _ _) l.zipIdx
    have : (argsort l).filterMap (fun j => l[j]?) =
        (l.zipIdx.mergeSort fun a b => decide (a.1 ≤ b.1)).map Prod.fst := by
      unfold argsort
      rw [List.filterMap_map, ← List.filterMap_eq_map]
      refine List.filterMap_congr fun e he => ?_
      have he' := hp.mem_iff.1 he
      rw [List.mem_zipIdx_iff_getElem?] at he'
      exact he'
    rw [this, List.pairwise_map]
    exact hs.imp fun h => by simpa using h

/-- The time stored in the metadata under the key "time" (whole numbers only, in decimal). -/
def timeOf (d : GData ℚ) : Option ℚ :=
  match d.ctx.other.find? (fun e => e.1 = "time") with
  | some e => some (if e.2 = "3" then 3 else if e.2 = "1" then 1 else 0)
  | none => none

def frameOf (_ : GData ℚ) : Option Int := some 0

/-- A frame on two cells. -/
def frame (time : String) (a b : ℚ) : GData ℚ where
  grid := some [⟨[3], [0, 1, 2]⟩]
  values := some ⟨[2, 1], [a, b]⟩
  ctx := { cells := some [2], numComps := some 1, lower := some [0], upper := some [2], other := [("time", time)] }

def tag : Tag := "default".toList

/-- Three frames at times 3, 1, 3. -/
def store : Space ℚ := ((({} : Space ℚ).addNew (frame "3" 5 6)).addNew (frame "1" 7 8)).addNew (frame "3" 9 10)

theorem store_reachable : Reachable store := ((Reachable.empty.add _).add _).add _

def C : List (ℚ × NArr ℚ × List (NArr ℚ)) :=
  [(3, ⟨[2, 1], [5, 6]⟩, [⟨[3], [0, 1, 2]⟩]), (1, ⟨[2, 1], [7, 8]⟩, [⟨[3], [0, 1, 2]⟩]),
    (3, ⟨[2, 1], [9, 10]⟩, [⟨[3], [0, 1, 2]⟩])]

theorem isFrame (time : String) (a b t : ℚ) (h : timeOf (frame time a b) = some t) :
    Frame timeOf [2, 1] (frame time a b) (t, ⟨[2, 1], [a, b]⟩, [⟨[3], [0, 1, 2]⟩]) where
  time := h
  values := rfl
  wf := rfl
  shape := rfl
  grid := rfl
  dims := rfl
  nonempty := by simp
  axes := by simp

theorem active : activeOf store [0, 1, 2] = [(0, frame "3" 5 6), (1, frame "1" 7 8), (2, frame "3" 9 10)] := rfl

theorem frames : List.Forall₂ (fun e c => Frame timeOf [2, 1] e.2 c ∧ c.1 ≠ 0) (activeOf store [0, 1, 2]) C := by
  rw [active]
  exact .cons ⟨isFrame _ _ _ _ rfl, by norm_num [C]⟩ (.cons ⟨isFrame _ _ _ _ rfl, by norm_num [C]⟩
    (.cons ⟨isFrame _ _ _ _ rfl, by norm_num [C]⟩ .nil))

/-- C32 applies to the three frames. -/
example : ∃ s' out, collectCmd timeOf frameOf argsort (fun a _ => a) { use := some tag, offset := 0 } store = .ok s' ∧
    Replaced store s' [0, 1, 2] tag [out] ∧ Collected out (firstGrid C) (C.map fun c => (c.1, c.2.1)) :=
  C32_collect_partial argsort_ok _ store_reachable (by decide) (by decide) rfl rfl rfl rfl rfl rfl (by simp [C]) frames

/-- C33 applies to the three frames, in chunks of two. -/
example : ∃ s' groups outs, collectCmd timeOf frameOf argsort (fun a _ => a)
      { use := some tag, offset := 0, chunk := some 2 } store = .ok s' ∧ IsChunks 2 C groups ∧
      Replaced store s' [0, 1, 2] tag outs ∧
      List.Forall₂ (fun g out => ∃ ts : List ℚ, ts.length = g.length ∧
        Collected out (firstGrid g) (ts.zip (g.map fun c => c.2.1))) groups outs :=
  C33_chunks argsort_ok _ store_reachable (by decide) (by decide) rfl rfl rfl (by decide) rfl rfl (by simp [C])
    (frames.imp fun _ _ h => ⟨h.1, fun h0 => absurd h0 h.2⟩)

/-- The sums of the three frames. -/
example : ∃ s' out sums, collectCmd timeOf frameOf argsort (fun a _ => a)
      { use := some tag, offset := 0, sumdata := true } store = .ok s' ∧ Replaced store s' [0, 1, 2] tag [out] ∧
      List.Forall₂ (fun (c : ℚ × NArr ℚ × List (NArr ℚ)) (e : ℚ × NArr ℚ) => e.1 = c.1 ∧ e.2.shape = [1] ∧
        ∀ k < 1, e.2.get? [k] = some ((indices [2]).map fun i => (c.2.1.get? (i ++ [k])).getD 0).sum) C sums ∧
      Collected out [] sums :=
  C32_collect_sum_partial argsort_ok _ store_reachable (by decide) (by decide) rfl rfl rfl rfl rfl rfl (by simp [C])
    (by
      rw [active]
      exact .cons ⟨isFrame _ _ _ _ rfl, by norm_num [C], rfl⟩ (.cons ⟨isFrame _ _ _ _ rfl, by norm_num [C], rfl⟩
        (.cons ⟨isFrame _ _ _ _ rfl, by norm_num [C], rfl⟩ .nil)))

/-- Collecting the three frames twice fails. -/
example : (collectCmd timeOf frameOf argsort (fun a _ => a) { use := some tag, offset := 0 } store).bind
    (collectCmd timeOf frameOf argsort (fun a _ => a) { use := some tag, offset := 0 }) = .error .keyError :=
  C32_collect_twice_fails argsort_ok _ store_reachable (by decide) (by decide) rfl rfl rfl rfl rfl (by simp [C]) frames
    (fun d h => by simp [timeOf, h])

/-- With a period. -/
example : ∃ s' out, collectCmd timeOf frameOf argsort (fun a b => a - b * (Rat.floor (a / b) : ℚ))
      { use := some tag, offset := 0, period := some 2 } store = .ok s' ∧ Replaced store s' [0, 1, 2] tag [out] ∧
    Collected out (firstGrid C) (C.map fun c => ((c.1 - 0) - 2 * (Rat.floor ((c.1 - 0) / 2) : ℚ), c.2.1)) :=
  C32_collect_period_partial argsort_ok _ store_reachable (by decide) (by decide) rfl rfl rfl rfl (by norm_num) rfl rfl
    (by simp [C]) frames

/-- Two frames, the second at time 0. -/
def store0 : Space ℚ := (({} : Space ℚ).addNew (frame "1" 5 6)).addNew (frame "0" 7 8)

/-- The second frame is collected at the coordinate 1 although its time is 0. -/
example : ∃ s' out, collectCmd timeOf frameOf argsort (fun a _ => a) { use := some tag, offset := 0 } store0 = .ok s' ∧
    Replaced store0 s' [0, 1] tag [out] ∧ ∃ gr, out.grid = some (NArr.ofList [1, 1] :: gr) :=
  C32_zero_time_fails argsort_ok _ ((Reachable.empty.add _).add _) (by decide) (by decide) rfl rfl rfl rfl rfl rfl rfl rfl
    rfl rfl (by norm_num) (by norm_num) (isFrame "1" 5 6 1 rfl) (isFrame "0" 7 8 0 rfl) rfl

end CollectEx

end Pgkyl
