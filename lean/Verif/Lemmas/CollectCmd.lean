import Verif.Lemmas.Collect
/-! # The `collect` command on the dataset store -/

namespace Pgkyl
namespace Collect
open Spec Space
variable {F : Type}

theorem foldlM_active {σ : Type} (s : Space F) (f : σ → Nat → GData F → Except Err σ) (Z : List (Nat × Nat)) (st : σ) :
    ((Z.filter fun e => !true || s.active e.1).map fun e => (e.2, e.1)).foldlM (init := st) (fun st e =>
      match s.heap[e.2]? with
      | none => .ok st
      | some d => f st e.1 d) =
    (Z.filterMap fun e => (s.heap[e.1]?).bind fun d => if d.status then some (e.2, d) else none).foldlM
      (init := st) (fun st e => f st e.1 e.2) := by
  induction Z generalizing st with
  | nil => rfl
  | cons e Z ih =>
    cases he : s.heap[e.1]? with
    | none =>
      have ha : s.active e.1 = false := by simp [active, he]
      rw [List.filter_cons_of_neg (by simp [ha]), List.filterMap_cons_none (by simp [he]), ih]
    | some d =>
      cases hd : d.status with
      | false =>
        have ha : s.active e.1 = false := by simp [active, he, hd]
        rw [List.filter_cons_of_neg (by simp [ha]), List.filterMap_cons_none (by simp [he, hd]), ih]
      | true =>
        have ha : s.active e.1 = true := by simp [active, he, hd]
        rw [List.filter_cons_of_pos (by simp [ha]), List.filterMap_cons_some (b := (e.2, d)) (by simp [he, hd]),
          List.map_cons, List.foldlM_cons, List.foldlM_cons]
        simp only [he]
        cases f st e.2 d with
        | error x => rfl
        | ok st' => exact ih st'

theorem foldlM_visit {σ : Type} (s : Space F) (f : σ → Nat → GData F → Except Err σ) (ids : List Nat) (st : σ) :
    (visit s.active true ids).foldlM (init := st) (fun st e =>
      match s.heap[e.2]? with
      | none => .ok st
      | some d => f st e.1 d) =
    (activeOf s ids).foldlM (init := st) (fun st e => f st e.1 e.2) :=
  foldlM_active s f ids.zipIdx st

/-- Adding a list of new datasets under one tag. -/
theorem foldlM_addNew {α : Type} {fin : α → Except Err (GData F)} {T : Tag} :
    ∀ {gs : List α} {outs : List (GData F)}, List.Forall₂ (fun g out => fin g = .ok out ∧ out.tag = T) gs outs →
    ∀ s : Space F, ∃ s', gs.foldlM (init := s) (fun s g => do return s.addNew (← fin g)) = .ok s' ∧
      s'.heap = s.heap ++ outs ∧ (∀ t, t ≠ T → s'.lookup t = s.lookup t) ∧
      (s'.lookup T).getD [] = (s.lookup T).getD [] ++ (List.range outs.length).map (s.heap.length + ·)
  | [], [], .nil, s => ⟨s, rfl, by simp, by simp, by simp⟩
  | g :: gs, out :: outs, .cons h hs, s => by
    obtain ⟨s', g1, g2, g3, g4⟩ := foldlM_addNew hs (s.addNew out)
    refine ⟨s', ?_, ?_, ?_, ?_⟩
    · rw [List.foldlM_cons, h.1]; exact g1
    · rw [g2, addNew_heap]; simp
    · intro t ht
      rw [g3 t ht, addNew_lookup, if_neg (fun e => ht (by rw [← e, h.2]))]
    · rw [g4, addNew_lookup, if_pos h.2, addNew_heap, List.length_cons, List.range_succ_eq_map, List.map_cons,
        List.map_map]
      simp only [Option.getD_some, List.append_assoc, List.length_append, List.length_singleton,
        List.singleton_append, Nat.add_zero]
      congr 2
      refine List.map_congr_left fun k _ => ?_
      simp only [Function.comp]; omega

theorem deactivateAll_ok {s : Space F} (hi : s.Inv) {tag : Tag} (h0 : tag ≠ []) (hc : ',' ∉ tag) {ids : List Nat}
    (hl : s.lookup tag = some ids) :
    ∃ s', s.deactivateAll (some tag) = .ok s' ∧ s'.dict = s.dict ∧ s'.heap.length = s.heap.length ∧
      ∀ j, s'.heap[j]? = if j ∈ ids then (s.heap[j]?).map GData.deactivate else s.heap[j]? := by
  have ht : s.tagsOf (some tag) = [tag] := by simp only [tagsOf, if_neg h0, splitOn_notMem hc]
  have hlist := toList_none (s := s) (tag := some tag) (ls := fun _ => ids) (by rw [ht]; simpa using hl) false false
  rw [ht] at hlist
  obtain ⟨s', h1, h2, h3, h4⟩ := iterate_update hi GData.deactivate (fun _ => rfl) hlist
  refine ⟨s', h1, h2, h3, fun j => ?_⟩
  rw [h4 j]
  simp only [List.flatMap_cons, List.flatMap_nil, List.append_nil, visit_map_snd]
  simp

variable [Zero F] [DecidableEq F] [IntCast F] [Add F] [Sub F] [LinearOrder F]

theorem go_ne_nil {chunk : Option Int} (hc : ∀ c ∈ chunk, 0 ≤ c) {α : Type} {C : List α} (hC : C ≠ []) :
    ∀ g ∈ go (size chunk) [] [] C, g ≠ [] := by
  intro g hg
  match h : size chunk with
  | none =>
    rw [h, go_none] at hg
    simp only [List.nil_append, List.mem_cons, List.not_mem_nil, or_false] at hg
    rw [hg]; exact hC
  | some n =>
    rw [h] at hg
    have hn : 1 ≤ n := by
      match chunk with
      | none => simp [size] at h
      | some c =>
        have := hc c rfl
        simp only [size] at h
        split at h
        · cases h
        · simp only [Option.some.injEq] at h; omega
    exact ((go_chunks hn C [] [] (by simp) (by simp) (by simpa using hC)).1 g hg).1

theorem mem_go {α : Type} {n : Option Nat} {C : List α} {g : List α} (hg : g ∈ go n [] [] C) : ∀ e ∈ g, e ∈ C := by
  intro e he
  have := go_flatten n C [] []
  simp only [List.flatten_nil, List.nil_append] at this
  rw [← this]
  exact List.mem_flatten.2 ⟨g, hg, he⟩

theorem forall₂_exists {α β : Type} {P : α → β → Prop} : ∀ {l : List α}, (∀ a ∈ l, ∃ b, P a b) →
    ∃ bs, List.Forall₂ P l bs
  | [], _ => ⟨[], .nil⟩
  | a :: l, h => by
    obtain ⟨b, hb⟩ := h a (by simp)
    obtain ⟨bs, hbs⟩ := forall₂_exists (l := l) (fun x hx => h x (by simp [hx]))
    exact ⟨b :: bs, .cons hb hbs⟩

/-- The work for one tag. -/
theorem collectTag_ok {timeOf : GData F → Option F} {frameOf : GData F → Option Int} {argsort : List F → List Nat}
    (ha : IsArgsort argsort) (fmod : F → F → F) {o : Opts F} {s : Space F} (hi : s.Inv) {tag : Tag} (h0 : tag ≠ [])
    (hcm : ',' ∉ tag) {ids : List Nat} (hl : s.lookup tag = some ids) (hc : ∀ c ∈ o.chunk, 0 ≤ c)
    {C : List (F × NArr F × List (NArr F))} (hC : C ≠ [])
    (hL : List.Forall₂ (Contributes timeOf frameOf o) (activeOf s ids) C) {sh : List Nat}
    (hv : ∀ c ∈ C, c.2.1.WF ∧ c.2.1.shape = sh) (hsum : o.sumdata = true → sh.length = 1)
    (hg : o.sumdata = false → ∀ c ∈ C, c.2.2.length + 1 = sh.length ∧ ∀ g ∈ c.2.2, g.data ≠ []) {tagCnt : Nat} {T : Tag}
    (hT : outTagOf o tag tagCnt = .ok T) :
    ∃ s' heap outs, collectTag timeOf frameOf argsort fmod o s tag tagCnt = .ok s' ∧
      s'.heap = heap ++ outs ∧ heap.length = s.heap.length ∧
      (∀ j, heap[j]? = if j ∈ ids then (s.heap[j]?).map GData.deactivate else s.heap[j]?) ∧
      List.Forall₂ (fun g out => out.tag = T ∧ out.status = true ∧ out.ctx.other = [] ∧
        Collected out (if o.sumdata then [] else (mk g).grid) (g.map fun c => (written fmod o c.1, c.2.1)))
        (go (size o.chunk) [] [] C) outs ∧
      (∀ t, t ≠ T → s'.lookup t = s.lookup t) ∧
      (s'.lookup T).getD [] = (s.lookup T).getD [] ++ (List.range outs.length).map (s.heap.length + ·) := by
  have ht : s.tagsOf (some tag) = [tag] := by simp only [tagsOf, if_neg h0, splitOn_notMem hcm]
  have hlist := toList_none (s := s) (tag := some tag) (ls := fun _ => ids) (by rw [ht]; simpa using hl) true true
  rw [ht] at hlist
  simp only [List.flatMap_cons, List.flatMap_nil, List.append_nil] at hlist
  obtain ⟨st, hst, hgo⟩ := fold_ok hc hL (st := {}) (done := []) (cur := []) (by simp) ⟨rfl, rfl, rfl⟩
  obtain ⟨s1, hd, hdict, hlen, hheap⟩ := deactivateAll_ok hi h0 hcm hl
  obtain ⟨outs, houts⟩ := forall₂_exists (l := go (size o.chunk) [] [] C)
    (P := fun g out => finish argsort fmod o T (labelOf o st.label) (mk g) = .ok out ∧ out.tag = T ∧ out.status = true ∧
      out.customLabel = labelOf o st.label ∧ out.ctx.other = [] ∧
      Collected out (if o.sumdata then [] else (mk g).grid) (g.map fun c => (written fmod o c.1, c.2.1)))
    (fun g hgm => finish_ok ha fmod T (labelOf o st.label) (go_ne_nil hc hC g hgm) (sh := sh)
      (fun c hcm => hv c (mem_go hgm c hcm)) hsum (fun h c hcm => hg h c (mem_go hgm c hcm)))
  have houts' : List.Forall₂ (fun c out => finish argsort fmod o T (labelOf o st.label) c = .ok out ∧ out.tag = T)
      ((go (size o.chunk) [] [] C).map mk) outs := by
    rw [List.forall₂_map_left_iff]
    exact houts.imp fun _ _ h => ⟨h.1, h.2.1⟩
  obtain ⟨s', g1, g2, g3, g4⟩ := foldlM_addNew houts' s1
  have hlk : ∀ t, s1.lookup t = s.lookup t := fun t => by simp only [lookup, hdict]
  refine ⟨s', s1.heap, outs, ?_, g2, hlen, hheap, houts.imp fun _ _ h => ⟨h.2.1, h.2.2.1, h.2.2.2.2.1, h.2.2.2.2.2⟩, ?_, ?_⟩
  · unfold collectTag
    rw [hlist]
    simp only [bind, Except.bind]
    have hvis : (visit s.active true ids).foldlM (init := ({} : St F)) (stepAt timeOf frameOf o s) = .ok st :=
      (foldlM_visit s (step timeOf frameOf o) ids {}).trans hst
    simp only [hvis, hd, hT]
    rw [hgo]
    exact g1
  · intro t ht'
    rw [g3 t ht', hlk]
  · rw [g4, hlk, hlen]

/-- The command restricted to one tag. -/
theorem collectCmd_one {timeOf : GData F → Option F} {frameOf : GData F → Option Int} {argsort : List F → List Nat}
    {fmod : F → F → F} {o : Opts F} {s : Space F} {tag : Tag} (h0 : tag ≠ []) (hcm : ',' ∉ tag) (hu : o.use = some tag) :
    collectCmd timeOf frameOf argsort fmod o s = collectTag timeOf frameOf argsort fmod o s tag 0 := by
  have : s.tagIterator (some tag) true = .ok [tag] := by
    match tag with
    | [] => exact absurd rfl h0
    | c :: cs => simp only [tagIterator, splitOn_notMem hcm]
  unfold collectCmd
  rw [hu, this]
  simp only [bind, Except.bind, List.zipIdx_cons, List.zipIdx_nil, List.foldlM_cons, List.foldlM_nil, pure, Except.pure]
  cases collectTag timeOf frameOf argsort fmod o s tag 0 <;> rfl

/-- The general form used below: the active datasets of one tag, each contributing a time stamp, values and a grid. -/
theorem collect_core {timeOf : GData F → Option F} {frameOf : GData F → Option Int} {argsort : List F → List Nat}
    (ha : IsArgsort argsort) (fmod : F → F → F) {o : Opts F} {s : Space F} (hs : Reachable s) {tag : Tag} (h0 : tag ≠ [])
    (hcm : ',' ∉ tag) (hu : o.use = some tag) {ids : List Nat} (hl : s.lookup tag = some ids) (hc : ∀ c ∈ o.chunk, 0 ≤ c)
    {C : List (F × NArr F × List (NArr F))} (hC : C ≠ [])
    (hL : List.Forall₂ (Contributes timeOf frameOf o) (activeOf s ids) C) {sh : List Nat}
    (hv : ∀ c ∈ C, c.2.1.WF ∧ c.2.1.shape = sh) (hsum : o.sumdata = true → sh.length = 1)
    (hg : o.sumdata = false → ∀ c ∈ C, c.2.2.length + 1 = sh.length ∧ ∀ g ∈ c.2.2, g.data ≠ []) (hT : o.tag = none) :
    ∃ s' outs, collectCmd timeOf frameOf argsort fmod o s = .ok s' ∧ Replaced s s' ids tag outs ∧
      List.Forall₂ (fun g out => out.ctx.other = [] ∧
        Collected out (if o.sumdata then [] else firstGrid g) (g.map fun c => (written fmod o c.1, c.2.1)))
        (go (size o.chunk) [] [] C) outs := by
  have hTag : outTagOf o tag 0 = .ok tag := by simp [outTagOf, hT]
  obtain ⟨s', heap, outs, h1, h2, h3, h4, h5, h6, h7⟩ :=
    collectTag_ok ha fmod (reachable_inv hs) h0 hcm hl hc hC hL hv hsum hg hTag
  refine ⟨s', outs, (collectCmd_one h0 hcm hu).trans h1, ⟨?_, ?_, ?_, h6, h7⟩, h5.imp fun g out h => ⟨h.2.2.1, ?_⟩⟩
  · rw [h2, List.length_append, h3]
  · intro j hj
    rw [h2, List.getElem?_append_left (by omega), h4 j]
    rfl
  · intro k out hk
    rw [h2, List.getElem?_append_right (by omega), h3, Nat.add_sub_cancel_left]
    have hkl := (List.getElem?_eq_some_iff.1 hk).1
    have hkg : k < (go (size o.chunk) [] [] C).length := by rw [h5.length_eq]; exact hkl
    have := h5.get hkg hkl
    rw [List.getElem?_eq_getElem hkl, Option.some.injEq] at hk
    simp only [List.get_eq_getElem, hk] at this
    exact ⟨by rw [List.getElem?_eq_getElem hkl, hk], this.2.1, this.1⟩
  · have : firstGrid g = (mk g).grid := by cases g <;> rfl
    rw [this]
    exact h.2.2.2

omit [Sub F] [LinearOrder F] in
theorem frames_contribute {timeOf : GData F → Option F} {frameOf : GData F → Option Int} {o : Opts F} {sh : List Nat}
    (hsd : o.sumdata = false) {L : List (Nat × GData F)} {C : List (F × NArr F × List (NArr F))}
    (h : List.Forall₂ (fun e c => Frame timeOf sh e.2 c ∧ c.1 ≠ 0) L C) :
    List.Forall₂ (Contributes timeOf frameOf o) L C :=
  h.imp fun e c ⟨hf, hne⟩ => ⟨by simp [stamp, hf.time, hne], hf.grid, hf.nonempty, c.2.1, hf.values, by
    simp [summed, hsd]⟩

omit [DecidableEq F] [IntCast F] [Add F] [Sub F] [LinearOrder F] in
theorem frames_mem {timeOf : GData F → Option F} {sh : List Nat} {L : List (Nat × GData F)}
    {C : List (F × NArr F × List (NArr F))} (h : List.Forall₂ (fun e c => Frame timeOf sh e.2 c ∧ c.1 ≠ 0) L C) :
    ∀ c ∈ C, (∃ e ∈ L, Frame timeOf sh e.2 c) ∧ c.1 ≠ 0 := by
  induction h with
  | nil => simp
  | cons h _ ih =>
    intro c hc
    rcases List.mem_cons.1 hc with rfl | hc
    · exact ⟨⟨_, by simp, h.1⟩, h.2⟩
    · obtain ⟨⟨e, he, hf⟩, hne⟩ := ih c hc
      exact ⟨⟨e, by simp [he], hf⟩, hne⟩

theorem go_map {α β : Type} (f : α → β) (n : Option Nat) : ∀ (L : List α) (done : List (List α)) (cur : List α),
    go n (done.map (List.map f)) (cur.map f) (L.map f) = (go n done cur L).map (List.map f)
  | [], _, _ => by simp [go]
  | e :: es, done, cur => by
    rw [List.map_cons, go, go, List.length_map]
    by_cases h : full n cur.length = true
    · rw [if_pos h, if_pos h, ← go_map f n es]; simp
    · rw [if_neg h, if_neg h, ← go_map f n es]; simp

omit [Sub F] [LinearOrder F] in
/-- Every frame contributes its values and grid, with some time stamp. -/
theorem frames_stamped {timeOf : GData F → Option F} {frameOf : GData F → Option Int} {o : Opts F} {sh : List Nat}
    (hsd : o.sumdata = false) : ∀ {L : List (Nat × GData F)} {C : List (F × NArr F × List (NArr F))},
    List.Forall₂ (fun e c => Frame timeOf sh e.2 c ∧ (c.1 = 0 → ∃ f, frameOf e.2 = some f)) L C →
    ∃ C' : List (F × NArr F × List (NArr F)), List.Forall₂ (Contributes timeOf frameOf o) L C' ∧
      C'.map Prod.snd = C.map Prod.snd
  | [], [], .nil => ⟨[], .nil, rfl⟩
  | e :: L, c :: C, .cons h hs => by
    obtain ⟨C', h1, h2⟩ := frames_stamped hsd hs
    obtain ⟨t, ht⟩ : ∃ t, stamp timeOf frameOf e.1 e.2 = .ok t := by
      by_cases h0 : c.1 = 0
      · obtain ⟨f, hf⟩ := h.2 h0
        by_cases hf0 : f = 0
        · exact ⟨_, by simp [stamp, h.1.time, h0, hf, hf0]; rfl⟩
        · exact ⟨_, by simp [stamp, h.1.time, h0, hf, hf0]; rfl⟩
      · exact ⟨c.1, by simp [stamp, h.1.time, h0]⟩
    exact ⟨(t, c.2) :: C', .cons ⟨ht, h.1.grid, h.1.nonempty, c.2.1, h.1.values, by simp [summed, hsd]⟩ h1, by simp [h2]⟩

omit [DecidableEq F] [IntCast F] [Add F] [Sub F] [LinearOrder F] in
theorem frames_mem' {timeOf : GData F → Option F} {frameOf : GData F → Option Int} {sh : List Nat}
    {L : List (Nat × GData F)} {C : List (F × NArr F × List (NArr F))}
    (h : List.Forall₂ (fun e c => Frame timeOf sh e.2 c ∧ (c.1 = 0 → ∃ f, frameOf e.2 = some f)) L C) :
    ∀ c ∈ C, c.2.1.WF ∧ c.2.1.shape = sh ∧ c.2.2.length + 1 = sh.length ∧ ∀ g ∈ c.2.2, g.data ≠ [] := by
  induction h with
  | nil => simp
  | cons h _ ih =>
    intro c hc
    rcases List.mem_cons.1 hc with rfl | hc
    · exact ⟨h.1.wf, h.1.shape, h.1.dims, h.1.axes⟩
    · exact ih c hc

end Collect
end Pgkyl
