import Verif.Lemmas.StoreCmd
/-! # C15–C19: the dataset store, activation, and commands with an output tag -/

namespace Pgkyl
open Spec Space
variable {F : Type}

/-! ## C15 -/

/-- C15: `get_dataset(i, t)` is the `i`-th dataset added under `t` since the last `clean`, and is
rejected when there is none. -/
theorem C15_get_dataset (ops : List (StoreOp F)) (t : Tag) (i : Nat) :
    match (under t (sinceClean ops))[i]? with
    | some g => ∃ id, (perform ops).getDataset i t = .ok id ∧ (perform ops).heap[id]? = some g
    | none => ∃ e, (perform ops).getDataset i t = .error e := by
  have h := (rep_perform ops).lists t
  cases hl : (perform ops).lookup t with
  | none =>
    rw [hl] at h
    have h' : under t (sinceClean ops) = [] := by simpa using h.symm
    rw [h']
    exact ⟨.keyError, by simp [getDataset, hl]⟩
  | some l =>
    rw [hl, Option.getD_some] at h
    have hi := congrArg (fun x => x[i]?) h
    simp only [List.getElem?_map] at hi
    rw [getDataset_of_lookup hl]
    cases hg : (under t (sinceClean ops))[i]? with
    | none =>
      rw [hg] at hi
      have : l[i]? = none := by simpa using hi
      rw [this]; exact ⟨_, rfl⟩
    | some g =>
      rw [hg] at hi
      cases hli : l[i]? with
      | none => rw [hli] at hi; simp at hi
      | some id =>
        rw [hli] at hi
        exact ⟨id, rfl, by simpa using hi⟩

/-- C15: a negative index counts from the most recently added dataset. -/
theorem C15_get_dataset_from_end (ops : List (StoreOp F)) (t : Tag) (k : Nat) :
    match (under t (sinceClean ops)).reverse[k]? with
    | some g => ∃ id, (perform ops).getDataset (-(k + 1 : Nat)) t = .ok id ∧
        (perform ops).heap[id]? = some g
    | none => ∃ e, (perform ops).getDataset (-(k + 1 : Nat)) t = .error e := by
  have h := (rep_perform ops).lists t
  cases hl : (perform ops).lookup t with
  | none =>
    rw [hl] at h
    have h' : under t (sinceClean ops) = [] := by simpa using h.symm
    rw [h']
    exact ⟨.keyError, by simp [getDataset, hl]⟩
  | some l =>
    rw [hl, Option.getD_some] at h
    have hi := congrArg (fun x => x.reverse[k]?) h
    simp only [← List.map_reverse, List.getElem?_map] at hi
    rw [getDataset_neg_of_lookup hl]
    cases hg : (under t (sinceClean ops)).reverse[k]? with
    | none =>
      rw [hg] at hi
      have : l.reverse[k]? = none := by simpa using hi
      rw [this]; exact ⟨_, rfl⟩
    | some g =>
      rw [hg] at hi
      cases hli : l.reverse[k]? with
      | none => rw [hli] at hi; simp at hi
      | some id =>
        rw [hli] at hi
        exact ⟨id, rfl, by simpa using hi⟩

/-- C15: different positions hold different objects. -/
theorem C15_distinct (ops : List (StoreOp F)) (t u : Tag) (i j id : Nat)
    (h1 : (perform ops).getDataset i t = .ok id) (h2 : (perform ops).getDataset j u = .ok id) :
    t = u ∧ i = j := by
  have hi := inv_perform ops
  cases hl : (perform ops).lookup t with
  | none => simp [getDataset, hl] at h1
  | some l =>
    cases hl' : (perform ops).lookup u with
    | none => simp [getDataset, hl'] at h2
    | some l' =>
      rw [getDataset_of_lookup hl] at h1
      rw [getDataset_of_lookup hl'] at h2
      have e1 : l[i]? = some id := by
        cases h : l[i]? with
        | none => rw [h] at h1; cases h1
        | some x => rw [h] at h1; cases h1; rfl
      have e2 : l'[j]? = some id := by
        cases h : l'[j]? with
        | none => rw [h] at h2; cases h2
        | some x => rw [h] at h2; cases h2; rfl
      have hn := List.nodup_flatMap.1 hi.ids_nodup
      have htu : t = u := by
        by_contra hne
        exact hi.disjoint hl hl' hne (List.mem_of_getElem? e1) (List.mem_of_getElem? e2)
      refine ⟨htu, ?_⟩
      subst htu
      rw [hl] at hl'; cases hl'
      have hnd := hn.1 _ (mem_of_lookup hl)
      obtain ⟨hi1, hi2⟩ := List.getElem?_eq_some_iff.1 e1
      obtain ⟨hj1, hj2⟩ := List.getElem?_eq_some_iff.1 e2
      exact (List.Nodup.getElem_inj_iff hnd).1 (hi2.trans hj2.symm)

/-- C15: `get_num_datasets(only_active=False)` counts the datasets added since the last `clean`. -/
theorem C15_count (ops : List (StoreOp F)) :
    (perform ops).getNumDatasets none false = .ok (sinceClean ops).length := by
  have hr := rep_perform ops
  rw [getNumDatasets_eq hr.inv (toList_none (tagsOf_none_lookup _) false false)]
  congr 1
  have h1 : ((perform ops).keys.flatMap fun t => visit (perform ops).active false
      (((perform ops).lookup t).getD [])).length =
      ((perform ops).keys.flatMap fun t => ((perform ops).lookup t).getD []).length := by
    rw [List.length_flatMap, List.length_flatMap]
    congr 1
    refine List.map_congr_left fun t _ => ?_
    simp [visit]
  have h2 : ((perform ops).tagsOf none) = (perform ops).keys := rfl
  rw [h2, h1, keys_flatMap hr.inv.keys_nodup]
  have := hr.all.length_eq
  simpa using this

/-- C15: with a tag it counts the datasets of that tag (active ones unless `only_active=False`). -/
theorem C15_count_tag (ops : List (StoreOp F)) (t : Tag) (onlyActive : Bool)
    (hne : t ≠ []) (hc : ',' ∉ t) (hu : under t (sinceClean ops) ≠ []) :
    (perform ops).getNumDatasets (some t) onlyActive =
      .ok ((under t (sinceClean ops)).filter fun g => !onlyActive || g.status).length := by
  have hr := rep_perform ops
  have hts : (perform ops).tagsOf (some t) = [t] := by
    simp [tagsOf, hne, splitOn_notMem hc]
  cases hl : (perform ops).lookup t with
  | none =>
    have h := hr.lists t
    rw [hl] at h
    exact absurd (by simpa using h.symm) hu
  | some l =>
    have h := hr.lists t
    rw [hl, Option.getD_some] at h
    have hl2 : ∀ u ∈ (perform ops).tagsOf (some t), (perform ops).lookup u = some ((fun _ => l) u) := by
      rw [hts]; intro u hu; rw [List.mem_singleton] at hu; subst hu; exact hl
    rw [getNumDatasets_eq hr.inv (toList_none hl2 false onlyActive), hts]
    congr 1
    simp only [List.flatMap_singleton]
    have : (visit (perform ops).active onlyActive l).length =
        (l.filter fun i => !onlyActive || (perform ops).active i).length := by
      rw [← visit_map_snd]; simp
    rw [this]
    clear this hl2 hts hl hu
    generalize under t (sinceClean ops) = us at h
    induction l generalizing us with
    | nil =>
      have : us = [] := by simpa using h.symm
      subst this; rfl
    | cons a l ih =>
      cases us with
      | nil => simp at h
      | cons g us =>
        simp only [List.map_cons, List.cons.injEq] at h
        have ha : (perform ops).active a = g.status := by simp [active, h.1]
        have := ih us h.2
        rw [List.filter_cons, List.filter_cons, ha]
        split
        · simp [this]
        · exact this

/-- C15: tags are listed in the order of their first use since the last `clean`. -/
theorem C15_tags_in_order (ops : List (StoreOp F)) :
    (perform ops).tagIterator none false = .ok (firstUse ((sinceClean ops).map GData.tag)) := by
  simp only [tagIterator, if_false, Bool.false_eq_true]
  exact congrArg _ (rep_perform ops).keys

/-- Non-trivial history for C15: two tags, interleaved, after a `clean`. -/
example : let g (t : String) (l : String) : GData Nat := { tag := t.toList, customLabel := l.toList }
    sinceClean [.add (g "a" "0"), .clean, .add (g "b" "1"), .add (g "a" "2"), .add (g "b" "3")]
      = [g "b" "1", g "a" "2", g "b" "3"] ∧
    firstUse ((sinceClean [.add (g "a" "0"), .clean, .add (g "b" "1"), .add (g "a" "2"),
      .add (g "b" "3")]).map GData.tag) = ["b".toList, "a".toList] := by
  decide +kernel

/-! ## C16 -/

/-- The tags a request addresses: the listed ones, or all in order of first use. -/
inductive Requests (s : Space F) : Option Tag → List Tag → Prop where
  | all : Requests s none (s.dict.map Prod.fst)
  | listed {ts : List Tag} (hne : joinWith ',' ts ≠ []) (hc : ∀ t ∈ ts, ',' ∉ t) :
      Requests s (some (joinWith ',' ts)) ts

theorem Requests.tagsOf_eq {s : Space F} {tag : Option Tag} {ts : List Tag} (h : Requests s tag ts) :
    s.tagsOf tag = ts := by
  cases h with
  | all => rfl
  | listed hne hc => exact tagsOf_some hne hc

/-- C16: without `select`, an iteration yields, tag by tag in the requested order, the (active)
datasets of the tag in insertion order; the enumeration index is the position in the tag. -/
theorem C16_iterate_all {s : Space F} {tag : Option Tag} {ts : List Tag} (hts : Requests s tag ts)
    (ls : Tag → List Nat) (hl : ∀ t ∈ ts, s.lookup t = some (ls t)) (enum onlyActive : Bool) :
    s.toList tag enum onlyActive .none =
      .ok (ts.flatMap fun t => visit s.active onlyActive (ls t)) := by
  have := hts.tagsOf_eq
  rw [toList_none (ls := ls) (by rw [this]; exact hl), this]

/-- C16: `select='lo:hi:step'` (text or slice object) keeps, in each tag, exactly the positions of
the Python slice. -/
theorem C16_iterate_slice {s : Space F} {tag : Option Tag} {ts : List Tag} (hts : Requests s tag ts)
    (ls : Tag → List Nat) (hl : ∀ t ∈ ts, s.lookup t = some (ls t)) (onlyActive : Bool)
    (lo hi step : Option Int) (hstep : step.getD 1 ≠ 0) :
    s.toList tag false onlyActive (.str (sliceText lo hi step)) =
      .ok (ts.flatMap fun t => visit s.active onlyActive
        ((slicePositions (ls t).length lo hi (step.getD 1)).filterMap fun p => (ls t)[p]?)) ∧
    s.toList tag false onlyActive (.slice lo hi step) =
      .ok (ts.flatMap fun t => visit s.active onlyActive
        ((slicePositions (ls t).length lo hi (step.getD 1)).filterMap fun p => (ls t)[p]?)) := by
  have key : ∀ sel : Sel, ts.mapM (tagItems s onlyActive sel (.slice lo hi step)) =
      .ok (ts.map fun t => visit s.active onlyActive
        ((slicePositions (ls t).length lo hi (step.getD 1)).filterMap fun p => (ls t)[p]?)) := by
    intro sel
    apply mapM_ok_of_forall
    intro t ht
    simp only [tagItems, hl t ht, positions]
    rw [sliceIndices_eq _ _ _ _ hstep]
  constructor
  · rw [toList_eq]
    simp only [Bool.false_and, Bool.false_eq_true, if_false, parseSel_sliceText, hts.tagsOf_eq, key,
      List.flatMap_def]
  · rw [toList_eq]
    simp only [Bool.false_and, Bool.false_eq_true, if_false, parseSel, hts.tagsOf_eq, key,
      List.flatMap_def]

/-- C16: `select='i,j,...'` keeps, in each tag, exactly the listed datasets in the listed order;
negative indices count from the end. -/
theorem C16_iterate_list {s : Space F} {tag : Option Tag} {ts : List Tag} (hts : Requests s tag ts)
    (onlyActive : Bool) (is : List Int) (hne : is ≠ []) (ls chosen : Tag → List Nat)
    (hl : ∀ t ∈ ts, s.lookup t = some (ls t))
    (hch : ∀ t ∈ ts, List.Forall₂ (fun i o => 0 ≤ fromEnd (ls t).length i ∧
      (ls t)[(fromEnd (ls t).length i).toNat]? = some o) is (chosen t)) :
    s.toList tag false onlyActive (.str (listText is)) =
      .ok (ts.flatMap fun t => visit s.active onlyActive (chosen t)) := by
  rw [toList_eq]
  simp only [Bool.false_and, Bool.false_eq_true, if_false, parseSel_listText hne, hts.tagsOf_eq,
    List.flatMap_def]
  rw [mapM_ok_of_forall (g := fun t => visit s.active onlyActive (chosen t))]
  intro t ht
  have htr : (Sel.str (listText is)).truthy = true := by
    simp [Sel.truthy, listText_ne_nil hne]
  have key : ∀ (is : List Int) (os : List Nat), List.Forall₂ (fun i o => 0 ≤ fromEnd (ls t).length i ∧
      (ls t)[(fromEnd (ls t).length i).toNat]? = some o) is os →
      ∃ ps, is.mapM (listIndex (ls t).length) = .ok ps ∧ ps.filterMap (fun p => (ls t)[p]?) = os := by
    intro is os h
    induction h with
    | nil => exact ⟨[], rfl, rfl⟩
    | @cons i o is os h1 _ ih =>
      obtain ⟨ps, h2, h3⟩ := ih
      have hlt := (List.getElem?_eq_some_iff.1 h1.2).1
      refine ⟨(fromEnd (ls t).length i).toNat :: ps, ?_, ?_⟩
      · rw [List.mapM_cons, listIndex_eq h1.1 (by omega), h2]; rfl
      · rw [List.filterMap_cons, h1.2, h3]
  obtain ⟨ps, h1, h2⟩ := key is (chosen t) (hch t ht)
  simp only [tagItems, hl t ht, positions, htr, if_true, h1, h2]

/-- C16: an index outside a requested tag's list, or an unknown tag, stops the program. -/
theorem C16_rejects {s : Space F} {tag : Option Tag} {ts : List Tag} (hts : Requests s tag ts)
    (onlyActive : Bool) :
    ((∃ t ∈ ts, t ∉ s.dict.map Prod.fst) → ∀ sel enum, ∃ e, s.toList tag enum onlyActive sel = .error e) ∧
    (∀ is : List Int, is ≠ [] → (∃ t ∈ ts, ∃ l, s.lookup t = some l ∧ ∃ i ∈ is,
        fromEnd l.length i < 0 ∨ (l.length : Int) ≤ fromEnd l.length i) →
      ∃ e, s.toList tag false onlyActive (.str (listText is)) = .error e) := by
  constructor
  · rintro ⟨t, ht, hn⟩ sel enum
    rw [toList_eq]
    split
    · exact ⟨_, rfl⟩
    · cases parseSel sel with
      | error e => exact ⟨_, rfl⟩
      | ok ix =>
        have hlk : s.lookup t = none := (lookup_eq_none_iff s t).2 hn
        obtain ⟨e', he'⟩ := mapM_error_of_mem (f := tagItems s onlyActive sel ix) (e := .fail) ht
          (by simp [tagItems, hlk])
        simp only [hts.tagsOf_eq, he']
        exact ⟨_, rfl⟩
  · rintro is hne ⟨t, ht, l, hlk, i, hi, hout⟩
    rw [toList_eq]
    simp only [Bool.false_and, Bool.false_eq_true, if_false, parseSel_listText hne, hts.tagsOf_eq]
    obtain ⟨e1, he1⟩ := mapM_error_of_mem (f := listIndex l.length) hi (listIndex_error hout)
    have htr : (Sel.str (listText is)).truthy = true := by
      simp [Sel.truthy, listText_ne_nil hne]
    obtain ⟨e', he'⟩ := mapM_error_of_mem (f := tagItems s onlyActive (.str (listText is)) (.list is))
      (e := .fail) ht (by simp [tagItems, hlk, positions, htr, he1])
    rw [he']; exact ⟨_, rfl⟩

theorem nodup_flatMap_lists {s : Space F} (hi : s.Inv) {ts : List Tag} (hnd : ts.Nodup)
    (ls : Tag → List Nat) (hl : ∀ t ∈ ts, s.lookup t = some (ls t))
    (sub : Tag → List Nat) (hsub : ∀ t ∈ ts, (sub t).Nodup ∧ ∀ i ∈ sub t, i ∈ ls t) :
    (ts.flatMap sub).Nodup := by
  rw [List.nodup_flatMap]
  refine ⟨fun t ht => (hsub t ht).1, ?_⟩
  refine List.Pairwise.imp_of_mem ?_ hnd
  intro t u ht hu hne i hi1 hi2
  exact hi.disjoint (hl t ht) (hl u hu) hne ((hsub t ht).2 i hi1) ((hsub u hu).2 i hi2)

theorem lookup_nodup {s : Space F} (hi : s.Inv) {t : Tag} {l : List Nat} (hl : s.lookup t = some l) :
    l.Nodup := (List.nodup_flatMap.1 hi.ids_nodup).1 _ (mem_of_lookup hl)

/-- C16: in every reachable store, an iteration over distinct tags (all of them,
or listed ones), with or without a slice, visits no dataset twice. -/
theorem C16_each_once {s : Space F} (hr : Reachable s) {tag : Option Tag} {ts : List Tag}
    (hts : Requests s tag ts) (hnd : ts.Nodup) (onlyActive : Bool)
    (hknown : ∀ t ∈ ts, t ∈ s.dict.map Prod.fst)
    (lo hi step : Option Int) (hstep : step.getD 1 ≠ 0) :
    (∃ l, s.toList tag false onlyActive .none = .ok l ∧ (l.map Prod.snd).Nodup) ∧
    (∃ l, s.toList tag false onlyActive (.str (sliceText lo hi step)) = .ok l ∧
      (l.map Prod.snd).Nodup) := by
  have hinv := reachable_inv hr
  have hl : ∀ t ∈ ts, s.lookup t = some ((s.lookup t).getD []) := by
    intro t ht
    have : (s.lookup t).isSome := (lookup_isSome_iff _ t).2 (hknown t ht)
    cases h : s.lookup t with
    | none => rw [h] at this; cases this
    | some l => rfl
  constructor
  · refine ⟨_, C16_iterate_all hts _ hl false onlyActive, ?_⟩
    rw [List.map_flatMap]
    refine nodup_flatMap_lists hinv hnd _ hl _ fun t ht => ?_
    rw [visit_map_snd]
    exact ⟨(lookup_nodup hinv (hl t ht)).filter _, fun i hi => List.mem_of_mem_filter hi⟩
  · refine ⟨_, (C16_iterate_slice hts _ hl onlyActive lo hi step hstep).1, ?_⟩
    rw [List.map_flatMap]
    refine nodup_flatMap_lists hinv hnd _ hl _ fun t ht => ?_
    rw [visit_map_snd]
    refine ⟨List.Nodup.filter _ ?_, fun i hi => ?_⟩
    · have hn := lookup_nodup hinv (hl t ht)
      refine List.Nodup.filterMap ?_ (slicePositions_nodup _ _ _ _)
      intro a b x ha hb
      obtain ⟨h1, h1'⟩ := List.getElem?_eq_some_iff.1 (Option.mem_def.1 ha)
      obtain ⟨h2, h2'⟩ := List.getElem?_eq_some_iff.1 (Option.mem_def.1 hb)
      exact (List.Nodup.getElem_inj_iff hn).1 (h1'.trans h2'.symm)
    · have := List.mem_of_mem_filter hi
      obtain ⟨p, _, hp⟩ := List.mem_filterMap.1 this
      exact List.mem_of_getElem? hp

/-- Non-trivial case for C16: two tags, one inactive dataset, a slice with a negative bound. -/
example : let g (t : String) (b : Bool) : GData Nat := { tag := t.toList, status := b }
    let s := perform [.add (g "a" true), .add (g "b" true), .add (g "a" false), .add (g "a" true)]
    s.toList none true true .none = .ok [(0, 0), (2, 3), (0, 1)] ∧
    s.toList (some "a".toList) false false (.str "0:-1".toList) = .ok [(0, 0), (1, 2)] ∧
    s.toList (some "b,a".toList) false false (.str "-1".toList) = .ok [(0, 1), (0, 3)] := by
  decide +kernel

/-! ## C17 -/

/-- C17: `deactivate_all(tag)` makes every dataset of the requested tags inactive and changes
nothing else. -/
theorem C17_deactivate_all_partial {s : Space F} (hr : Reachable s) {tag : Option Tag} {ts : List Tag}
    (hts : Requests s tag ts) (hknown : ∀ t ∈ ts, t ∈ s.dict.map Prod.fst) :
    ∃ s', s.deactivateAll tag = .ok s' ∧ s'.dict = s.dict ∧
      ∀ id, (∀ t ∈ ts, ∀ l, s.lookup t = some l → id ∉ l) ∧ s'.heap[id]? = s.heap[id]? ∨
        (∃ t ∈ ts, ∃ l, s.lookup t = some l ∧ id ∈ l) ∧
          ∃ g, s.heap[id]? = some g ∧ s'.heap[id]? = some { g with status := false } := by
  have hi := reachable_inv hr
  have hl : ∀ t ∈ ts, s.lookup t = some ((s.lookup t).getD []) := by
    intro t ht
    have : (s.lookup t).isSome := (lookup_isSome_iff _ t).2 (hknown t ht)
    cases h : s.lookup t with
    | none => rw [h] at this; cases this
    | some l => rfl
  obtain ⟨s', h1, h2, _, h4⟩ := iterate_update hi GData.deactivate (fun _ => rfl)
    (C16_iterate_all hts _ hl false false)
  refine ⟨s', h1, h2, fun id => ?_⟩
  have h4 := h4 id
  have hmem : id ∈ (ts.flatMap fun t => visit s.active false ((s.lookup t).getD [])).map Prod.snd ↔
      ∃ t ∈ ts, ∃ l, s.lookup t = some l ∧ id ∈ l := by
    rw [List.map_flatMap, List.mem_flatMap]
    constructor
    · rintro ⟨t, ht, hm⟩
      rw [visit_map_snd] at hm
      exact ⟨t, ht, _, hl t ht, List.mem_of_mem_filter hm⟩
    · rintro ⟨t, ht, l, hlk, hm⟩
      refine ⟨t, ht, ?_⟩
      rw [visit_map_snd, hlk]
      simpa using hm
  by_cases hc : ∃ t ∈ ts, ∃ l, s.lookup t = some l ∧ id ∈ l
  · right
    refine ⟨hc, ?_⟩
    rw [if_pos (hmem.2 hc)] at h4
    obtain ⟨t, _, l, hlk, hm⟩ := hc
    have hlt := hi.lt hlk hm
    refine ⟨s.heap[id], List.getElem?_eq_getElem hlt, ?_⟩
    rw [h4, List.getElem?_eq_getElem hlt]; rfl
  · left
    rw [if_neg (fun h => hc (hmem.1 h))] at h4
    exact ⟨fun t ht l hlk hm => hc ⟨t, ht, l, hlk, hm⟩, h4⟩

/-- C17, the code disagrees: `activate_all` leaves a store with an inactive dataset and, worse,
deactivates the active one. -/
theorem C17_activate_all_counterexample :
    ∃ (ops : List (StoreOp Nat)) (s' : Space Nat),
      (perform ops).activateAll none = .ok s' ∧ (perform ops).active 0 = true ∧
      (perform ops).active 1 = false ∧ s'.active 0 = false ∧ s'.active 1 = false := by
  refine ⟨[.add { status := true }, .add { status := false }], _, rfl, ?_, ?_, ?_, ?_⟩ <;> rfl

/-- C17, what `activate_all` does instead: exactly what `deactivate_all` does. -/
theorem C17_activate_all_deactivates (s : Space F) (tag : Option Tag) :
    s.activateAll tag = s.deactivateAll tag := rfl

/-! ## C18 -/

/-- The dataset `id` is stored (under some tag). -/
def Stored (s : Space F) (id : Nat) : Prop := ∃ t l, s.lookup t = some l ∧ id ∈ l

theorem deactivateAll_none {s : Space F} (hi : s.Inv) :
    ∃ s', s.deactivateAll none = .ok s' ∧ s'.dict = s.dict ∧ s'.heap.length = s.heap.length ∧
      ∀ id g, s.heap[id]? = some g →
        (Stored s id → s'.heap[id]? = some { g with status := false }) ∧
        (¬ Stored s id → s'.heap[id]? = some g) := by
  obtain ⟨l, hl, hm⟩ := toList_all (s := s) false
  obtain ⟨s', h1, h2, h3, h4⟩ := iterate_update hi GData.deactivate (fun _ => rfl) hl
  refine ⟨s', h1, h2, h3, fun id g hg => ⟨fun hs => ?_, fun hs => ?_⟩⟩
  · rw [h4 id, if_pos ((hm id).2 hs), hg]; rfl
  · rw [h4 id, if_neg (fun h => hs ((hm id).1 h)), hg]

/-- C18: after `activate -t T -i I` exactly the selected datasets are active; with `--focused` the
others keep their status.  `l` is what the iteration over the request yields (see C16); everything
but the flags is unchanged. -/
theorem C18_activate {s : Space F} (hr : Reachable s) (tag : Option Tag) (index : Option (List Char))
    (focused : Bool) {l : List (Nat × Nat)} (hl : s.toList tag false false (optSel index) = .ok l) :
    ∃ s', s.activateCmd tag index focused = .ok s' ∧ s'.dict = s.dict ∧
      ∀ id g, s.heap[id]? = some g → Stored s id → ∃ b, s'.heap[id]? = some { g with status := b } ∧
        (b = true ↔ id ∈ l.map Prod.snd ∨ (focused = true ∧ g.status = true)) := by
  have hi := reachable_inv hr
  cases focused with
  | true =>
    obtain ⟨s', h1, h2, h3, h4⟩ := iterate_update hi GData.activate (fun _ => rfl) hl
    refine ⟨s', h1, h2, fun id g hg _ => ?_⟩
    have := h4 id
    by_cases hm : id ∈ l.map Prod.snd
    · rw [if_pos hm, hg] at this
      exact ⟨true, this, by simp only [hm, true_or]⟩
    · rw [if_neg hm, hg] at this
      exact ⟨g.status, this, by simp only [hm, false_or, true_and]⟩
  | false =>
    obtain ⟨s₁, a1, a2, a3, a4⟩ := deactivateAll_none hi
    have hl' : s₁.toList tag false false (optSel index) = .ok l := by rw [toList_congr a2]; exact hl
    obtain ⟨s', h1, h2, h3, h4⟩ := iterate_update (hi.congr a2 a3) GData.activate (fun _ => rfl) hl'
    refine ⟨s', ?_, by rw [h2, a2], fun id g hg hst => ?_⟩
    · simp only [activateCmd, Bool.false_eq_true, if_false, a1, bind, Except.bind]
      exact h1
    · have hg1 := (a4 id g hg).1 hst
      have := h4 id
      by_cases hm : id ∈ l.map Prod.snd
      · rw [if_pos hm, hg1] at this
        exact ⟨true, this, by simp only [hm, true_or]⟩
      · rw [if_neg hm, hg1] at this
        exact ⟨false, this, by simp only [hm, false_or, Bool.false_eq_true, false_and]⟩

/-- C18 for `deactivate`, the part that holds: without `--focused` the selected datasets become
inactive.  Missing: the others become active (they keep their status, see the counterexample), and
`--focused` keeps the others (it deactivates everything). -/
theorem C18_deactivate_partial {s : Space F} (hr : Reachable s) (tag : Option Tag) (index : Option (List Char))
    {l : List (Nat × Nat)} (hl : s.toList tag false false (optSel index) = .ok l) :
    ∃ s', s.deactivateCmd tag index false = .ok s' ∧ s'.dict = s.dict ∧
      ∀ id g, s.heap[id]? = some g → ∃ b, s'.heap[id]? = some { g with status := b } ∧
        (b = false ↔ id ∈ l.map Prod.snd ∨ g.status = false) := by
  have hi := reachable_inv hr
  obtain ⟨s', h1, h2, h3, h4⟩ := iterate_update hi GData.deactivate (fun _ => rfl) hl
  refine ⟨s', h1, h2, fun id g hg => ?_⟩
  have := h4 id
  by_cases hm : id ∈ l.map Prod.snd
  · rw [if_pos hm, hg] at this
    exact ⟨false, this, by simp only [hm, true_or]⟩
  · rw [if_neg hm, hg] at this
    exact ⟨g.status, this, by simp only [hm, false_or]⟩

/-- C18, the code disagrees: `deactivate -i 0` should leave dataset 1 active but it stays inactive. -/
theorem C18_deactivate_counterexample :
    ∃ (ops : List (StoreOp Nat)) (s' : Space Nat),
      (perform ops).deactivateCmd none (some "0".toList) false = .ok s' ∧
      (perform ops).toList none false false (optSel (some "0".toList)) = .ok [(0, 0)] ∧
      Stored (perform ops) 1 ∧ s'.active 1 = false := by
  refine ⟨[.add { status := true }, .add { status := false }], _, rfl, rfl, ⟨"default".toList, [0, 1], rfl, by simp⟩, rfl⟩

/-- C18, the code disagrees: with `--focused` every stored dataset is deactivated, whatever was
selected. -/
theorem C18_deactivate_focused_deactivates_all {s : Space F} (hr : Reachable s) (tag : Option Tag)
    (index : Option (List Char)) {l : List (Nat × Nat)}
    (hl : s.toList tag false false (optSel index) = .ok l) :
    ∃ s', s.deactivateCmd tag index true = .ok s' ∧ ∀ id, Stored s id → s'.active id = false := by
  have hi := reachable_inv hr
  obtain ⟨s₁, a1, a2, a3, a4⟩ := deactivateAll_none hi
  have hl' : s₁.toList tag false false (optSel index) = .ok l := by rw [toList_congr a2]; exact hl
  obtain ⟨s', h1, h2, h3, h4⟩ := iterate_update (hi.congr a2 a3) GData.deactivate (fun _ => rfl) hl'
  refine ⟨s', ?_, fun id hst => ?_⟩
  · simp only [deactivateCmd, if_true, C17_activate_all_deactivates, a1, bind, Except.bind]
    exact h1
  · obtain ⟨t, lt, hlk, hm⟩ := hst
    have hlt := hi.lt hlk hm
    have hg := (a4 id _ (List.getElem?_eq_getElem hlt)).1 ⟨t, lt, hlk, hm⟩
    have := h4 id
    rw [hg] at this
    simp only [active, this]
    by_cases hm' : id ∈ l.map Prod.snd
    · rw [if_pos hm']; rfl
    · rw [if_neg hm']

/-- Non-trivial case for C18. -/
example : let g (t : String) (b : Bool) : GData Nat := { tag := t.toList, status := b }
    let s := perform [.add (g "a" true), .add (g "b" true), .add (g "a" false), .add (g "a" true)]
    (s.activateCmd (some "a".toList) (some "1:".toList) false).toOption.map
      (fun s' => [0, 1, 2, 3].map s'.active) = some [false, false, true, true] ∧
    (s.activateCmd (some "a".toList) (some "1".toList) true).toOption.map
      (fun s' => [0, 1, 2, 3].map s'.active) = some [true, true, true, true] := by
  decide +kernel

/-! ## C19 -/

/-- C19, the part that holds: if the output tag is not among the tags still to be visited after the
first one, a command with an output tag computes one result per originally active input dataset, in
iteration order, appends exactly these results under the output tag and leaves all existing datasets
and the other tags alone.  Missing: output tags that are visited later (counterexample below). -/
theorem C19_one_result_per_dataset_partial {s : Space F} (hr : Reachable s)
    (f : GData F → Except Err (GData F)) (use : Option Tag) {ts : List Tag} (hts : Requests s use ts)
    (T : Tag) (hT : T ≠ []) (hlater : T ∉ ts.tail) {l : List (Nat × Nat)}
    (hl : s.toList use false true .none = .ok l) {ds rs : List (GData F)}
    (hds : l.map (fun e => s.heap[e.2]?) = ds.map some) (hrs : ds.mapM f = .ok rs) :
    ∃ s', mapCmd f use (some T) s = .ok s' ∧
      s'.heap = s.heap ++ rs.map (fun r => { r with tag := T, status := true }) ∧
      (∀ t, t ≠ T → s'.lookup t = s.lookup t) ∧
      (s'.lookup T).getD [] = (s.lookup T).getD [] ++
        (List.range rs.length).map (fun k => s.heap.length + k) := by
  have hi := reachable_inv hr
  cases T with
  | nil => exact absurd rfl hT
  | cons c cs =>
    rw [mapCmd_tag]
    have := iterate_ok (σ := Space F) id use false true .none (fun s _ i => mapBody f (c :: cs) s i) s hi
      (fun s' => (∃ x, s'.heap = s.heap ++ x) ∧ ∀ t, t ≠ c :: cs → s'.lookup t = s.lookup t)
      ⟨⟨[], by simp⟩, fun _ _ => rfl⟩
      (fun st i id st' hP hb => mapBody_preserves hP hb)
      (by
        rintro - st' ⟨⟨x, hx⟩, _⟩ i hi
        exact active_append hx hi)
      (by
        rintro st' ⟨_, hlk⟩ t ht
        refine hlk t ?_
        rintro rfl
        rw [show (id s : Space F).tagsOf use = ts from hts.tagsOf_eq] at ht
        exact hlater ht)
      hl
    rw [this]
    exact foldlM_mapBody f (c :: cs) l s ds rs hds hrs

/-- C19, without an output tag the command replaces each active dataset of the request once, in
place, and leaves the others alone. -/
theorem C19_in_place {s : Space F} (hr : Reachable s) (f : GData F → Except Err (GData F))
    (use : Option Tag) {l : List (Nat × Nat)} (hl : s.toList use false true .none = .ok l)
    (hnd : (l.map Prod.snd).Nodup) (hf : ∀ e ∈ l, ∀ d, s.heap[e.2]? = some d → ∃ r, f d = .ok r) :
    ∃ s', mapCmd f use none s = .ok s' ∧ s'.dict = s.dict ∧ s'.heap.length = s.heap.length ∧
      (∀ e ∈ l, ∀ d r, s.heap[e.2]? = some d → f d = .ok r →
        s'.heap[e.2]? = some { r with tag := d.tag, status := d.status }) ∧
      ∀ j, j ∉ l.map Prod.snd → s'.heap[j]? = s.heap[j]? := by
  have hi := reachable_inv hr
  rw [mapCmd_inplace]
  have := iterate_ok (σ := Space F) id use false true .none (fun s _ i => inplaceBody f s i) s hi
    (fun s' => s'.dict = s.dict ∧ ∀ j, s'.active j = s.active j) ⟨rfl, fun _ => rfl⟩
    (by
      rintro st i id st' ⟨h1, h2⟩ hb
      unfold inplaceBody at hb
      split at hb
      · cases hb; exact ⟨h1, h2⟩
      · split at hb
        · cases hb
        · cases hb
          exact ⟨h1, fun j => by rw [update_active]; exact h2 j⟩)
    (by
      rintro - st' ⟨_, h2⟩ i _
      exact h2 i)
    (by
      rintro st' ⟨h1, _⟩ t _
      simp only [id, lookup, h1])
    hl
  rw [this]
  exact foldlM_inplace f l s hnd fun e he => by
    have hlt := toList_none_lt hi hl e he
    obtain ⟨r, hr⟩ := hf e he _ (List.getElem?_eq_getElem hlt)
    exact ⟨_, r, List.getElem?_eq_getElem hlt, hr⟩

/-- C19, the code disagrees: with datasets under "a" and "b", a command with `--tag b` processes its
own result of dataset 0 again: three results for two inputs. -/
theorem C19_output_tag_visited_later_counterexample :
    ∃ (ops : List (StoreOp Nat)) (f : GData Nat → Except Err (GData Nat)) (s' : Space Nat),
      (perform ops).toList none false true .none = .ok [(0, 0), (0, 1)] ∧
      (∀ g, f g = .ok { g with customLabel := g.customLabel ++ ['x'] }) ∧
      mapCmd f none (some "b".toList) (perform ops) = .ok s' ∧
      s'.lookup "b".toList = some [1, 2, 3, 4] ∧
      (s'.heap[4]?).map GData.customLabel = some "xx".toList := by
  refine ⟨[.add { tag := "a".toList }, .add { tag := "b".toList }],
    fun g => .ok { g with customLabel := g.customLabel ++ ['x'] }, _, rfl, fun _ => rfl, rfl, rfl, rfl⟩

/-- Non-trivial case for C19: a new output tag. -/
example : let g (t : String) (b : Bool) : GData Nat := { tag := t.toList, status := b }
    let s := perform [.add (g "a" true), .add (g "b" true), .add (g "a" false)]
    s.toList none false true .none = .ok [(0, 0), (0, 1)] ∧
    "c".toList ∉ (s.dict.map Prod.fst).tail := by
  decide +kernel

end Pgkyl
