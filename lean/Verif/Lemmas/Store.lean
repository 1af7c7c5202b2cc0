import Verif.Lemmas.DataSpace
import Mathlib.Data.List.Pairwise
/-! # Lemmas about the dataset store: dictionary, iteration -/

namespace Pgkyl
namespace Space
variable {F : Type}

/-! ### The dictionary -/

/-- The tags in dictionary order. -/
def keys (s : Space F) : List Tag := s.dict.map Prod.fst

theorem find?_dictAdd (d : List (Tag × List Nat)) (t : Tag) (i : Nat) (u : Tag) :
    ((dictAdd d t i).find? (fun e => e.1 = u)).map Prod.snd =
      if t = u then some (((d.find? (fun e => e.1 = u)).map Prod.snd).getD [] ++ [i])
      else (d.find? (fun e => e.1 = u)).map Prod.snd := by
  induction d with
  | nil =>
    by_cases h : t = u <;> simp [dictAdd, h]
  | cons e d ih =>
    obtain ⟨t', l⟩ := e
    simp only [dictAdd]
    by_cases ht : t' = t
    · subst ht
      by_cases hu : t' = u
      · subst hu; simp
      · simp [hu]
    · rw [if_neg ht]
      by_cases hu : t' = u
      · subst hu
        have : ¬ t = t' := fun h => ht h.symm
        simp [this]
      · simp only [List.find?_cons, hu, decide_false]
        exact ih

theorem keys_dictAdd (d : List (Tag × List Nat)) (t : Tag) (i : Nat) :
    (dictAdd d t i).map Prod.fst =
      if t ∈ d.map Prod.fst then d.map Prod.fst else d.map Prod.fst ++ [t] := by
  induction d with
  | nil => simp [dictAdd]
  | cons e d ih =>
    obtain ⟨t', l⟩ := e
    simp only [dictAdd]
    by_cases ht : t' = t
    · subst ht; simp
    · rw [if_neg ht]
      have ht' : ¬ t = t' := fun h => ht h.symm
      rw [List.map_cons, ih]
      by_cases hm : t ∈ d.map Prod.fst
      · simp only [hm, List.map_cons, List.mem_cons, or_true, if_true]
      · have : ¬ t ∈ t' :: d.map Prod.fst := by
          rw [List.mem_cons]; rintro (h | h)
          · exact ht' h
          · exact hm h
        simp only [List.map_cons, if_neg hm, if_neg this, List.cons_append]

theorem mem_snd_dictAdd (d : List (Tag × List Nat)) (t : Tag) (i : Nat) :
    ((dictAdd d t i).flatMap Prod.snd).Perm (i :: d.flatMap Prod.snd) := by
  induction d with
  | nil => simp [dictAdd]
  | cons e d ih =>
    obtain ⟨t', l⟩ := e
    simp only [dictAdd]
    by_cases ht : t' = t
    · rw [if_pos ht]
      simp only [List.flatMap_cons, List.append_assoc, List.singleton_append]
      exact List.perm_middle
    · rw [if_neg ht]
      simp only [List.flatMap_cons]
      exact (ih.append_left l).trans List.perm_middle

theorem lookup_isSome_iff (s : Space F) (t : Tag) : (s.lookup t).isSome ↔ t ∈ s.keys := by
  simp [lookup, keys, List.find?_isSome]

theorem lookup_eq_none_iff (s : Space F) (t : Tag) : s.lookup t = none ↔ t ∉ s.keys := by
  rw [← lookup_isSome_iff]; cases s.lookup t <;> simp

theorem mem_of_lookup {s : Space F} {t : Tag} {l : List Nat} (h : s.lookup t = some l) :
    (t, l) ∈ s.dict := by
  simp only [lookup, Option.map_eq_some_iff] at h
  obtain ⟨e, he, rfl⟩ := h
  have h1 := List.mem_of_find?_eq_some he
  have h2 := List.find?_some he
  simp only [decide_eq_true_eq] at h2
  rw [← h2]; exact h1

theorem lookup_of_mem {s : Space F} (hn : s.keys.Nodup) {t : Tag} {l : List Nat}
    (h : (t, l) ∈ s.dict) : s.lookup t = some l := by
  unfold lookup
  unfold keys at hn
  generalize s.dict = d at h hn
  induction d with
  | nil => simp at h
  | cons e d ih =>
    rw [List.map_cons, List.nodup_cons] at hn
    rcases List.mem_cons.1 h with rfl | h'
    · simp
    · have : e.1 ≠ t := by
        rintro rfl
        exact hn.1 (List.mem_map.2 ⟨_, h', rfl⟩)
      simp only [List.find?_cons, this, decide_false]
      exact ih h' hn.2

/-- The well-formedness every reachable store has: stored names are names of existing objects,
no object is stored twice, no tag is listed twice. -/
structure Inv (s : Space F) : Prop where
  valid : ∀ i ∈ s.dict.flatMap Prod.snd, i < s.heap.length
  ids_nodup : (s.dict.flatMap Prod.snd).Nodup
  keys_nodup : s.keys.Nodup

theorem Inv.lt {s : Space F} (h : s.Inv) {t : Tag} {l : List Nat} (hl : s.lookup t = some l)
    {i : Nat} (hi : i ∈ l) : i < s.heap.length :=
  h.valid i (List.mem_flatMap.2 ⟨_, mem_of_lookup hl, hi⟩)

theorem Inv.disjoint {s : Space F} (h : s.Inv) {t u : Tag} {l l' : List Nat}
    (hl : s.lookup t = some l) (hl' : s.lookup u = some l') (hne : t ≠ u) : l.Disjoint l' := by
  have hn := (List.nodup_flatMap.1 h.ids_nodup).2
  have : Std.Symm (Function.onFun (List.Disjoint (α := Nat)) (Prod.snd (α := Tag))) :=
    ⟨fun a b hab x hx hx2 => hab hx2 hx⟩
  exact hn.forall (mem_of_lookup hl) (mem_of_lookup hl') (fun hc => hne (congrArg Prod.fst hc))

theorem inv_empty : (({} : Space F)).Inv := ⟨by simp, by simp, by simp [keys]⟩

theorem inv_clean (s : Space F) : s.clean.Inv := ⟨by simp [clean], by simp [clean], by simp [clean, keys]⟩

theorem addNew_dict (s : Space F) (g : GData F) :
    (s.addNew g).dict = dictAdd s.dict g.tag s.heap.length := by
  simp [addNew, add, alloc]

theorem addNew_heap (s : Space F) (g : GData F) : (s.addNew g).heap = s.heap ++ [g] := by
  simp [addNew, add, alloc]

theorem addNew_lookup (s : Space F) (g : GData F) (t : Tag) :
    (s.addNew g).lookup t =
      if g.tag = t then some ((s.lookup t).getD [] ++ [s.heap.length]) else s.lookup t := by
  simp only [lookup, addNew_dict, find?_dictAdd]

theorem addNew_keys (s : Space F) (g : GData F) :
    (s.addNew g).keys = if g.tag ∈ s.keys then s.keys else s.keys ++ [g.tag] := by
  unfold keys
  rw [addNew_dict, keys_dictAdd]

theorem Inv.addNew {s : Space F} (h : s.Inv) (g : GData F) : (s.addNew g).Inv := by
  refine ⟨?_, ?_, ?_⟩
  · intro i hi
    rw [addNew_dict, (mem_snd_dictAdd _ _ _).mem_iff, List.mem_cons] at hi
    rw [addNew_heap, List.length_append, List.length_singleton]
    rcases hi with rfl | hi
    · omega
    · have := h.valid i hi; omega
  · rw [addNew_dict, (mem_snd_dictAdd _ _ _).nodup_iff, List.nodup_cons]
    exact ⟨fun hc => absurd (h.valid _ hc) (by omega), h.ids_nodup⟩
  · rw [addNew_keys]
    split
    · exact h.keys_nodup
    · rename_i hm
      rw [List.nodup_append]
      refine ⟨h.keys_nodup, by simp, ?_⟩
      intro a ha b hb
      simp only [List.mem_singleton] at hb
      subst hb
      rintro rfl
      exact hm ha

@[simp] theorem update_dict (s : Space F) (i : Nat) (f : GData F → GData F) :
    (s.update i f).dict = s.dict := rfl

@[simp] theorem update_length (s : Space F) (i : Nat) (f : GData F → GData F) :
    (s.update i f).heap.length = s.heap.length := by simp [update]

@[simp] theorem update_lookup (s : Space F) (i : Nat) (f : GData F → GData F) (t : Tag) :
    (s.update i f).lookup t = s.lookup t := rfl

theorem update_heap? (s : Space F) (i : Nat) (f : GData F → GData F) (j : Nat) :
    (s.update i f).heap[j]? = if i = j then (s.heap[j]?).map f else s.heap[j]? := by
  simp only [update, List.getElem?_modify]
  by_cases h : i = j <;> simp [h]

theorem Inv.update {s : Space F} (h : s.Inv) (i : Nat) (f : GData F → GData F) :
    (s.update i f).Inv :=
  ⟨by intro j hj; rw [update_length]; exact h.valid j hj, h.ids_nodup, h.keys_nodup⟩

/-! ### Iteration -/

theorem foldlM_ok_cons {α σ : Type} (f : σ → α → Except Err σ) (a : α) (l : List α) (st : σ) :
    (a :: l).foldlM f st = match f st a with
      | .error e => .error e
      | .ok st' => l.foldlM f st' := by
  rw [List.foldlM_cons]
  cases f st a <;> rfl

theorem foldlM_append_ok {α σ : Type} (f : σ → α → Except Err σ) (l₁ l₂ : List α) (st : σ) :
    (l₁ ++ l₂).foldlM f st = match l₁.foldlM f st with
      | .error e => .error e
      | .ok st' => l₂.foldlM f st' := by
  rw [List.foldlM_append]
  cases l₁.foldlM f st <;> rfl

/-- What the visit of one tag yields when the consumer changes nothing. -/
def tagItems (s : Space F) (onlyActive : Bool) (sel : Sel) (ix : IdxSel) (t : Tag) :
    Except Err (List (Nat × Nat)) :=
  match s.lookup t with
  | none => .error .fail
  | some l => match positions sel ix l.length with
    | .error e => .error e
    | .ok ps => .ok (Spec.visit s.active onlyActive (ps.filterMap fun p => l[p]?))

theorem foldlM_collect (s : Space F) (oa : Bool) (items : List (Nat × Nat))
    (acc : List (Nat × Nat)) :
    items.foldlM (m := Except Err) (init := acc) (fun acc (id, i) =>
        if !oa || s.active id then .ok (acc ++ [(i, id)]) else .ok acc) =
      .ok (acc ++ (items.filter fun e => !oa || s.active e.1).map fun e => (e.2, e.1)) := by
  induction items generalizing acc with
  | nil => simp [pure, Except.pure]
  | cons e items ih =>
    rw [foldlM_ok_cons]
    by_cases h : (!oa || s.active e.1) = true
    · simp only [h, if_true, List.filter_cons_of_pos, List.map_cons]
      rw [ih]; simp
    · simp only [h]
      rw [List.filter_cons_of_neg (by simpa using h)]
      exact ih acc

theorem visitTag_collect (s : Space F) (oa : Bool) (sel : Sel) (ix : IdxSel) (t : Tag)
    (acc : List (Nat × Nat)) :
    visitTag (σ := List (Nat × Nat)) (fun _ => s) oa sel ix
      (fun acc i id => .ok (acc ++ [(i, id)])) acc t =
      match tagItems s oa sel ix t with
      | .error e => .error e
      | .ok l => .ok (acc ++ l) := by
  unfold visitTag tagItems
  cases s.lookup t with
  | none => rfl
  | some l =>
    simp only
    cases positions sel ix l.length with
    | error e => rfl
    | ok ps =>
      simp only [Spec.visit]
      exact foldlM_collect s oa _ acc

theorem collect_tags (s : Space F) (oa : Bool) (sel : Sel) (ix : IdxSel) (ts : List Tag)
    (acc : List (Nat × Nat)) :
    ts.foldlM (visitTag (σ := List (Nat × Nat)) (fun _ => s) oa sel ix
      (fun acc i id => .ok (acc ++ [(i, id)]))) acc =
      match ts.mapM (tagItems s oa sel ix) with
      | .error e => .error e
      | .ok ls => .ok (acc ++ ls.flatten) := by
  induction ts generalizing acc with
  | nil => simp [pure, Except.pure]
  | cons t ts ih =>
    rw [foldlM_ok_cons, visitTag_collect, List.mapM_cons]
    cases tagItems s oa sel ix t with
    | error e => rfl
    | ok l =>
      simp only [bind, Except.bind]
      rw [ih]
      cases ts.mapM (tagItems s oa sel ix) with
      | error e => rfl
      | ok ls => simp [pure, Except.pure]

theorem toList_eq (s : Space F) (tag : Option Tag) (enum oa : Bool) (sel : Sel) :
    s.toList tag enum oa sel =
      if enum && sel.truthy then .error .fail
      else match parseSel sel with
        | .error e => .error e
        | .ok ix => match (s.tagsOf tag).mapM (tagItems s oa sel ix) with
          | .error e => .error e
          | .ok ls => .ok ls.flatten := by
  unfold toList iterate
  split
  · rfl
  · cases parseSel sel with
    | error e => rfl
    | ok ix =>
      simp only
      rw [collect_tags]
      cases (s.tagsOf tag).mapM (tagItems s oa sel ix) <;> simp

theorem mapM_ok_of_forall {α β : Type} {f : α → Except Err β} {g : α → β} :
    ∀ {l : List α}, (∀ a ∈ l, f a = .ok (g a)) → l.mapM f = .ok (l.map g)
  | [], _ => rfl
  | a :: l, h => by
    rw [List.mapM_cons, h a (by simp), mapM_ok_of_forall (fun b hb => h b (by simp [hb]))]
    rfl

theorem mapM_error_of_mem {α β : Type} {f : α → Except Err β} :
    ∀ {l : List α} {a : α} {e : Err}, a ∈ l → f a = .error e → ∃ e', l.mapM f = .error e'
  | b :: l, a, e, ha, h => by
    rw [List.mapM_cons]
    cases hb : f b with
    | error e' => exact ⟨e', rfl⟩
    | ok v =>
      rcases List.mem_cons.1 ha with rfl | ha'
      · rw [h] at hb; cases hb
      · obtain ⟨e', he'⟩ := mapM_error_of_mem ha' h
        rw [he']; exact ⟨e', rfl⟩

theorem mapM_cons_ok {α β : Type} {f : α → Except Err β} {a : α} {l : List α} {r : List β} :
    (a :: l).mapM f = .ok r ↔ ∃ b bs, f a = .ok b ∧ l.mapM f = .ok bs ∧ r = b :: bs := by
  rw [List.mapM_cons]
  cases hfa : f a with
  | error e => simp [bind, Except.bind]
  | ok b =>
    cases hl : l.mapM f with
    | error e => simp [bind, Except.bind]
    | ok bs =>
      simp only [bind, Except.bind, pure, Except.pure, Except.ok.injEq]
      constructor
      · rintro rfl; exact ⟨b, bs, rfl, rfl, rfl⟩
      · rintro ⟨_, _, rfl, rfl, rfl⟩; rfl

/-- The items of one tag, visited by a consumer that keeps the statuses of existing objects. -/
theorem foldlM_items {σ : Type} (sp : σ → Space F) (oa : Bool) (body : σ → Nat → Nat → Except Err σ)
    (s : Space F) (P : σ → Prop)
    (hstep : ∀ st i id st', P st → body st i id = .ok st' → P st')
    (hact : oa = true → ∀ st, P st → ∀ id < s.heap.length, (sp st).active id = s.active id) :
    ∀ (items : List (Nat × Nat)) (st : σ), P st → (∀ e ∈ items, e.1 < s.heap.length) →
      items.foldlM (init := st) (fun st (id, i) =>
        if !oa || (sp st).active id then body st i id else .ok st) =
      ((items.filter fun e => !oa || s.active e.1).map fun e => (e.2, e.1)).foldlM
        (fun st e => body st e.1 e.2) st
  | [], st, _, _ => rfl
  | e :: items, st, hst, hlt => by
    have hlt' : ∀ e ∈ items, e.1 < s.heap.length := fun e he => hlt e (by simp [he])
    have hc : (!oa || (sp st).active e.1) = (!oa || s.active e.1) := by
      cases oa with
      | false => rfl
      | true => rw [hact rfl st hst e.1 (hlt e (by simp))]
    rw [foldlM_ok_cons]
    by_cases h : (!oa || s.active e.1) = true
    · simp only [hc, h, if_true]
      rw [List.filter_cons_of_pos (p := fun e : Nat × Nat => !oa || s.active e.1) h, List.map_cons, foldlM_ok_cons]
      cases hb : body st e.2 e.1 with
      | error e' => rfl
      | ok st' => exact foldlM_items sp oa body s P hstep hact items st' (hstep _ _ _ _ hst hb) hlt'
    · simp only [hc, h]
      rw [List.filter_cons_of_neg (p := fun e : Nat × Nat => !oa || s.active e.1) h]
      exact foldlM_items sp oa body s P hstep hact items st hst hlt'

theorem foldlM_preserves {α σ : Type} {f : σ → α → Except Err σ} {P : σ → Prop}
    (hstep : ∀ st a st', P st → f st a = .ok st' → P st') :
    ∀ (l : List α) (st st' : σ), P st → l.foldlM f st = .ok st' → P st'
  | [], st, st', hst, h => by
    simp only [List.foldlM_nil, pure, Except.pure, Except.ok.injEq] at h
    exact h ▸ hst
  | a :: l, st, st', hst, h => by
    rw [foldlM_ok_cons] at h
    cases hb : f st a with
    | error e => rw [hb] at h; cases h
    | ok st₁ =>
      rw [hb] at h
      exact foldlM_preserves hstep l st₁ st' (hstep _ _ _ hst hb) h

/-- One tag visited by such a consumer, when its list is still the original one. -/
theorem visitTag_eq {σ : Type} (sp : σ → Space F) (oa : Bool) (sel : Sel) (ix : IdxSel)
    (body : σ → Nat → Nat → Except Err σ) (s : Space F) (hi : s.Inv) (P : σ → Prop)
    (hstep : ∀ st i id st', P st → body st i id = .ok st' → P st')
    (hact : oa = true → ∀ st, P st → ∀ id < s.heap.length, (sp st).active id = s.active id)
    (t : Tag) (st : σ) (hst : P st) (hl : (sp st).lookup t = s.lookup t) :
    visitTag sp oa sel ix body st t =
      match tagItems s oa sel ix t with
      | .error e => .error e
      | .ok items => items.foldlM (fun st e => body st e.1 e.2) st := by
  unfold visitTag tagItems
  rw [hl]
  cases hlk : s.lookup t with
  | none => rfl
  | some l =>
    simp only
    cases positions sel ix l.length with
    | error e => rfl
    | ok ps =>
      simp only [Spec.visit]
      refine foldlM_items sp oa body s P hstep hact _ st hst ?_
      intro e he
      have : e.1 ∈ ps.filterMap fun p => l[p]? := by
        obtain ⟨i, v⟩ := e
        exact List.fst_mem_of_mem_zipIdx he
      rw [List.mem_filterMap] at this
      obtain ⟨p, _, hp⟩ := this
      exact hi.lt hlk (List.mem_of_getElem? hp)

theorem iterate_tags {σ : Type} (sp : σ → Space F) (oa : Bool) (sel : Sel) (ix : IdxSel)
    (body : σ → Nat → Nat → Except Err σ) (s : Space F) (hi : s.Inv) (P : σ → Prop)
    (hstep : ∀ st i id st', P st → body st i id = .ok st' → P st')
    (hact : oa = true → ∀ st, P st → ∀ id < s.heap.length, (sp st).active id = s.active id) :
    ∀ (ts : List Tag) (st : σ), P st → (∀ t ∈ ts.head?, (sp st).lookup t = s.lookup t) →
      (∀ st, P st → ∀ t ∈ ts.tail, (sp st).lookup t = s.lookup t) →
      (∀ ls, ts.mapM (tagItems s oa sel ix) = .ok ls →
        ts.foldlM (visitTag sp oa sel ix body) st =
          ls.flatten.foldlM (fun st e => body st e.1 e.2) st) ∧
      (∀ e, ts.mapM (tagItems s oa sel ix) = .error e →
        ∃ e', ts.foldlM (visitTag sp oa sel ix body) st = .error e')
  | [], st, _, _, _ => by
    constructor
    · intro ls h
      simp only [List.mapM_nil, pure, Except.pure, Except.ok.injEq] at h
      subst h; rfl
    · intro e h; simp [pure, Except.pure] at h
  | t :: ts, st, hst, hhead, htail => by
    have hv := visitTag_eq sp oa sel ix body s hi P hstep hact t st hst (hhead t (by simp))
    have hrec : ∀ st', P st' → _ := fun st' hst' =>
      iterate_tags sp oa sel ix body s hi P hstep hact ts st' hst'
        (fun u hu => htail st' hst' u (List.mem_of_mem_head? hu))
        (fun st'' h'' u hu => htail st'' h'' u (List.mem_of_mem_tail hu))
    constructor
    · intro ls h
      rw [mapM_cons_ok] at h
      obtain ⟨items, ls', h1, h2, rfl⟩ := h
      rw [foldlM_ok_cons, hv, h1]
      simp only [List.flatten_cons]
      rw [foldlM_append_ok]
      cases hb : items.foldlM (fun st e => body st e.1 e.2) st with
      | error e => rfl
      | ok st' =>
        exact (hrec st' (foldlM_preserves (fun st a st' => hstep st a.1 a.2 st') items st st' hst hb)).1 ls' h2
    · intro e h
      rw [foldlM_ok_cons, hv]
      rw [List.mapM_cons] at h
      cases h1 : tagItems s oa sel ix t with
      | error e' => exact ⟨e', rfl⟩
      | ok items =>
        simp only
        cases hb : items.foldlM (fun st e => body st e.1 e.2) st with
        | error e => exact ⟨e, rfl⟩
        | ok st' =>
          rw [h1] at h
          cases h2 : ts.mapM (tagItems s oa sel ix) with
          | error e' =>
            exact (hrec st' (foldlM_preserves (fun st a st' => hstep st a.1 a.2 st') items st st' hst hb)).2 e' h2
          | ok ls => rw [h2] at h; simp [bind, Except.bind, pure, Except.pure] at h

/-- Running a loop body over an iteration is folding it over what the iteration would yield
up front, provided the body keeps the lists of the tags still to be visited and the statuses. -/
theorem iterate_ok {σ : Type} (sp : σ → Space F) (tag : Option Tag) (enum oa : Bool) (sel : Sel)
    (body : σ → Nat → Nat → Except Err σ) (st : σ) (hi : (sp st).Inv) (P : σ → Prop) (hst : P st)
    (hstep : ∀ st i id st', P st → body st i id = .ok st' → P st')
    (hact : oa = true → ∀ st', P st' → ∀ id < (sp st).heap.length,
      (sp st').active id = (sp st).active id)
    (hlook : ∀ st', P st' → ∀ t ∈ ((sp st).tagsOf tag).tail, (sp st').lookup t = (sp st).lookup t)
    {l : List (Nat × Nat)} (hl : (sp st).toList tag enum oa sel = .ok l) :
    iterate sp tag enum oa sel body st = l.foldlM (fun st e => body st e.1 e.2) st := by
  rw [toList_eq] at hl
  unfold iterate
  split at hl
  · cases hl
  · rename_i hcond
    rw [if_neg hcond]
    cases hp : parseSel sel with
    | error e => rw [hp] at hl; cases hl
    | ok ix =>
      rw [hp] at hl
      simp only at hl ⊢
      cases hm : ((sp st).tagsOf tag).mapM (tagItems (sp st) oa sel ix) with
      | error e => rw [hm] at hl; cases hl
      | ok ls =>
        rw [hm] at hl
        simp only [Except.ok.injEq] at hl
        subst hl
        exact (iterate_tags sp oa sel ix body (sp st) hi P hstep hact _ st hst (fun _ _ => rfl) hlook).1 ls hm

theorem iterate_error {σ : Type} (sp : σ → Space F) (tag : Option Tag) (enum oa : Bool) (sel : Sel)
    (body : σ → Nat → Nat → Except Err σ) (st : σ) (hi : (sp st).Inv) (P : σ → Prop) (hst : P st)
    (hstep : ∀ st i id st', P st → body st i id = .ok st' → P st')
    (hact : oa = true → ∀ st', P st' → ∀ id < (sp st).heap.length,
      (sp st').active id = (sp st).active id)
    (hlook : ∀ st', P st' → ∀ t ∈ ((sp st).tagsOf tag).tail, (sp st').lookup t = (sp st).lookup t)
    {e : Err} (hl : (sp st).toList tag enum oa sel = .error e) :
    ∃ e', iterate sp tag enum oa sel body st = .error e' := by
  rw [toList_eq] at hl
  unfold iterate
  split at hl
  · rename_i hcond
    rw [if_pos hcond]; exact ⟨_, rfl⟩
  · rename_i hcond
    rw [if_neg hcond]
    cases hp : parseSel sel with
    | error e => exact ⟨_, rfl⟩
    | ok ix =>
      rw [hp] at hl
      simp only at hl ⊢
      cases hm : ((sp st).tagsOf tag).mapM (tagItems (sp st) oa sel ix) with
      | error e =>
        exact (iterate_tags sp oa sel ix body (sp st) hi P hstep hact _ st hst (fun _ _ => rfl) hlook).2 e hm
      | ok ls => rw [hm] at hl; cases hl

end Space
end Pgkyl
