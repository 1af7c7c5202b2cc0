import Verif.Lemmas.StoreProps
import Verif.Spec.StoreOnce
/-!
# Iterations whose body switches off the dataset it has just visited
-/

namespace Pgkyl
namespace Space
open Spec
variable {F : Type}

theorem foldlM_once {σ : Type} (sp : σ → Space F) (body : σ → Nat → Nat → Except Err σ)
    (s : Space F) (P : List Nat → σ → Prop)
    (hstep : ∀ done st i id st', P done st → id ∉ done → id < s.heap.length → s.active id = true →
      body st i id = .ok st' → P (done ++ [id]) st')
    (hact : ∀ done st, P done st → ∀ id < s.heap.length, id ∉ done → (sp st).active id = s.active id) :
    ∀ (items : List (Nat × Nat)) (done : List Nat) (st : σ), P done st → (∀ e ∈ items, e.1 < s.heap.length) →
      (items.map (·.1)).Nodup → (∀ e ∈ items, e.1 ∉ done) →
      items.foldlM (init := st) (fun st (id, i) =>
        if !true || (sp st).active id then body st i id else .ok st) =
      ((items.filter fun e => !true || s.active e.1).map fun e => (e.2, e.1)).foldlM
        (fun st e => body st e.1 e.2) st ∧
      ∀ st', items.foldlM (init := st) (fun st (id, i) =>
        if !true || (sp st).active id then body st i id else .ok st) = .ok st' →
        P (done ++ (items.map (·.1)).filter s.active) st'
  | [], done, st, hst, _, _, _ => by
    refine ⟨rfl, fun st' h => ?_⟩
    cases h
    simpa using hst
  | e :: items, done, st, hst, hlt, hnd, hdone => by
    have hlt' : ∀ e ∈ items, e.1 < s.heap.length := fun e he => hlt e (by simp [he])
    rw [List.map_cons, List.nodup_cons] at hnd
    have hc : (!true || (sp st).active e.1) = (!true || s.active e.1) := by
      rw [hact done st hst e.1 (hlt e (by simp)) (hdone e (by simp))]
    rw [foldlM_ok_cons]
    by_cases h : s.active e.1 = true
    · have h' : (!true || s.active e.1) = true := by simp [h]
      simp only [hc, h', if_true]
      rw [List.filter_cons_of_pos (p := fun e : Nat × Nat => !true || s.active e.1) h', List.map_cons, foldlM_ok_cons]
      cases hb : body st e.2 e.1 with
      | error e' => exact ⟨rfl, fun st' h => by cases h⟩
      | ok st' =>
        have hst' := hstep done st e.2 e.1 st' hst (hdone e (by simp)) (hlt e (by simp)) h hb
        obtain ⟨h1, h2⟩ := foldlM_once sp body s P hstep hact items (done ++ [e.1]) st' hst' hlt' hnd.2 (by
          intro x hx
          simp only [List.mem_append, List.mem_singleton, not_or]
          refine ⟨hdone x (by simp [hx]), ?_⟩
          intro he
          exact hnd.1 (he ▸ List.mem_map_of_mem hx))
        refine ⟨h1, fun st'' hs => ?_⟩
        have := h2 st'' hs
        rw [List.append_assoc] at this
        rw [List.map_cons, List.filter_cons_of_pos h]
        exact this
    · have h' : ¬ (!true || s.active e.1) = true := by simpa using h
      simp only [hc, h']
      rw [List.filter_cons_of_neg (p := fun e : Nat × Nat => !true || s.active e.1) h']
      obtain ⟨h1, h2⟩ := foldlM_once sp body s P hstep hact items done st hst hlt' hnd.2
        (fun x hx => hdone x (by simp [hx]))
      refine ⟨h1, fun st'' hs => ?_⟩
      rw [List.map_cons, List.filter_cons_of_neg h]
      exact h2 st'' hs

theorem Inv.list_nodup {s : Space F} (h : s.Inv) {t : Tag} {l : List Nat} (hl : s.lookup t = some l) : l.Nodup :=
  (List.nodup_flatMap.1 h.ids_nodup).1 _ (mem_of_lookup hl)

theorem positions_none (n : Nat) : positions .none (.slice none none none) n = .ok (List.range n) := by
  simp only [positions]
  rw [sliceIndices_eq _ _ _ _ (by decide)]
  simp only [Option.getD_none, slicePositions_all]

theorem visitTag_once {σ : Type} (sp : σ → Space F)
    (body : σ → Nat → Nat → Except Err σ) (s : Space F) (hi : s.Inv) (P : List Nat → σ → Prop)
    (hstep : ∀ done st i id st', P done st → id ∉ done → id < s.heap.length → s.active id = true →
      body st i id = .ok st' → P (done ++ [id]) st')
    (hact : ∀ done st, P done st → ∀ id < s.heap.length, id ∉ done → (sp st).active id = s.active id)
    (t : Tag) (l : List Nat) (hlk : s.lookup t = some l) (done : List Nat) (st : σ) (hst : P done st)
    (hl : (sp st).lookup t = s.lookup t) (hdone : ∀ i ∈ l, i ∉ done) :
    visitTag sp true .none (.slice none none none) body st t =
      (visit s.active true l).foldlM (fun st e => body st e.1 e.2) st ∧
    ∀ st', visitTag sp true .none (.slice none none none) body st t = .ok st' → P (done ++ l.filter s.active) st' := by
  have hv : visitTag sp true .none (.slice none none none) body st t =
      l.zipIdx.foldlM (init := st) (fun st (id, i) =>
        if !true || (sp st).active id then body st i id else .ok st) := by
    unfold visitTag
    rw [hl, hlk]
    simp only [positions_none, filterMap_range_getElem?]
  rw [hv]
  obtain ⟨h1, h2⟩ := foldlM_once sp body s P hstep hact l.zipIdx done st hst
    (fun e he => hi.lt hlk (List.fst_mem_of_mem_zipIdx (x := e) he))
    (by simpa using hi.list_nodup hlk) (fun e he => hdone _ (List.fst_mem_of_mem_zipIdx (x := e) he))
  refine ⟨h1, fun st' h => ?_⟩
  have := h2 st' h
  simpa using this

theorem tags_once {σ : Type} (sp : σ → Space F)
    (body : σ → Nat → Nat → Except Err σ) (s : Space F) (hi : s.Inv) (P : List Nat → σ → Prop)
    (hstep : ∀ done st i id st', P done st → id ∉ done → id < s.heap.length → s.active id = true →
      body st i id = .ok st' → P (done ++ [id]) st')
    (hact : ∀ done st, P done st → ∀ id < s.heap.length, id ∉ done → (sp st).active id = s.active id)
    (ls : Tag → List Nat) : ∀ (ts : List Tag) (done : List Nat) (st : σ), P done st → ts.Nodup →
      (∀ t ∈ ts, s.lookup t = some (ls t)) → (∀ t ∈ ts, ∀ i ∈ ls t, i ∉ done) →
      (∀ t ∈ ts.head?, (sp st).lookup t = s.lookup t) →
      (∀ done st, P done st → ∀ t ∈ ts.tail, (sp st).lookup t = s.lookup t) →
      ts.foldlM (visitTag sp true .none (.slice none none none) body) st =
        (ts.flatMap fun t => visit s.active true (ls t)).foldlM (fun st e => body st e.1 e.2) st ∧
      ∀ st', ts.foldlM (visitTag sp true .none (.slice none none none) body) st = .ok st' →
        P (done ++ ts.flatMap fun t => (ls t).filter s.active) st'
  | [], done, st, hst, _, _, _, _, _ => ⟨rfl, fun st' h => by cases h; simpa using hst⟩
  | t :: ts, done, st, hst, hnd, hlk, hdone, hhead, htail => by
    rw [List.nodup_cons] at hnd
    obtain ⟨h1, h2⟩ := visitTag_once sp body s hi P hstep hact t (ls t) (hlk t (by simp)) done st hst
      (hhead t (by simp)) (hdone t (by simp))
    rw [foldlM_ok_cons, List.flatMap_cons, foldlM_append_ok, ← h1]
    cases hb : visitTag sp true .none (.slice none none none) body st t with
    | error e => exact ⟨rfl, fun st' h => by cases h⟩
    | ok st' =>
      have hP := h2 st' hb
      obtain ⟨h3, h4⟩ := tags_once sp body s hi P hstep hact ls ts _ st' hP hnd.2 (fun u hu => hlk u (by simp [hu]))
        (by
          intro u hu i hiu hd
          rcases List.mem_append.1 hd with hd | hd
          · exact hdone u (by simp [hu]) i hiu hd
          · have hne : t ≠ u := fun h => hnd.1 (h ▸ hu)
            exact hi.disjoint (hlk t (by simp)) (hlk u (by simp [hu])) hne (List.mem_filter.1 hd).1 hiu)
        (fun u hu => htail _ st' hP u (List.mem_of_mem_head? hu))
        (fun d s' hs u hu => htail d s' hs u (List.mem_of_mem_tail hu))
      refine ⟨h3, fun st'' h => ?_⟩
      have := h4 st'' h
      rwa [List.append_assoc] at this

/-- Running a loop body over an iteration is folding it over what the iteration would yield up front, if the body
keeps the lists of the tags still to be visited and the statuses of the objects not yet visited. -/
theorem iterate_once {σ : Type} (sp : σ → Space F) (tag : Option Tag) (enum : Bool)
    (body : σ → Nat → Nat → Except Err σ) (st : σ) (hi : (sp st).Inv) (P : List Nat → σ → Prop) (hst : P [] st)
    (hstep : ∀ done st' i id st'', P done st' → id ∉ done → id < (sp st).heap.length → (sp st).active id = true →
      body st' i id = .ok st'' → P (done ++ [id]) st'')
    (hact : ∀ done st', P done st' → ∀ id < (sp st).heap.length, id ∉ done → (sp st').active id = (sp st).active id)
    {ls : Tag → List Nat} (hnd : ((sp st).tagsOf tag).Nodup)
    (hls : ∀ t ∈ (sp st).tagsOf tag, (sp st).lookup t = some (ls t))
    (hlook : ∀ done st', P done st' → ∀ t ∈ ((sp st).tagsOf tag).tail, (sp st').lookup t = (sp st).lookup t) :
    iterate sp tag enum true .none body st =
      (((sp st).tagsOf tag).flatMap fun t => visit (sp st).active true (ls t)).foldlM
        (fun st e => body st e.1 e.2) st := by
  unfold iterate
  rw [if_neg (by simp [Sel.truthy])]
  simp only [parseSel]
  exact (tags_once sp body (sp st) hi P hstep hact ls _ [] st hst hnd hls (by simp) (fun _ _ => rfl) hlook).1

/-! ### Commands that add datasets and switch off the visited ones -/

theorem foldl_addNew_heap (rs : List (GData F)) : ∀ s : Space F, (rs.foldl addNew s).heap = s.heap ++ rs := by
  induction rs with
  | nil => intro s; simp
  | cons r rs ih => intro s; rw [List.foldl_cons, ih, addNew_heap]; simp

theorem foldl_addNew_inv (rs : List (GData F)) : ∀ s : Space F, s.Inv → (rs.foldl addNew s).Inv := by
  induction rs with
  | nil => intro s h; exact h
  | cons r rs ih => intro s h; exact ih _ (h.addNew r)

theorem foldl_addNew_lookup {T : Tag} (rs : List (GData F)) : ∀ s : Space F, (∀ r ∈ rs, r.tag = T) → ∀ t,
    (rs.foldl addNew s).lookup t =
      if t = T ∧ rs ≠ [] then some ((s.lookup t).getD [] ++ List.range' s.heap.length rs.length) else s.lookup t := by
  induction rs with
  | nil => intro s _ t; simp
  | cons r rs ih =>
    intro s h t
    rw [List.foldl_cons, ih _ (fun r hr => h r (by simp [hr])), addNew_lookup, addNew_heap, h r (by simp)]
    by_cases ht : t = T
    · subst ht
      by_cases hr : rs = []
      · subst hr; simp [List.range'_succ]
      · simp [hr, List.range'_succ]
    · rw [if_neg (by simp [ht]), if_neg (Ne.symm ht), if_neg (by simp [ht])]

/-- The store `st` is the store `s` with the objects `done` switched off and the new objects `added` under the tag `T`. -/
structure Added (s : Space F) (T : Tag) (done : List Nat) (added : List (GData F)) (st : Space F) : Prop where
  inv : st.Inv
  old : ∀ j < s.heap.length, st.heap[j]? = if j ∈ done then (s.heap[j]?).map GData.deactivate else s.heap[j]?
  len : st.heap.length = s.heap.length + added.length
  new : ∀ k, st.heap[s.heap.length + k]? = added[k]?
  lists : ∀ t, st.lookup t = if t = T ∧ added ≠ [] then
    some ((s.lookup t).getD [] ++ List.range' s.heap.length added.length) else s.lookup t

theorem Added.refl {s : Space F} (h : s.Inv) (T : Tag) : Added s T [] [] s :=
  ⟨h, by simp, by simp, by simp, by simp⟩

theorem Added.step {s st : Space F} {T : Tag} {done : List Nat} {added rs : List (GData F)} (h : Added s T done added st)
    (htag : ∀ r ∈ rs, r.tag = T) {id : Nat} (hid : id < s.heap.length) :
    Added s T (done ++ [id]) (added ++ rs) ((rs.foldl addNew st).update id GData.deactivate) := by
  refine ⟨(foldl_addNew_inv _ _ h.inv).update _ _, ?_, ?_, ?_, ?_⟩
  · intro j hj
    rw [update_heap?, foldl_addNew_heap, List.getElem?_append_left (by rw [h.len]; omega), h.old j hj]
    by_cases hji : id = j
    · subst hji
      by_cases hd : id ∈ done
      · simp only [if_true, hd, List.mem_append, true_or]
        cases s.heap[id]? <;> rfl
      · simp [hd]
    · rw [if_neg hji]
      simp [Ne.symm hji]
  · rw [update_length, foldl_addNew_heap, List.length_append, List.length_append, h.len]; omega
  · intro k
    rw [update_heap?, if_neg (by omega), foldl_addNew_heap]
    rcases Nat.lt_or_ge k added.length with hk | hk
    · rw [List.getElem?_append_left (by rw [h.len]; omega), h.new, List.getElem?_append_left hk]
    · rw [List.getElem?_append_right (by rw [h.len]; omega), List.getElem?_append_right hk, h.len]
      congr 1; omega
  · intro t
    rw [update_lookup, foldl_addNew_lookup rs st htag t, h.lists t]
    by_cases ht : t = T
    · subst ht
      by_cases hr : rs = []
      · subst hr; simp
      · by_cases ha : added = []
        · subst ha
          simp [hr, h.len]
        · simp [hr, ha, h.len, List.range'_append_1]
    · simp [ht]

/-- A command that adds results under the tag `T` (not one of the tags still to be visited) for every visited dataset and
then switches that dataset off. -/
theorem iterate_added {s : Space F} (hi : s.Inv) (use : Option Tag) (enum : Bool) (T : Tag)
    (res : GData F → Except Err (List (GData F))) (htag : ∀ d rs, res d = .ok rs → ∀ r ∈ rs, r.tag = T)
    (body : Space F → Nat → Nat → Except Err (Space F))
    (hbody : ∀ st i id d, st.heap[id]? = some d →
      body st i id = (res d).map fun rs => (rs.foldl addNew st).update id GData.deactivate)
    {ls : Tag → List Nat} (hnd : (s.tagsOf use).Nodup) (hls : ∀ t ∈ s.tagsOf use, s.lookup t = some (ls t))
    (hT : T ∉ (s.tagsOf use).tail) (news : Nat → List (GData F))
    (hok : ∀ t ∈ s.tagsOf use, ∀ i ∈ ls t, ∀ d, s.heap[i]? = some d → d.status = true → res d = .ok (news i)) :
    ∃ s', iterate (fun s => s) use enum true .none body s = .ok s' ∧
      Added s T ((s.tagsOf use).flatMap fun t => (ls t).filter s.active)
        (((s.tagsOf use).flatMap fun t => (ls t).filter s.active).flatMap news) s' := by
  have hget : ∀ {done added} {st : Space F}, Added s T done added st → ∀ id < s.heap.length, id ∉ done →
      st.heap[id]? = s.heap[id]? := by
    intro done added st h id hid hd
    rw [h.old id hid, if_neg hd]
  rw [iterate_once (fun s => s) use enum body s hi (fun done st => ∃ added, Added s T done added st) ⟨_, .refl hi T⟩
    ?_ ?_ hnd hls ?_]
  · have hfold : ∀ (items : List (Nat × Nat)) (done : List Nat) (added : List (GData F)) (st : Space F),
        Added s T done added st → (items.map (·.2)).Nodup → (∀ e ∈ items, e.2 ∉ done) →
        (∀ e ∈ items, ∃ d, s.heap[e.2]? = some d ∧ res d = .ok (news e.2)) →
        ∃ s', items.foldlM (fun st e => body st e.1 e.2) st = .ok s' ∧
          Added s T (done ++ items.map (·.2)) (added ++ (items.map (·.2)).flatMap news) s' := by
      intro items
      induction items with
      | nil => intro done added st h _ _ _; exact ⟨st, rfl, by simpa using h⟩
      | cons e items ih =>
        intro done added st h hn hd hr
        rw [List.map_cons, List.nodup_cons] at hn
        obtain ⟨d, hd1, hd2⟩ := hr e (by simp)
        have hlt : e.2 < s.heap.length := (List.getElem?_eq_some_iff.1 hd1).1
        have hb : body st e.1 e.2 = .ok (((news e.2).foldl addNew st).update e.2 GData.deactivate) := by
          rw [hbody st e.1 e.2 d (by rw [hget h _ hlt (hd e (by simp)), hd1]), hd2]; rfl
        obtain ⟨s', h1, h2⟩ := ih _ _ _ (h.step (htag d _ hd2) hlt) hn.2
          (by
            intro x hx
            simp only [List.mem_append, List.mem_singleton, not_or]
            exact ⟨hd x (by simp [hx]), fun he => hn.1 (he ▸ List.mem_map_of_mem hx)⟩)
          (fun x hx => hr x (by simp [hx]))
        refine ⟨s', ?_, ?_⟩
        · rw [foldlM_ok_cons, hb]; exact h1
        · simpa [List.append_assoc] using h2
    have hids : ((s.tagsOf use).flatMap fun t => visit s.active true (ls t)).map (·.2) =
        (s.tagsOf use).flatMap fun t => (ls t).filter s.active := by
      rw [List.map_flatMap]
      refine List.flatMap_congr fun t _ => ?_
      unfold visit
      rw [List.map_map]
      simp only [Bool.not_true, Bool.false_or]
      show List.map (fun e : Nat × Nat => e.1) _ = _
      have := List.filter_map (f := fun e : Nat × Nat => e.1) (p := s.active) (l := (ls t).zipIdx)
      rw [show (List.map (fun e : Nat × Nat => e.1) (ls t).zipIdx) = ls t by simp] at this
      rw [this]
      rfl
    obtain ⟨s', h1, h2⟩ := hfold _ [] [] s (.refl hi T) (by
        rw [hids]
        refine List.nodup_flatMap.2 ⟨fun t ht => (hi.list_nodup (hls t ht)).filter _, ?_⟩
        refine hnd.imp_of_mem ?_
        intro a b ha hb hab x hx hx'
        exact hi.disjoint (hls a ha) (hls b hb) hab (List.mem_filter.1 hx).1 (List.mem_filter.1 hx').1)
      (by simp) (by
        intro e he
        have : e.2 ∈ (s.tagsOf use).flatMap fun t => (ls t).filter s.active := by
          rw [← hids]; exact List.mem_map_of_mem he
        obtain ⟨t, ht, hm⟩ := List.mem_flatMap.1 this
        obtain ⟨hm, hact⟩ := List.mem_filter.1 hm
        have hlt := hi.lt (hls t ht) hm
        refine ⟨s.heap[e.2], List.getElem?_eq_getElem hlt, hok t ht _ hm _ (List.getElem?_eq_getElem hlt) ?_⟩
        unfold active at hact
        rw [List.getElem?_eq_getElem hlt] at hact
        exact hact)
    refine ⟨s', h1, ?_⟩
    rw [hids] at h2
    simpa using h2
  · rintro done st i id st' ⟨added, h⟩ hd hlt _ hb
    rw [hbody st i id _ (by rw [hget h id hlt hd]; exact List.getElem?_eq_getElem hlt)] at hb
    cases hr : res s.heap[id] with
    | error e => rw [hr] at hb; cases hb
    | ok rs =>
      rw [hr] at hb
      cases hb
      exact ⟨_, h.step (htag _ _ hr) hlt⟩
  · rintro done st ⟨added, h⟩ id hlt hd
    unfold active
    rw [hget h id hlt hd]
  · rintro done st ⟨added, h⟩ t ht
    rw [h.lists, if_neg]
    rintro ⟨rfl, _⟩
    exact hT ht

theorem Added.spec {s st : Space F} {T : Tag} {done : List Nat} {added : List (GData F)} (h : Added s T done added st) :
    AddsAndRetires s T done added st := by
  refine ⟨h.old, h.new, fun t => ?_⟩
  rw [h.lists t]
  by_cases ht : t = T <;> by_cases ha : added = [] <;> simp [ht, ha]

theorem visited_eq {s : Space F} {ts : List Tag} {ls : Tag → List Nat} (h : ∀ t ∈ ts, s.lookup t = some (ls t)) :
    (ts.flatMap fun t => (ls t).filter s.active) = visited s ts := by
  unfold visited
  refine List.flatMap_congr fun t ht => ?_
  rw [h t ht]
  rfl

/-- The same with everything said about the store. -/
theorem iterate_retires {s : Space F} (hi : s.Inv) (use : Option Tag) (enum : Bool) (T : Tag)
    (res : GData F → Except Err (List (GData F))) (htag : ∀ d rs, res d = .ok rs → ∀ r ∈ rs, r.tag = T)
    (body : Space F → Nat → Nat → Except Err (Space F))
    (hbody : ∀ st i id d, st.heap[id]? = some d →
      body st i id = (res d).map fun rs => (rs.foldl addNew st).update id GData.deactivate)
    (hnd : (s.tagsOf use).Nodup) (hls : ∀ t ∈ s.tagsOf use, t ∈ s.keys)
    (hT : T ∉ (s.tagsOf use).tail) (news : Nat → List (GData F))
    (hok : ∀ i ∈ visited s (s.tagsOf use), ∀ d, s.heap[i]? = some d → res d = .ok (news i)) :
    ∃ s', iterate (fun s => s) use enum true .none body s = .ok s' ∧ s'.Inv ∧
      AddsAndRetires s T (visited s (s.tagsOf use)) ((visited s (s.tagsOf use)).flatMap news) s' := by
  have hlk : ∀ t ∈ s.tagsOf use, s.lookup t = some ((s.lookup t).getD []) := by
    intro t ht
    cases h : s.lookup t with
    | some l => rfl
    | none => exact absurd (hls t ht) ((lookup_eq_none_iff _ _).1 h)
  obtain ⟨s', h1, h2⟩ := iterate_added hi use enum T res htag body hbody hnd hlk hT news (by
    intro t ht i hit d hd hst
    refine hok i ?_ d hd
    refine List.mem_flatMap.2 ⟨t, ht, List.mem_filter.2 ⟨hit, ?_⟩⟩
    unfold active
    rw [hd]
    exact hst)
  exact ⟨s', h1, h2.inv, h2.spec⟩

end Space
end Pgkyl
