import Verif.Spec.Kept
import Verif.Lemmas.StoreCmd
import Verif.Lemmas.Commands
import Verif.Lemmas.PairCommands
/-! # Lemmas for C157: what a command may change -/

namespace Pgkyl
open Spec

namespace Space
variable {F : Type}

/-- From `s0` to `s`: lists only grow, by new objects, and the objects change only where `P` allows it. -/
structure Inner (P : Nat → GData F → Prop) (s0 s : Space F) : Prop where
  inv : s0.Inv → s.Inv
  tags : s0.keys <+: s.keys
  lists : ∀ t l, s0.lookup t = some l → ∃ l', s.lookup t = some (l ++ l') ∧ ∀ i ∈ l', s0.heap.length ≤ i
  news : ∀ t, s0.lookup t = none → ∀ l, s.lookup t = some l → ∀ i ∈ l, s0.heap.length ≤ i
  len : s0.heap.length ≤ s.heap.length
  objs : ∀ i d, s0.heap[i]? = some d → ∃ d', s.heap[i]? = some d' ∧ d'.tag = d.tag ∧ (¬ P i d → d' = d)

/-- The objects that are listed under a tag where a change is allowed. -/
def May (may : Tag → GData F → Prop) (s0 : Space F) (i : Nat) (d : GData F) : Prop :=
  ∃ t l, s0.lookup t = some l ∧ i ∈ l ∧ may t d

variable {P : Nat → GData F → Prop} {s0 s : Space F}

theorem Inner.refl (P : Nat → GData F → Prop) (s : Space F) : Inner P s s where
  inv := id
  tags := List.prefix_refl _
  lists := fun t l h => ⟨[], by simpa using h, by simp⟩
  news := fun t h l h' => by rw [h] at h'; cases h'
  len := le_refl _
  objs := fun i d h => ⟨d, h, rfl, fun _ => rfl⟩

theorem Inner.addNew (h : Inner P s0 s) (g : GData F) : Inner P s0 (s.addNew g) where
  inv := fun hi => (h.inv hi).addNew g
  tags := by
    rw [addNew_keys]
    split
    · exact h.tags
    · exact h.tags.trans (List.prefix_append _ _)
  lists := fun t l hl => by
    obtain ⟨l', e, hn⟩ := h.lists t l hl
    rw [addNew_lookup]
    split
    · refine ⟨l' ++ [s.heap.length], by rw [e]; simp, fun i hi => ?_⟩
      rcases List.mem_append.1 hi with hi | hi
      · exact hn i hi
      · rw [List.mem_singleton] at hi; rw [hi]; exact h.len
    · exact ⟨l', e, hn⟩
  news := fun t ht l hl i hi => by
    rw [addNew_lookup] at hl
    split at hl
    · cases hl
      rcases List.mem_append.1 hi with hi | hi
      · cases hs : s.lookup t with
        | none => rw [hs] at hi; cases hi
        | some l1 => rw [hs] at hi; exact h.news t ht l1 hs i hi
      · rw [List.mem_singleton] at hi; rw [hi]; exact h.len
    · exact h.news t ht l hl i hi
  len := by rw [addNew_heap, List.length_append]; exact h.len.trans (Nat.le_add_right _ _)
  objs := fun i d hd => by
    obtain ⟨d', e1, e2, e3⟩ := h.objs i d hd
    refine ⟨d', ?_, e2, e3⟩
    rw [addNew_heap, List.getElem?_append_left (List.getElem?_eq_some_iff.1 e1).1]; exact e1

theorem Inner.update (h : Inner P s0 s) {i : Nat} {f : GData F → GData F}
    (htag : ∀ d, s.heap[i]? = some d → (f d).tag = d.tag)
    (hP : ∀ d, s0.heap[i]? = some d → P i d ∨ (s.heap[i]? = some d → f d = d)) : Inner P s0 (s.update i f) where
  inv := fun hi => (h.inv hi).update i f
  tags := h.tags
  lists := h.lists
  news := h.news
  len := by simpa [Space.update] using h.len
  objs := fun j d hd => by
    obtain ⟨d', e1, e2, e3⟩ := h.objs j d hd
    rw [update_heap?]
    split
    · rename_i hij
      subst hij
      refine ⟨f d', by rw [e1]; rfl, (htag d' e1).trans e2, fun hn => ?_⟩
      have := e3 hn
      subst this
      rcases hP d' hd with hp | hp
      · exact absurd hp hn
      · exact hp e1
    · exact ⟨d', e1, e2, e3⟩

/-- An object listed in the later store is one of the old ones under the same tag, or new. -/
theorem Inner.listed (h : Inner P s0 s) {t : Tag} {l : List Nat} (hl : s.lookup t = some l) {i : Nat} (hi : i ∈ l)
    (hlt : i < s0.heap.length) : ∃ l0, s0.lookup t = some l0 ∧ i ∈ l0 := by
  cases h0 : s0.lookup t with
  | none => exact absurd (h.news t h0 l hl i hi) (by omega)
  | some l0 =>
    obtain ⟨l', e, hn⟩ := h.lists t l0 h0
    rw [hl] at e; cases e
    rcases List.mem_append.1 hi with hi | hi
    · exact ⟨l0, rfl, hi⟩
    · exact absurd (hn i hi) (by omega)

/-- `i` is listed under one of the named tags in `s`. -/
def ListedIn (N : Tag → Prop) (s : Space F) (i : Nat) : Prop := ∃ t l, N t ∧ s.lookup t = some l ∧ i ∈ l

variable {may : Tag → GData F → Prop} {N : Tag → Prop}

/-- An active object of a named tag may be changed. -/
theorem Inner.allowed {q r : Space F} (hq : Inner (May may s0) s0 q) (hr : Inner (May may s0) s0 r) {i : Nat}
    (hl : ListedIn N r i) (ha : q.active i = true) (hm : ∀ t d, N t → d.status = true → may t d) {d : GData F}
    (hd : s0.heap[i]? = some d) : May may s0 i d := by
  by_contra hn
  obtain ⟨d', e1, -, e3⟩ := hq.objs i d hd
  have := e3 hn
  subst this
  obtain ⟨t, l, ht, hl, hi⟩ := hl
  obtain ⟨l0, h0, hi0⟩ := hr.listed hl hi (List.getElem?_eq_some_iff.1 hd).1
  refine hn ⟨t, l0, h0, hi0, hm t d' ht ?_⟩
  simpa [active, e1] using ha

theorem Inner.updateActive (h : Inner (May may s0) s0 s) {q r : Space F} (hq : Inner (May may s0) s0 q)
    (hr : Inner (May may s0) s0 r) {i : Nat} (hl : ListedIn N r i) (ha : q.active i = true)
    (hm : ∀ t d, N t → d.status = true → may t d) {f : GData F → GData F}
    (htag : ∀ d, s.heap[i]? = some d → (f d).tag = d.tag) : Inner (May may s0) s0 (s.update i f) :=
  h.update htag fun _ hd => Or.inl (hq.allowed hr hl ha hm hd)

theorem deactivate_idle {d : GData F} (h : d.status = false) : d.deactivate = d := by
  cases d; simp_all [GData.deactivate]

/-- Deactivating an object of a named tag. -/
theorem Inner.deactivate (h : Inner (May may s0) s0 s) {r : Space F} (hr : Inner (May may s0) s0 r) {i : Nat}
    (hl : ListedIn N r i) (hm : ∀ t d, N t → d.status = true → may t d) :
    Inner (May may s0) s0 (s.update i GData.deactivate) :=
  h.update (fun _ _ => rfl) fun d hd => by
    cases hs : d.status with
    | false => exact Or.inr fun _ => deactivate_idle hs
    | true =>
      obtain ⟨t, l, ht, hl, hi⟩ := hl
      obtain ⟨l0, h0, hi0⟩ := hr.listed hl hi (List.getElem?_eq_some_iff.1 hd).1
      exact Or.inl ⟨t, l0, h0, hi0, hm t d ht hs⟩

/-! ### Loops -/

theorem foldlM_mem {α σ : Type} {f : σ → α → Except Err σ} {Q : σ → Prop} :
    ∀ {l : List α} {st st' : σ}, (∀ a ∈ l, ∀ st st', Q st → f st a = .ok st' → Q st') → Q st → l.foldlM f st = .ok st' → Q st'
  | [], st, st', _, hst, h => by
    simp only [List.foldlM_nil, pure, Except.pure, Except.ok.injEq] at h
    exact h ▸ hst
  | a :: l, st, st', hstep, hst, h => by
    rw [foldlM_ok_cons] at h
    cases hb : f st a with
    | error e => rw [hb] at h; cases h
    | ok st₁ =>
      rw [hb] at h
      exact foldlM_mem (fun b hb => hstep b (List.mem_cons_of_mem _ hb)) (hstep a List.mem_cons_self _ _ hst hb) h

theorem foldl_mem {α σ : Type} {f : σ → α → σ} {Q : σ → Prop} :
    ∀ {l : List α} {st : σ}, (∀ a ∈ l, ∀ st, Q st → Q (f st a)) → Q st → Q (l.foldl f st)
  | [], _, _, hst => hst
  | a :: l, st, hstep, hst =>
    foldl_mem (l := l) (fun b hb => hstep b (List.mem_cons_of_mem _ hb)) (hstep a List.mem_cons_self _ hst)

theorem named_of_tagsOf {use : Option Tag} {t : Tag} (h : t ∈ s.tagsOf use) : Named use t := by
  rintro u rfl hu
  simpa [tagsOf, hu] using h

/-- What holds of the body of a loop for every object it is called with holds of the loop. -/
theorem iterate_visits {σ : Type} (sp : σ → Space F) {Q : σ → Prop} {use : Option Tag} {enum oa : Bool} {sel : Sel}
    {body : σ → Nat → Nat → Except Err σ}
    (hstep : ∀ st r i id st', Q st → Q r → ListedIn (Named use) (sp r) id → (oa = true → (sp st).active id = true) →
      body st i id = .ok st' → Q st') {st st' : σ} (hst : Q st)
    (h : iterate sp use enum oa sel body st = .ok st') : Q st' := by
  unfold iterate at h
  split at h
  · cases h
  · split at h
    · cases h
    · rename_i ix _
      refine foldlM_mem (Q := Q) ?_ hst h
      intro t ht r st' hr hv
      unfold visitTag at hv
      split at hv
      · cases hv
      · rename_i l hl
        split at hv
        · cases hv
        · rename_i ps _
          refine foldlM_mem (Q := Q) ?_ hr hv
          rintro ⟨i, k⟩ hik st st' hQ hb
          simp only at hb
          have hi : i ∈ l := by
            obtain ⟨-, -, hm⟩ := List.mem_zipIdx hik
            have := (List.of_mem_zip (List.zipIdx_eq_zip_range' ▸ hik)).1
            obtain ⟨p, -, hp⟩ := List.mem_filterMap.1 this
            exact List.mem_of_getElem? hp
          split at hb
          · rename_i hc
            refine hstep st r k i st' hQ hr ⟨t, l, named_of_tagsOf ht, hl, hi⟩ ?_ hb
            intro ho
            simpa [ho] using hc
          · cases hb; exact hQ

/-- The objects that a loop visits. -/
theorem toList_isListed {use : Option Tag} {enum : Bool} {sel : Sel} {items : List (Nat × Nat)}
    (h : s.toList use enum true sel = .ok items) : ∀ e ∈ items, ListedIn (Named use) s e.2 ∧ s.active e.2 = true := by
  refine iterate_visits (σ := List (Nat × Nat)) (fun _ => s) (Q := fun acc => ∀ e ∈ acc, ListedIn (Named use) s e.2 ∧
    s.active e.2 = true) ?_ (by simp) h
  intro st r i id st' hst _ hl ha hb e he
  cases hb
  rcases List.mem_append.1 he with he | he
  · exact hst e he
  · rw [List.mem_singleton] at he; rw [he]; exact ⟨hl, ha rfl⟩

theorem Inner.deactivateAll (h : Inner (May may s0) s0 s) {use : Option Tag} {s' : Space F}
    (hm : ∀ t d, Named use t → d.status = true → may t d) (hs : s.deactivateAll use = .ok s') :
    Inner (May may s0) s0 s' := by
  refine iterate_visits id (Q := fun s => Inner (May may s0) s0 s) ?_ h hs
  intro st r i id st' hst hr hl _ hb
  cases hb
  exact hst.deactivate hr hl hm

/-- The result seen from outside. -/
theorem Inner.kept (h : Inner (May may s0) s0 s) (hi : s0.Inv) : Kept may s0 s where
  tags := h.tags
  datasets := fun t k d hd => by
    unfold dataset at hd
    cases hl : s0.lookup t with
    | none => simp [hl] at hd
    | some l =>
      rw [hl] at hd
      simp only [Option.bind_some] at hd
      cases hk : l[k]? with
      | none => simp [hk] at hd
      | some i =>
        rw [hk] at hd
        simp only [Option.bind_some] at hd
        obtain ⟨d', e1, e2, e3⟩ := h.objs i d hd
        obtain ⟨l', e4, -⟩ := h.lists t l hl
        refine ⟨d', ?_, e2, fun hn => e3 ?_⟩
        · unfold dataset
          have hlt := (List.getElem?_eq_some_iff.1 hk).1
          rw [e4, Option.bind_some, List.getElem?_append_left hlt, hk, Option.bind_some, e1]
        · rintro ⟨u, m, hu, him, hmay⟩
          have hmem : i ∈ l := List.mem_of_getElem? hk
          by_cases htu : t = u
          · subst htu; exact hn hmay
          · exact hi.disjoint hl hu htu hmem him

end Space
end Pgkyl
