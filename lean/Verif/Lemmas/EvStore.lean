import Verif.Lemmas.EvRun
/-! # Storing the results of `ev` -/

namespace Pgkyl
namespace Ev
open Spec

section
variable {F : Type} [Min F] [Max F]

omit [Min F] [Max F] in
theorem setValues_keeps {d d' : GData F} {v : NArr F} (h : d.setValues v = .ok d') :
    d'.tag = d.tag ∧ d'.status = d.status := by
  unfold GData.setValues at h
  split at h
  · cases h
  · simp only [Except.ok.injEq] at h
    subst h; exact ⟨rfl, rfl⟩

theorem setGrid_keeps {d d' : GData F} {g : List (NArr F)} (h : d.setGrid g = .ok d') :
    d'.tag = d.tag ∧ d'.status = d.status := by
  simp only [GData.setGrid, bind, Except.bind] at h
  split at h
  · cases h
  · split at h
    · cases h
    · simp only [pure, Except.pure, Except.ok.injEq] at h
      subst h; exact ⟨rfl, rfl⟩

theorem pushItem_keeps {d d' : GData F} {i : Item F} (h : pushItem d i = .ok d') :
    d'.tag = d.tag ∧ d'.status = d.status := by
  unfold pushItem at h
  split at h
  · split at h
    · simp only [GData.push, bind, Except.bind] at h
      split at h
      · cases h
      · rename_i d1 hd1
        have h1 := setValues_keeps hd1
        have h2 := setGrid_keeps h
        exact ⟨h2.1.trans h1.1, h2.2.trans h1.2⟩
    · simp only [bind, Except.bind] at h
      split at h
      · cases h
      · rename_i d1 hd1
        have h1 := setValues_keeps hd1
        split at h
        · simp only [pure, Except.pure, Except.ok.injEq] at h
          subst h; exact h1
        · cases h
  · cases h

/-- Adding results never touches what is there. -/
theorem foldlM_addStep {T lab : List Char} : ∀ (top : List (Item F)) {s s' : Space F},
    top.foldlM (addStep T lab) s = .ok s' →
    ∃ new, s'.heap = s.heap ++ new ∧ new.length = top.length ∧
      (∀ (k : Nat) (i : Item F), top[k]? = some i → ∃ d, new[k]? = some d ∧ pushItem (GData.new T lab i.ctx) i = .ok d) ∧
      (∀ t, t ≠ T → s'.lookup t = s.lookup t) ∧
      (s'.lookup T).getD [] = (s.lookup T).getD [] ++ List.range' s.heap.length top.length
  | [], s, s', h => by
    simp only [List.foldlM_nil, pure, Except.pure, Except.ok.injEq] at h
    subst h
    exact ⟨[], by simp, rfl, by simp, fun _ _ => rfl, by simp⟩
  | i :: top, s, s', h => by
    rw [Space.foldlM_ok_cons] at h
    cases hp : pushItem (GData.new T lab i.ctx) i with
    | error e => simp [addStep, hp, bind, Except.bind] at h
    | ok d =>
      have ht : d.tag = T := (pushItem_keeps hp).1
      have hadd : addStep T lab s i = .ok (s.addNew d) := by
        simp only [addStep, hp, bind, Except.bind, pure, Except.pure]
      rw [hadd] at h
      obtain ⟨new, h1, h2, h3, h4, h5⟩ := foldlM_addStep top h
      refine ⟨d :: new, ?_, by simp [h2], ?_, ?_, ?_⟩
      · rw [h1, Space.addNew_heap]; simp
      · intro k j hj
        cases k with
        | zero =>
          simp only [List.getElem?_cons_zero, Option.some.injEq] at hj
          subst hj; exact ⟨d, rfl, hp⟩
        | succ k => exact h3 k j (by simpa using hj)
      · intro t htne
        rw [h4 t htne, Space.addNew_lookup, if_neg (by rw [ht]; exact fun h => htne h.symm)]
      · rw [h5, Space.addNew_lookup, if_pos ht, Space.addNew_heap]
        simp [List.range'_succ]

/-- Adding succeeds when every result can be pushed. -/
theorem foldlM_addStep_ok {T lab : List Char} : ∀ (top : List (Item F)) (s : Space F),
    (∀ i ∈ top, ∃ d, pushItem (GData.new T lab i.ctx) i = .ok d) →
    ∃ s', top.foldlM (addStep T lab) s = .ok s'
  | [], s, _ => ⟨s, rfl⟩
  | i :: top, s, h => by
    obtain ⟨d, hd⟩ := h i (by simp)
    obtain ⟨s', hs'⟩ := foldlM_addStep_ok top (s.addNew d) fun j hj => h j (by simp [hj])
    refine ⟨s', ?_⟩
    rw [Space.foldlM_ok_cons]
    simp only [addStep, hd, bind, Except.bind, pure, Except.pure]
    exact hs'

/-- What is pushed for a denoted item. -/
theorem pushItem_den {sh : List Nat} {i : Item F} {g : List Nat → Option F} (h : Den sh i true g) (d : GData F) :
    ∃ d' a, pushItem d i = .ok d' ∧ d'.values = some a ∧ a.WF ∧ a.shape = sh ∧
      (∀ idx, inRange sh idx = true → a.get? idx = g idx) ∧ d'.tag = d.tag ∧ d'.status = d.status ∧
      d'.customLabel = d.customLabel := by
  obtain ⟨a, ha, ht, -⟩ := h
  obtain ⟨h1, h2, h3, gr, hgr, hgl, ⟨l, hl⟩, ⟨u, hu⟩⟩ := ht rfl
  have hne : sh ≠ [] := by intro e; rw [e] at hgl; simp at hgl
  obtain ⟨nc, hnc⟩ : ∃ nc, a.shape.getLast? = some nc := by
    rw [h1]; exact ⟨_, List.getLast?_eq_some_getLast hne⟩
  have hp := GData.push_ok (d := d) hnc (by rw [h1]; exact hl) (by rw [h1]; exact hu)
  have hpi : pushItem d i = d.push gr a := by simp only [pushItem, ha, hgr]
  rw [hpi, hp]
  exact ⟨_, a, rfl, rfl, h2, h1, h3, rfl, rfl, rfl⟩

/-- Replacing the datasets with names `ids` by the results `top`, position by position. -/
theorem foldlM_replace {top : List (Item F)} : ∀ (l : List (Nat × Nat)) (s : Space F) (c : Nat),
    (l.map Prod.snd).Nodup →
    (∀ (k : Nat) (e : Nat × Nat), l[k]? = some e → ∃ i d d', top[c + k]? = some i ∧ s.heap[e.2]? = some d ∧
      pushItem d i = .ok d') →
    ∃ s', l.foldlM (fun sc e => replaceStep top sc e.2) (s, c) = .ok (s', c + l.length) ∧ s'.dict = s.dict ∧
      s'.heap.length = s.heap.length ∧
      (∀ (k : Nat) (e : Nat × Nat), l[k]? = some e → ∀ i d d', top[c + k]? = some i → s.heap[e.2]? = some d →
        pushItem d i = .ok d' → s'.heap[e.2]? = some d') ∧
      ∀ j, j ∉ l.map Prod.snd → s'.heap[j]? = s.heap[j]?
  | [], s, c, _, _ => ⟨s, rfl, rfl, rfl, by simp, by simp⟩
  | e :: l, s, c, hnd, hex => by
    rw [List.map_cons, List.nodup_cons] at hnd
    obtain ⟨i, d, d', q1, q2, q3⟩ := hex 0 e rfl
    have hne : ∀ e' ∈ l, e.2 ≠ e'.2 := fun e' he' h =>
      hnd.1 (h ▸ List.mem_map.2 ⟨e', he', rfl⟩)
    have hsame : ∀ e' ∈ l, (s.update e.2 fun _ => d').heap[e'.2]? = s.heap[e'.2]? := fun e' he' => by
      rw [Space.update_heap?, if_neg (hne e' he')]
    have hb : replaceStep top (s, c) e.2 = .ok (s.update e.2 fun _ => d', c + 1) := by
      simp only [Nat.add_zero] at q1
      simp only [replaceStep, q1, q2, q3]
    obtain ⟨s', g1, g2, g3, g4, g5⟩ := foldlM_replace l (s.update e.2 fun _ => d') (c + 1) hnd.2
      (fun k e' hk => by
        obtain ⟨i', b, b', r1, r2, r3⟩ := hex (k + 1) e' (by simpa using hk)
        exact ⟨i', b, b', by rw [← r1]; congr 1; omega, by rw [hsame e' (List.mem_of_getElem? hk)]; exact r2, r3⟩)
    refine ⟨s', ?_, by rw [g2]; rfl, by rw [g3]; simp, ?_, ?_⟩
    · rw [Space.foldlM_ok_cons, hb]
      simp only [g1, List.length_cons]
      rw [show c + 1 + l.length = c + (l.length + 1) by omega]
    · intro k e' hk i' b b' r1 r2 r3
      cases k with
      | zero =>
        simp only [List.getElem?_cons_zero, Option.some.injEq] at hk
        subst hk
        rw [g5 _ hnd.1, Space.update_heap?, if_pos rfl, q2]
        rw [q2] at r2; cases r2
        rw [q1] at r1; cases r1
        rw [q3] at r3; cases r3
        rfl
      | succ k =>
        have hk' : l[k]? = some e' := by simpa using hk
        exact g4 k e' hk' i' b b' (by rw [← r1]; congr 1; omega)
          (by rw [hsame e' (List.mem_of_getElem? hk')]; exact r2) r3
    · intro j hj
      rw [List.map_cons, List.mem_cons, not_or] at hj
      rw [g5 j hj.2, Space.update_heap?, if_neg (fun h => hj.1 h.symm)]

end
end Ev
end Pgkyl
