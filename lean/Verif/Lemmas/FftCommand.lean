import Verif.Model.FftCommand
import Verif.Spec.FftCommand
import Verif.Lemmas.Growth
import Verif.Props.Spectral
import Verif.Lemmas.Collect
/-! # Lemmas: the `fft` command -/

namespace Pgkyl
open Spec

namespace Space
variable {F : Type}

/-- The body of a command that changes a dataset and adds others. -/
def changeBody (res : GData F → Except Err (GData F × List (GData F))) (s : Space F) (i : Nat) : Except Err (Space F) :=
  match s.heap[i]? with
  | none => .ok s
  | some d => (res d).map fun e => e.2.foldl addNew (s.update i fun _ => e.1)

theorem update_active' (s : Space F) {i : Nat} {d r : GData F} (hd : s.heap[i]? = some d) (hr : r.status = d.status) (j : Nat) :
    (s.update i fun _ => r).active j = s.active j := by
  simp only [active, update_heap?]
  by_cases h : i = j
  · subst h; rw [if_pos rfl, hd]; exact hr
  · rw [if_neg h]

theorem changeBody_ok {res : GData F → Except Err (GData F × List (GData F))}
    (hst : ∀ d e, res d = .ok e → e.1.status = d.status) {st st' : Space F} {i : Nat} (hb : changeBody res st i = .ok st') :
    st.heap.length ≤ st'.heap.length ∧ (∀ j < st.heap.length, st'.active j = st.active j) := by
  unfold changeBody at hb
  cases hd : st.heap[i]? with
  | none => simp only [hd] at hb; cases hb; exact ⟨le_refl _, fun _ _ => rfl⟩
  | some d =>
    simp only [hd] at hb
    cases hr : res d with
    | error e => rw [hr] at hb; cases hb
    | ok e =>
      rw [hr] at hb; cases hb
      have hheap := foldl_addNew_heap e.2 (st.update i fun _ => e.1)
      refine ⟨by rw [hheap]; simp, fun j hj => ?_⟩
      rw [active_append hheap (by simpa using hj), update_active' st hd (hst d e hr)]

theorem modify_left {α : Type} {a b : List α} {i : Nat} {f : α → α} (h : i < a.length) :
    (a ++ b).modify i f = a.modify i f ++ b := by
  refine List.ext_getElem? fun j => ?_
  rw [List.getElem?_modify]
  by_cases hj : j < a.length
  · rw [List.getElem?_append_left hj, List.getElem?_append_left (by simpa using hj), List.getElem?_modify]
  · rw [List.getElem?_append_right (by omega), List.getElem?_append_right (by simp; omega), List.length_modify]
    simp [show i ≠ j by omega]

theorem mapIdx_update {l : List (GData F)} {ids : List Nat} {after : Nat → GData F} {i : Nat} :
    (l.mapIdx fun j d => if j ∈ ids then after j else d).modify i (fun _ => after i) =
      l.mapIdx fun j d => if j ∈ i :: ids then after j else d := by
  refine List.ext_getElem? fun j => ?_
  rw [List.getElem?_modify, List.getElem?_mapIdx, List.getElem?_mapIdx]
  cases l[j]? with
  | none => rfl
  | some d =>
    by_cases h : i = j
    · subst h; simp
    · have : (j ∈ i :: ids) ↔ j ∈ ids := by simp [Ne.symm h]
      simp only [h, this, Option.map_some, if_false]
      rfl

/-- A command that changes every visited dataset and adds others. -/
theorem iterate_changes {s : Space F} (hi : s.Inv) {use : Option Tag} (hkeys : ∀ t ∈ s.tagsOf use, t ∈ s.dict.map Prod.fst)
    (hnd : (s.tagsOf use).Nodup) (res : GData F → Except Err (GData F × List (GData F))) (after : Nat → GData F)
    (news : Nat → List (GData F)) (hst : ∀ d e, res d = .ok e → e.1.status = d.status)
    (htag : ∀ d e, res d = .ok e → ∀ r ∈ e.2, r.tag ∉ (s.tagsOf use).tail)
    (hok : ∀ i ∈ visited s (s.tagsOf use), ∀ d, s.heap[i]? = some d → res d = .ok (after i, news i)) :
    ∃ s', iterate id use false true .none (fun s _ i => changeBody res s i) s = .ok s' ∧
      ChangesAndAdds s (visited s (s.tagsOf use)) after news s' := by
  obtain ⟨l, hl, hv⟩ := toList_visited' hkeys
  rw [iterate_ok (σ := Space F) id use false true .none _ s hi
    (fun s' => (s.heap.length ≤ s'.heap.length ∧ ∀ j < s.heap.length, s'.active j = s.active j) ∧
      ∀ t ∈ (s.tagsOf use).tail, s'.lookup t = s.lookup t)
    ⟨⟨le_refl _, fun _ _ => rfl⟩, fun _ _ => rfl⟩ ?_ (by rintro - st' ⟨⟨_, h⟩, _⟩ i hi; exact h i hi)
    (by rintro st' ⟨_, hlk⟩ t ht; exact hlk t ht) hl]
  · have e : (l.foldlM (fun st e => changeBody res st e.2) s : Except Err _) =
        (visited s (s.tagsOf use)).foldlM (changeBody res) s := by rw [← hv, List.foldlM_map]
    rw [e]
    have hget : ∀ i ∈ visited s (s.tagsOf use), ∃ d, s.heap[i]? = some d :=
      fun i hi' => (visited_get hi hi').imp fun d h => h.1
    have hndv := visited_nodup hi hnd
    generalize visited s (s.tagsOf use) = ids at hok hget hndv
    clear hv e hl
    suffices h : ∀ (ids done : List Nat) (st : Space F), (∀ i ∈ ids, res ((s.heap[i]?).getD {}) = .ok (after i, news i)) →
        (∀ i ∈ ids, ∃ d, s.heap[i]? = some d) → ids.Nodup → (∀ i ∈ ids, i ∉ done) →
        ChangesAndAdds s done after news st →
        ∃ st', ids.foldlM (changeBody res) st = .ok st' ∧ ChangesAndAdds s (done ++ ids) after news st' by
      refine (h ids [] s (fun i hi' => ?_) hget hndv (by simp)
        ⟨by simp [List.ext_getElem?_iff, List.getElem?_mapIdx], by simp⟩).imp fun st' h => by simpa using h
      obtain ⟨d, hd⟩ := hget i hi'
      rw [hd]; exact hok i hi' d hd
    intro ids
    induction ids with
    | nil => intro done st _ _ _ _ h; exact ⟨st, rfl, by simpa using h⟩
    | cons i ids ih =>
      rintro done st h1 h2 h3 h4 ⟨h5, h6⟩
      obtain ⟨d, hd⟩ := h2 i (by simp)
      have hil := (List.getElem?_eq_some_iff.1 hd).1
      have hres := h1 i (by simp)
      rw [hd] at hres
      have hsti : st.heap[i]? = some d := by
        rw [h5, List.getElem?_append_left (by simpa using hil), List.getElem?_mapIdx, hd]
        simp [h4 i (by simp)]
      have hbody : changeBody res st i = .ok ((news i).foldl addNew (st.update i fun _ => after i)) := by
        unfold changeBody
        simp only [hsti]
        simp only [Option.getD_some] at hres
        rw [hres]; rfl
      rw [foldlM_ok_cons, hbody]
      have hlen : st.heap.length = s.heap.length + (done.flatMap news).length := by rw [h5]; simp
      obtain ⟨st', hst', hch⟩ := ih (done ++ [i]) ((news i).foldl addNew (st.update i fun _ => after i))
        (fun j hj => h1 j (by simp [hj])) (fun j hj => h2 j (by simp [hj])) (List.nodup_cons.1 h3).2
        (by
          intro j hj
          have := h4 j (by simp [hj])
          have hne : j ≠ i := by rintro rfl; exact (List.nodup_cons.1 h3).1 hj
          simp [this, hne])
        ⟨by
          rw [foldl_addNew_heap]
          have hu : (st.update i fun _ => after i).heap =
              (s.heap.mapIdx fun j d => if j ∈ done ++ [i] then after j else d) ++ done.flatMap news := by
            show st.heap.modify i _ = _
            rw [h5, modify_left (by simpa using hil), mapIdx_update]
            congr 2
            funext j d
            simp [or_comm]
          rw [hu]
          simp, by
          intro t
          rw [foldl_addNew_lists, update_lookup, h6 t, update_length, hlen]
          simp [List.zipIdx_append]⟩
      refine ⟨st', hst', by simpa using hch⟩
  · rintro st i id st' ⟨⟨h1, h2⟩, hlk⟩ hb
    obtain ⟨h3, h4⟩ := changeBody_ok hst hb
    refine ⟨⟨h1.trans h3, fun j hj => by rw [h4 j (by omega), h2 j hj]⟩, fun t ht => ?_⟩
    unfold changeBody at hb
    cases hd : st.heap[id]? with
    | none => simp only [hd] at hb; cases hb; exact hlk t ht
    | some d =>
      simp only [hd] at hb
      cases hr : res d with
      | error e => rw [hr] at hb; cases hb
      | ok e =>
        rw [hr] at hb
        cases hb
        rw [foldl_addNew_other e.2, update_lookup, hlk t ht]
        intro r hrr he
        exact htag d e hr r hrr (he ▸ ht)

end Space
end Pgkyl
