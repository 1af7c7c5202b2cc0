import Verif.Lemmas.StoreProps
import Verif.Lemmas.Py
import Verif.Spec.Val2coord
import Verif.Spec.DataSpace
/-!
# The tags with active datasets
-/

namespace Pgkyl

theorem filterAuxM_ok {α : Type} {f : α → Except Err Bool} {p : α → Bool} : ∀ (l acc : List α),
    (∀ a ∈ l, f a = .ok (p a)) → List.filterAuxM f l acc = .ok ((l.filter p).reverse ++ acc) := by
  intro l
  induction l with
  | nil => intro acc _; rfl
  | cons a l ih =>
    intro acc h
    simp only [List.filterAuxM, h a (by simp), bind, Except.bind]
    rw [ih _ (fun b hb => h b (by simp [hb]))]
    cases hp : p a <;> simp [hp]

theorem filterM_ok {α : Type} {f : α → Except Err Bool} {p : α → Bool} {l : List α}
    (h : ∀ a ∈ l, f a = .ok (p a)) : l.filterM f = .ok (l.filter p) := by
  simp only [List.filterM, bind, Except.bind, filterAuxM_ok l [] h, pure, Except.pure, List.append_nil,
    List.reverse_reverse]

namespace Space
open Spec
variable {F : Type}

theorem tagIterator_active {s : Space F} (hc : ∀ t ∈ s.keys, t ≠ [] ∧ ',' ∉ t) :
    s.tagIterator none true = .ok (activeTags s) := by
  simp only [Space.tagIterator, if_true]
  refine filterM_ok fun t ht => ?_
  have ht' : t ∈ s.keys := ht
  obtain ⟨h0, hcm⟩ := hc t ht'
  have htags : s.tagsOf (some t) = [t] := by
    simp only [Space.tagsOf, if_neg h0, splitOn_notMem hcm]
  cases hl : s.lookup t with
  | none => exact absurd ht' ((Space.lookup_eq_none_iff _ _).1 hl)
  | some l =>
    rw [Space.toList_none (ls := fun _ => l) (by rw [htags]; intro u hu; rw [List.mem_singleton.1 hu, hl])]
    simp only [htags, List.flatMap_cons, List.flatMap_nil, List.append_nil, Option.getD_some]
    congr 1
    unfold visit
    rw [Bool.eq_iff_iff]
    simp only [Bool.not_true, Bool.false_or, Bool.not_eq_true', List.isEmpty_eq_false_iff, ne_eq, List.map_eq_nil_iff,
      List.filter_eq_nil_iff, not_forall, List.any_eq_true, not_not]
    constructor
    · rintro ⟨e, he, ha⟩; exact ⟨e.1, List.fst_mem_of_mem_zipIdx he, by simpa using ha⟩
    · rintro ⟨i, hi, ha⟩
      obtain ⟨k, hk⟩ := List.mem_iff_getElem?.1 hi
      exact ⟨(i, k), (List.mem_zipIdx_iff_getElem?.2 hk), by simpa using ha⟩

end Space
end Pgkyl
