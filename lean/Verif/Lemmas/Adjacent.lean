import Verif.Lemmas.InterpIntegral
import Verif.Lemmas.SelectCommands
import Verif.Props.Integrate
/-! # Lemmas for C137: sums over adjacent parts -/

namespace Pgkyl
open Spec Integ

theorem sum_filter_map {α β : Type} [AddCommMonoid β] (p : α → Bool) (f : α → β) (l : List α) :
    ((l.filter p).map f).sum = (l.map fun x => if p x then f x else 0).sum := by
  induction l with
  | nil => rfl
  | cons a l ih => by_cases h : p a = true <;> simp [h, ih]

/-- A sum over all positions splits along an axis. -/
theorem sum_indices_split {β : Type} [AddCommMonoid β] (p q : Nat) : ∀ (sh : List Nat) (i : Nat) (f : List Nat → β),
    sh[i]? = some (p + q) →
    ((indices sh).map f).sum = ((indices (sh.set i p)).map f).sum +
      ((indices (sh.set i q)).map fun j => f (j.modify i (p + ·))).sum
  | [], i, f, h => by simp at h
  | n :: ns, 0, f, h => by
    obtain rfl : n = p + q := by simpa using h
    rw [List.set_cons_zero, List.set_cons_zero, Dg.sum_indices_cons, Dg.sum_indices_cons, Dg.sum_indices_cons,
      List.range_add, List.map_append, List.sum_append, List.map_map]
    rfl
  | n :: ns, i + 1, f, h => by
    rw [List.set_cons_succ, List.set_cons_succ, Dg.sum_indices_cons, Dg.sum_indices_cons, Dg.sum_indices_cons,
      ← List.sum_map_add]
    congr 1
    refine List.map_congr_left fun k _ => ?_
    rw [sum_indices_split p q ns i (fun j => f (k :: j)) (by simpa using h)]
    rfl

section
variable {F : Type} [_root_.Field F]

/-- The sum of C30 splits along an axis which is summed over. -/
theorem cellSum_split {sh : List Nat} {i p q : Nat} (hi : sh[i]? = some (p + q)) {A : List Nat} (hA : i ∈ A)
    (hlt : ∀ a ∈ A, a < sh.length)
    {v v1 v2 : List Nat → F} {w w1 w2 : Nat → Nat → F}
    (hv1 : ∀ j, inRange (sh.set i p) j = true → v j = v1 j)
    (hv2 : ∀ j, inRange (sh.set i q) j = true → v (j.modify i (p + ·)) = v2 j)
    (hw1 : ∀ a ∈ A, a ≠ i → ∀ k n, sh[a]? = some n → k < n → w a k = w1 a k ∧ w a k = w2 a k)
    (hwi : ∀ k < p, w i k = w1 i k) (hwq : ∀ k < q, w i (p + k) = w2 i k) (idx : List Nat) :
    cellSum sh v w A idx = cellSum (sh.set i p) v1 w1 A idx + cellSum (sh.set i q) v2 w2 A idx := by
  have hil : i < sh.length := (List.getElem?_eq_some_iff.1 hi).1
  unfold cellSum
  rw [sum_filter_map, sum_filter_map, sum_filter_map, sum_indices_split p q sh i _ hi]
  congr 2
  · refine List.map_congr_left fun j hj => ?_
    have hj := mem_indices.1 hj
    have hjl := inRange_length hj
    rw [List.length_set] at hjl ⊢
    refine if_congr Iff.rfl ?_ rfl
    rw [hv1 j hj]
    congr 2
    refine List.map_congr_left fun a ha => ?_
    have hal := hlt a ha
    have hb : j.getD a 0 < (sh.set i p).getD a 0 := by
      rw [List.getD_eq_getElem?_getD, List.getD_eq_getElem?_getD, List.getElem?_eq_getElem (by omega),
        List.getElem?_eq_getElem (by rw [List.length_set]; omega)]
      exact (inRange_get.1 hj).2 a _ _ (List.getElem?_eq_getElem (by omega)) (List.getElem?_eq_getElem _)
    by_cases e : a = i
    · subst e
      rw [hwi _ (by simpa [List.getD_eq_getElem?_getD, hil] using hb)]
    · refine (hw1 a ha e _ (sh[a]'hal) (List.getElem?_eq_getElem hal) ?_).1
      rwa [List.getD_eq_getElem?_getD (l := sh.set i _), List.getElem?_set_ne (Ne.symm e), List.getElem?_eq_getElem hal] at hb
  · refine List.map_congr_left fun j hj => ?_
    have hj := mem_indices.1 hj
    have hjl := inRange_length hj
    rw [List.length_set] at hjl ⊢
    have hget : ∀ d, d ≠ i → (j.modify i (p + ·))[d]? = j[d]? := fun d hd => by
      rw [List.getElem?_modify]; simp [Ne.symm hd]
    refine if_congr ?_ ?_ rfl
    · simp only [decide_eq_true_eq]
      refine forall_congr' fun d => imp_congr_right fun _ => imp_congr_right fun hd => ?_
      rw [hget d (fun e => hd (e ▸ hA))]
    · rw [hv2 j hj]
      congr 2
      refine List.map_congr_left fun a ha => ?_
      have hal := hlt a ha
      have hb : j.getD a 0 < (sh.set i q).getD a 0 := by
        rw [List.getD_eq_getElem?_getD, List.getD_eq_getElem?_getD, List.getElem?_eq_getElem (by omega),
          List.getElem?_eq_getElem (by rw [List.length_set]; omega)]
        exact (inRange_get.1 hj).2 a _ _ (List.getElem?_eq_getElem (by omega)) (List.getElem?_eq_getElem _)
      by_cases e : a = i
      · subst e
        have hb' : j.getD a 0 < q := by simpa [List.getD_eq_getElem?_getD, hil] using hb
        have : (j.modify a (p + ·)).getD a 0 = p + j.getD a 0 := by
          rw [List.getD_eq_getElem?_getD, List.getD_eq_getElem?_getD, List.getElem?_modify,
            List.getElem?_eq_getElem (by omega)]
          simp
        rw [this, hwq _ hb']
      · rw [List.getD_eq_getElem?_getD, hget a e, ← List.getD_eq_getElem?_getD]
        refine (hw1 a ha e _ (sh[a]'hal) (List.getElem?_eq_getElem hal) ?_).2
        rwa [List.getD_eq_getElem?_getD (l := sh.set i _), List.getElem?_set_ne (Ne.symm e), List.getElem?_eq_getElem hal] at hb

end
end Pgkyl
