import Verif.Lemmas.IntegrateCore
/-! # More lemmas on integration: constants, successive integration -/

namespace Pgkyl
open Spec EvCmd Integ

section
variable {F : Type} [_root_.Field F]

theorem sum_telescope (f : Nat → F) (n : Nat) : ((List.range n).map fun i => f (i + 1) - f i).sum = f n - f 0 := by
  induction n with
  | zero => simp
  | succ n ih => rw [List.range_succ, List.map_append, List.sum_append, ih]; simp

/-- The widths add up to the covered length. -/
theorem width_sum {x : List F} {n : Nat} (h : Fits x n) :
    ((List.range n).map (width x n)).sum = covered x n := by
  unfold covered
  rcases h with h | ⟨h, h2⟩
  · rw [if_neg (by omega), ← sum_telescope (fun i => x.getD i 0)]
    congr 1
    refine List.map_congr_left fun i _ => ?_
    rw [width, if_neg (by omega)]
  · obtain ⟨m, rfl⟩ : ∃ m, n = m + 2 := ⟨n - 2, by omega⟩
    rw [if_pos h, List.range_succ, List.map_append, List.sum_append]
    simp only [List.map_cons, List.map_nil, List.sum_cons, List.sum_nil, add_zero]
    rw [width, if_pos ⟨h, by omega⟩]
    congr 1
    rw [show m + 2 - 1 = m + 1 by omega, ← sum_telescope (fun i => x.getD i 0)]
    congr 1
    refine List.map_congr_left fun i hi => ?_
    have := List.mem_range.1 hi
    rw [width, if_neg (by omega)]

theorem prod_perm_map {A B : List Nat} (h : A.Perm B) (f : Nat → F) : (A.map f).prod = (B.map f).prod :=
  (h.map f).prod_eq

/-- A constant integrates to the constant times the product of the covered lengths. -/
theorem cellSum_const_covered {axes : List (List F)} {shape : List Nat} {A : List Nat} (hA : A.Nodup)
    (hfit : FitsAll axes shape) (hlt : ∀ a ∈ A, a < axes.length) {idx : List Nat}
    (hidx : inRange (collapsed A shape) idx = true) (c : F) :
    cellSum shape (fun _ => c) (gridWidth axes shape) A idx =
      c * (A.map fun a => covered (axes.getD a []) (shape.getD a 0)).prod := by
  have hp : (sortDesc A).Perm A := List.mergeSort_perm A _
  have hl := inRange_length hidx
  rw [collapsed_length] at hl
  have h1 := hfit.1
  rw [← cellSum_perm hp, cellSum_const c _ (sortDesc A) shape idx (sortDesc_pairwise hA)
    (fun a ha => by have := hlt a (sortDesc_mem.1 ha); omega) hl ?_]
  · rw [prod_perm_map hp]
    congr 2
    refine List.map_congr_left fun a ha => ?_
    have hal := hlt a ha
    have h2 : a < shape.length := by omega
    have e1 : axes[a]? = some axes[a] := List.getElem?_eq_getElem hal
    have e2 : shape[a]? = some shape[a] := List.getElem?_eq_getElem h2
    have e3 : axes.getD a [] = axes[a] := by rw [List.getD_eq_getElem?_getD, e1]; rfl
    have e4 : shape.getD a 0 = shape[a] := by rw [List.getD_eq_getElem?_getD, e2]; rfl
    unfold gridWidth
    rw [e3, e4]
    exact width_sum (hfit.2 a _ _ e1 e2)
  · intro d hd i n hi hn
    have hd' : d ∉ A := fun h => hd (sortDesc_mem.2 h)
    refine (inRange_get.1 hidx).2 d i n hi ?_
    rw [collapsed_get, hn]
    simp [hd']

theorem foldr_div_cancel (L : Nat → F) (c : F) : ∀ (D : List Nat), (∀ a ∈ D, L a ≠ 0) →
    D.foldr (fun a y => y / L a) (c * (D.map L).prod) = c := by
  have key : ∀ (D : List Nat) (y : F), D.foldr (fun a y => y / L a) y = y / (D.map L).prod := by
    intro D
    induction D with
    | nil => simp
    | cons a D ih =>
      intro y
      rw [List.foldr_cons, ih, List.map_cons, List.prod_cons, div_div, mul_comm]
  intro D hD
  rw [key, mul_div_assoc, div_self, mul_one]
  rw [Ne, List.prod_eq_zero_iff]
  intro h
  obtain ⟨a, ha, h0⟩ := List.mem_map.1 h
  exact hD a ha h0

/-! ### Successive integration -/

theorem sum_comm_list {α β : Type} (l : List α) (m : List β) (f : α → β → F) :
    (l.map fun a => (m.map fun b => f a b).sum).sum = (m.map fun b => (l.map fun a => f a b).sum).sum := by
  induction l with
  | nil => simp
  | cons a l ih => simp [ih, List.sum_map_add]

/-- The entries in `A` set to zero. -/
def zeroed (A : List Nat) (i : List Nat) : List Nat := i.mapIdx fun d k => if d ∈ A then 0 else k

theorem zeroed_get (A i : List Nat) (d : Nat) : (zeroed A i)[d]? = i[d]?.map fun k => if d ∈ A then 0 else k := by
  simp [zeroed]

theorem zeroed_inRange {A shape i : List Nat} (h : inRange shape i = true) :
    inRange (collapsed A shape) (zeroed A i) = true := by
  have hh := inRange_get.1 h
  refine inRange_get.2 ⟨by rw [collapsed_length]; simp [zeroed, hh.1], fun d k n hk hn => ?_⟩
  rw [zeroed_get] at hk
  rw [collapsed_get] at hn
  obtain ⟨k', hk', rfl⟩ := Option.map_eq_some_iff.1 hk
  obtain ⟨n', hn', rfl⟩ := Option.map_eq_some_iff.1 hn
  have := hh.2 d k' n' hk' hn'
  by_cases hd : d ∈ A <;> simp only [hd, if_true, if_false] <;> omega

theorem cellSum_compose {A B shape : List Nat} (hAB : ∀ a ∈ A, a ∉ B) (hB : ∀ b ∈ B, b < shape.length)
    (v : List Nat → F) (w w' : Nat → Nat → F) (hw : ∀ b ∈ B, ∀ i, w' b i = w b i) {idx : List Nat}
    (hidx : inRange (collapsed (A ++ B) shape) idx = true) :
    cellSum (collapsed A shape) (fun j => cellSum shape v w A j) w' B idx = cellSum shape v w (A ++ B) idx := by
  have hidx' := inRange_get.1 hidx
  rw [collapsed_length] at hidx'
  have key : ∀ i, inRange shape i = true →
      (((indices (collapsed A shape)).filter fun j =>
          decide (∀ d < (collapsed A shape).length, d ∉ B → j[d]? = idx[d]?)).map fun j =>
        (if decide (∀ d < shape.length, d ∉ A → i[d]? = j[d]?) then v i * (A.map fun a => w a (i.getD a 0)).prod else 0) *
          (B.map fun b => w' b (j.getD b 0)).prod).sum =
      if decide (∀ d < shape.length, d ∉ A ++ B → i[d]? = idx[d]?) then
        v i * ((A ++ B).map fun a => w a (i.getD a 0)).prod else 0 := by
    intro i hi
    have hil := inRange_length hi
    rw [sum_filter_map]
    have hz : ∀ j ∈ indices (collapsed A shape),
        (if decide (∀ d < (collapsed A shape).length, d ∉ B → j[d]? = idx[d]?) = true then
          (if decide (∀ d < shape.length, d ∉ A → i[d]? = j[d]?) = true then
            v i * (A.map fun a => w a (i.getD a 0)).prod else 0) * (B.map fun b => w' b (j.getD b 0)).prod else 0) =
        if (j == zeroed A i) = true then
          (if decide (∀ d < shape.length, d ∉ A ++ B → i[d]? = idx[d]?) = true then
            v i * ((A ++ B).map fun a => w a (i.getD a 0)).prod else 0) else 0 := by
      intro j hj
      have hjr := mem_indices.1 hj
      have hjl := inRange_length hjr
      rw [collapsed_length] at hjl
      by_cases he : j = zeroed A i
      · subst he
        rw [if_pos (show (zeroed A i == zeroed A i) = true by simp)]
        have h2 : (∀ d < shape.length, d ∉ A → i[d]? = (zeroed A i)[d]?) := by
          intro d _ hd
          rw [zeroed_get]
          cases i[d]? <;> simp [hd]
        have h3 : (∀ d < (collapsed A shape).length, d ∉ B → (zeroed A i)[d]? = idx[d]?) ↔
            (∀ d < shape.length, d ∉ A ++ B → i[d]? = idx[d]?) := by
          rw [collapsed_length]
          refine forall_congr' fun d => forall_congr' fun hd => ?_
          have e1 : i[d]? = some (i[d]'(by omega)) := List.getElem?_eq_getElem (by omega)
          have e2 : idx[d]? = some (idx[d]'(by omega)) := List.getElem?_eq_getElem (by omega)
          have e3 : shape[d]? = some shape[d] := List.getElem?_eq_getElem hd
          by_cases hA : d ∈ A
          · have h0 : idx[d]'(by omega) = 0 := by
              have := hidx'.2 d _ 1 e2 (by rw [collapsed_get, e3]; simp [hA])
              omega
            constructor
            · intro _ h; simp [hA] at h
            · intro _ _
              rw [zeroed_get, e1, e2]
              simp [hA, h0]
          · rw [zeroed_get, e1]
            simp [hA]
        simp only [h3, decide_eq_true_eq, if_pos h2]
        by_cases hc : ∀ d < shape.length, d ∉ A ++ B → i[d]? = idx[d]?
        · rw [if_pos hc, if_pos hc, List.map_append, List.prod_append, mul_assoc]
          congr 3
          refine List.map_congr_left fun b hb => ?_
          rw [hw b hb]
          have hbl := hB b hb
          rw [List.getD_eq_getElem?_getD, List.getD_eq_getElem?_getD, zeroed_get,
            List.getElem?_eq_getElem (show b < i.length by omega)]
          have : b ∉ A := fun h => hAB b h hb
          simp [this]
        · rw [if_neg hc, if_neg hc]
      · rw [if_neg (show ¬ (j == zeroed A i) = true by simpa using he)]
        have h2 : ¬ (∀ d < shape.length, d ∉ A → i[d]? = j[d]?) := by
          intro h
          apply he
          refine List.ext_getElem? fun d => ?_
          rw [zeroed_get]
          by_cases hd : d < shape.length
          · have e1 : i[d]? = some (i[d]'(by omega)) := List.getElem?_eq_getElem (by omega)
            have e2 : j[d]? = some (j[d]'(by omega)) := List.getElem?_eq_getElem (by omega)
            have e3 : shape[d]? = some shape[d] := List.getElem?_eq_getElem hd
            by_cases hA : d ∈ A
            · have := (inRange_get.1 hjr).2 d _ 1 e2 (by rw [collapsed_get, e3]; simp [hA])
              rw [e1, e2]
              simp [hA]; omega
            · rw [← h d hd hA, e1]; simp [hA]
          · rw [List.getElem?_eq_none (by omega), List.getElem?_eq_none (by omega)]; rfl
        simp [h2]
    rw [List.map_congr_left hz, ← sum_filter_map,
      filter_eq_single (mem_indices.2 (zeroed_inRange hi)) (nodup_indices _)]
    simp
  have hl : cellSum (collapsed A shape) (fun j => cellSum shape v w A j) w' B idx =
      (((indices (collapsed A shape)).filter fun j =>
          decide (∀ d < (collapsed A shape).length, d ∉ B → j[d]? = idx[d]?)).map fun j =>
        ((indices shape).map fun i =>
          (if decide (∀ d < shape.length, d ∉ A → i[d]? = j[d]?) then v i * (A.map fun a => w a (i.getD a 0)).prod else 0) *
          (B.map fun b => w' b (j.getD b 0)).prod).sum).sum := by
    rw [cellSum]
    refine congrArg List.sum (List.map_congr_left fun j _ => ?_)
    rw [List.sum_map_mul_right, cellSum, sum_filter_map]
  rw [hl, sum_comm_list, cellSum, sum_filter_map]
  refine congrArg List.sum (List.map_congr_left fun i hi => ?_)
  exact key i (mem_indices.1 hi)

end
end Pgkyl
