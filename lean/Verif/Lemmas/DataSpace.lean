import Verif.Spec.DataSpace
import Verif.Lemmas.Py
import Mathlib.Data.List.Sort
import Mathlib.Data.List.Nodup
/-! # Lemmas about the dataset store -/

namespace Pgkyl

/-! ### Ranges and slices -/

theorem mem_pyRange_pos {a b st : Int} (h : 0 < st) (x : Int) :
    x ∈ pyRange a b st ↔ a ≤ x ∧ x < b ∧ st ∣ x - a := by
  simp only [pyRange, if_pos h, List.mem_map, List.mem_range]
  constructor
  · rintro ⟨k, hk, rfl⟩
    have hk' : (k : Int) < (b - a + st - 1) / st := by omega
    have h2 : (k : Int) + 1 ≤ (b - a + st - 1) / st := by omega
    have h3 := (Int.le_ediv_iff_mul_le h).1 h2
    refine ⟨?_, ?_, ⟨k, by ring⟩⟩
    · have : 0 ≤ st * (k : Int) := Int.mul_nonneg h.le (by omega)
      omega
    · nlinarith
  · rintro ⟨h1, h2, ⟨m, hm⟩⟩
    have hm0 : 0 ≤ m := by
      by_contra hneg
      have : st * m < 0 := Int.mul_neg_of_pos_of_neg h (by omega)
      omega
    refine ⟨m.toNat, ?_, ?_⟩
    · have : m + 1 ≤ (b - a + st - 1) / st := by
        rw [Int.le_ediv_iff_mul_le h]
        nlinarith
      omega
    · rw [Int.toNat_of_nonneg hm0]; omega

theorem mem_pyRange_neg {a b st : Int} (h : st < 0) (x : Int) :
    x ∈ pyRange a b st ↔ x ≤ a ∧ b < x ∧ st ∣ x - a := by
  have h' : ¬ 0 < st := by omega
  have hp : 0 < -st := by omega
  simp only [pyRange, if_neg h', if_pos h, List.mem_map, List.mem_range]
  constructor
  · rintro ⟨k, hk, rfl⟩
    have h2 : (k : Int) + 1 ≤ (a - b + -st - 1) / -st := by omega
    have h3 := (Int.le_ediv_iff_mul_le hp).1 h2
    refine ⟨?_, ?_, ⟨k, by ring⟩⟩
    · have : 0 ≤ -st * (k : Int) := Int.mul_nonneg hp.le (by omega)
      nlinarith
    · nlinarith
  · rintro ⟨h1, h2, ⟨m, hm⟩⟩
    have hm0 : 0 ≤ m := by
      by_contra hneg
      have : 0 < st * m := Int.mul_pos_of_neg_of_neg h (by omega)
      omega
    refine ⟨m.toNat, ?_, ?_⟩
    · have : m + 1 ≤ (a - b + -st - 1) / -st := by
        rw [Int.le_ediv_iff_mul_le hp]
        nlinarith
      omega
    · rw [Int.toNat_of_nonneg hm0]; omega

theorem pyRange_pos_sorted {a b st : Int} (h : 0 < st) : (pyRange a b st).Pairwise (· < ·) := by
  simp only [pyRange, if_pos h]
  rw [List.pairwise_map]
  refine List.pairwise_lt_range.imp ?_
  intro i j hij
  have : st * (i : Int) < st * (j : Int) := Int.mul_lt_mul_of_pos_left (by omega) h
  omega

theorem pyRange_neg_sorted {a b st : Int} (h : st < 0) : (pyRange a b st).Pairwise (· > ·) := by
  have h' : ¬ 0 < st := by omega
  simp only [pyRange, if_neg h', if_pos h]
  rw [List.pairwise_map]
  refine List.pairwise_lt_range.imp ?_
  intro i j hij
  have : st * (j : Int) < st * (i : Int) := Int.mul_lt_mul_of_neg_left (by omega) h
  omega

/-- Two strictly monotone lists with the same elements are equal. -/
theorem eq_of_pairwise_of_mem {α : Type} {r : α → α → Prop} (hirr : ∀ a, ¬ r a a)
    (hasym : ∀ a b, r a b → ¬ r b a) :
    ∀ {l₁ l₂ : List α}, l₁.Pairwise r → l₂.Pairwise r → (∀ x, x ∈ l₁ ↔ x ∈ l₂) → l₁ = l₂
  | [], [], _, _, _ => rfl
  | [], b :: l₂, _, _, h => by have := (h b).2 (by simp); simp at this
  | a :: l₁, [], _, _, h => by have := (h a).1 (by simp); simp at this
  | a :: l₁, b :: l₂, h₁, h₂, h => by
    rw [List.pairwise_cons] at h₁ h₂
    have hab : a = b := by
      by_contra hne
      have h1 : a ∈ l₂ := by
        have := (h a).1 (by simp)
        simpa [hne] using this
      have h2 : b ∈ l₁ := by
        have := (h b).2 (by simp)
        simpa [Ne.symm hne] using this
      exact hasym _ _ (h₁.1 b h2) (h₂.1 a h1)
    subst hab
    congr 1
    refine eq_of_pairwise_of_mem hirr hasym h₁.2 h₂.2 fun x => ?_
    constructor
    · intro hx
      have := (h x).1 (by simp [hx])
      rcases List.mem_cons.1 this with rfl | h'
      · exact absurd (h₁.1 _ hx) (hirr _)
      · exact h'
    · intro hx
      have := (h x).2 (by simp [hx])
      rcases List.mem_cons.1 this with rfl | h'
      · exact absurd (h₂.1 _ hx) (hirr _)
      · exact h'

theorem sliceIndices_eq (n : Nat) (lo hi step : Option Int) (h0 : step.getD 1 ≠ 0) :
    sliceIndices n lo hi step = .ok (Spec.slicePositions n lo hi (step.getD 1)) := by
  simp only [sliceIndices, if_neg h0]
  by_cases hp : 0 < step.getD 1
  · rw [if_pos hp]
    congr 1
    simp only [Spec.slicePositions, if_pos hp]
    have key : ∀ x : Int, x ∈ pyRange
        (match lo with | none => ((0 : Nat) : Int) | some i => ((sliceBound n i : Nat) : Int))
        (match hi with | none => (n : Int) | some i => ((sliceBound n i : Nat) : Int)) (step.getD 1)
        ↔ (max 0 (Spec.fromEnd n (lo.getD 0)) ≤ x ∧ 0 ≤ x ∧ x < n ∧
          (∀ h ∈ hi, x < Spec.fromEnd n h) ∧
          step.getD 1 ∣ x - max 0 (Spec.fromEnd n (lo.getD 0))) := by
      intro x
      rw [mem_pyRange_pos hp]
      have hb : (x < (match hi with | none => (n : Int) | some i => ((sliceBound n i : Nat) : Int)))
          ↔ (x < n ∧ ((∀ h ∈ hi, x < Spec.fromEnd n h) ∨ x < 0)) ∨ x < 0 := by
        cases hi with
        | none => simp; omega
        | some i =>
          simp only [Option.mem_def, Option.some.injEq, forall_eq', sliceBound, Spec.fromEnd]
          split <;> omega
      have ha : (match lo with | none => ((0 : Nat) : Int) | some i => ((sliceBound n i : Nat) : Int))
          = max 0 (Spec.fromEnd n (lo.getD 0)) ∨
          (((n : Int) ≤ match lo with | none => ((0 : Nat) : Int) | some i => ((sliceBound n i : Nat) : Int))
            ∧ (n : Int) ≤ max 0 (Spec.fromEnd n (lo.getD 0))) := by
        cases lo with
        | none => left; simp [Spec.fromEnd]
        | some i =>
          simp only [Option.getD_some, sliceBound, Spec.fromEnd]
          split <;> omega
      have hnn : 0 ≤ (match lo with | none => ((0 : Nat) : Int) | some i => ((sliceBound n i : Nat) : Int)) := by
        cases lo <;> simp
      rw [hb]
      rcases ha with ha | ⟨ha1, ha2⟩
      · rw [ha] at hnn ⊢
        constructor
        · rintro ⟨h1, h2, h3⟩
          have : 0 ≤ x := by omega
          refine ⟨h1, this, ?_, ?_, h3⟩
          · omega
          · rcases h2 with ⟨_, h2 | h2⟩ | h2
            · exact h2
            · omega
            · omega
        · rintro ⟨h1, h2, h3, h4, h5⟩
          exact ⟨h1, .inl ⟨h3, .inl h4⟩, h5⟩
      · constructor
        · rintro ⟨h1, h2, h3⟩
          omega
        · rintro ⟨h1, h2, h3, h4, h5⟩
          omega
    refine eq_of_pairwise_of_mem (r := fun a b : Nat => a < b) (fun a => by omega)
      (fun a b h => by omega) ?_ ?_ ?_
    · rw [List.pairwise_map]
      refine (pyRange_pos_sorted hp).imp_of_mem ?_
      intro a b ha hb hab
      have h1 := ((key a).1 ha).2.1
      have h2 := ((key b).1 hb).2.1
      omega
    · exact List.pairwise_lt_range.filter _
    · intro p
      simp only [List.mem_map, List.mem_filter, List.mem_range, decide_eq_true_eq]
      constructor
      · rintro ⟨x, hx, rfl⟩
        obtain ⟨h1, h2, h3, h4, h5⟩ := (key x).1 hx
        rw [Int.toNat_of_nonneg h2]
        exact ⟨by omega, h1, h4, h5⟩
      · rintro ⟨h1, h2, h3, h4⟩
        exact ⟨p, (key p).2 ⟨h2, by omega, by omega, h3, h4⟩, by simp⟩
  · rw [if_neg hp]
    have hn : step.getD 1 < 0 := by omega
    congr 1
    simp only [Spec.slicePositions, if_neg hp]
    have key : ∀ x : Int, x ∈ pyRange
        (match lo with | none => (n : Int) - 1 | some i => sliceBoundNeg n i)
        (match hi with | none => -1 | some i => sliceBoundNeg n i) (step.getD 1)
        ↔ (x ≤ (match lo with | none => (n : Int) - 1 | some i => min ((n : Int) - 1) (Spec.fromEnd n i))
          ∧ 0 ≤ x ∧ x < n ∧
          (∀ h ∈ hi, Spec.fromEnd n h < x) ∧
          step.getD 1 ∣ x - (match lo with | none => (n : Int) - 1 | some i => min ((n : Int) - 1) (Spec.fromEnd n i))) := by
      intro x
      rw [mem_pyRange_neg hn]
      have haa : (match lo with | none => (n : Int) - 1 | some i => sliceBoundNeg n i) ≤ (n : Int) - 1 ∧
          ((match lo with | none => (n : Int) - 1 | some i => sliceBoundNeg n i)
          = (match lo with | none => (n : Int) - 1 | some i => min ((n : Int) - 1) (Spec.fromEnd n i)) ∨
          ((match lo with | none => (n : Int) - 1 | some i => sliceBoundNeg n i) < 0 ∧
            (match lo with | none => (n : Int) - 1 | some i => min ((n : Int) - 1) (Spec.fromEnd n i)) < 0)) := by
        cases lo with
        | none => exact ⟨by simp, .inl rfl⟩
        | some i =>
          simp only [sliceBoundNeg, Spec.fromEnd]
          split <;> omega
      obtain ⟨ha', ha⟩ := haa
      have hb : ((match hi with | none => -1 | some i => sliceBoundNeg n i) < x ∧ x ≤ (n : Int) - 1)
          ↔ (0 ≤ x ∧ x ≤ (n : Int) - 1 ∧ ∀ h ∈ hi, Spec.fromEnd n h < x) := by
        cases hi with
        | none => simp; omega
        | some i =>
          simp only [Option.mem_def, Option.some.injEq, forall_eq', sliceBoundNeg, Spec.fromEnd]
          split <;> omega
      rcases ha with ha | ⟨ha1, ha2⟩
      · rw [ha] at ha' ⊢
        constructor
        · rintro ⟨h1, h2, h3⟩
          obtain ⟨h4, h5, h6⟩ := hb.1 ⟨h2, by omega⟩
          exact ⟨h1, h4, by omega, h6, h3⟩
        · rintro ⟨h1, h2, h3, h4, h5⟩
          exact ⟨h1, (hb.2 ⟨h2, by omega, h4⟩).1, h5⟩
      · constructor
        · rintro ⟨h1, h2, h3⟩
          have := hb.1 ⟨h2, by omega⟩
          omega
        · rintro ⟨h1, h2, h3, h4, h5⟩
          omega
    refine eq_of_pairwise_of_mem (r := fun a b : Nat => b < a) (fun a => by omega)
      (fun a b h => by omega) ?_ ?_ ?_
    · rw [List.pairwise_map]
      refine (pyRange_neg_sorted hn).imp_of_mem ?_
      intro a b ha hb hab
      have h1 := ((key a).1 ha).2.1
      have h2 := ((key b).1 hb).2.1
      have : b < a := hab
      omega
    · refine List.Pairwise.filter _ ?_
      rw [List.pairwise_reverse]
      exact List.pairwise_lt_range
    · intro p
      simp only [List.mem_map, List.mem_filter, List.mem_reverse, List.mem_range, decide_eq_true_eq]
      constructor
      · rintro ⟨x, hx, rfl⟩
        obtain ⟨h1, h2, h3, h4, h5⟩ := (key x).1 hx
        rw [Int.toNat_of_nonneg h2]
        exact ⟨by omega, h1, h4, h5⟩
      · rintro ⟨h1, h2, h3, h4⟩
        exact ⟨p, (key p).2 ⟨h2, by omega, by omega, h3, h4⟩, by simp⟩

theorem slicePositions_all (n : Nat) : Spec.slicePositions n none none 1 = List.range n := by
  simp [Spec.slicePositions, Spec.fromEnd]

theorem mem_slicePositions_lt {n : Nat} {lo hi : Option Int} {st : Int} {p : Nat}
    (h : p ∈ Spec.slicePositions n lo hi st) : p < n := by
  unfold Spec.slicePositions at h
  split at h
  · simp at h; omega
  · simp at h; omega

theorem slicePositions_nodup (n : Nat) (lo hi : Option Int) (st : Int) :
    (Spec.slicePositions n lo hi st).Nodup := by
  unfold Spec.slicePositions
  split
  · exact List.nodup_range.filter _
  · exact (List.nodup_reverse.2 List.nodup_range).filter _

end Pgkyl
