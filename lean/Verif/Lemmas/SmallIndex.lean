import Verif.Lemmas.NArr
/-! # Indices of arrays with few axes -/

namespace Pgkyl

theorem inRange_one {a : Nat} {idx : List Nat} (h : inRange [a] idx = true) : ∃ i, idx = [i] ∧ i < a := by
  have := inRange_length h
  obtain ⟨i, rfl⟩ := List.length_eq_one_iff.1 this
  exact ⟨i, rfl, by simpa [inRange] using h⟩

theorem inRange_two {a b : Nat} {idx : List Nat} (h : inRange [a, b] idx = true) : ∃ i j, idx = [i, j] ∧ i < a ∧ j < b := by
  cases idx with
  | nil => simp [inRange] at h
  | cons i is =>
    simp only [inRange, Bool.and_eq_true, decide_eq_true_eq] at h
    obtain ⟨j, rfl, hj⟩ := inRange_one (idx := is) (by simpa [inRange] using h.2)
    exact ⟨i, j, rfl, h.1, hj⟩

theorem inRange_three {a b c : Nat} {idx : List Nat} (h : inRange [a, b, c] idx = true) :
    ∃ i j k, idx = [i, j, k] ∧ i < a ∧ j < b ∧ k < c := by
  cases idx with
  | nil => simp [inRange] at h
  | cons i is =>
    rw [inRange, Bool.and_eq_true, decide_eq_true_eq] at h
    obtain ⟨j, k, rfl, hj, hk⟩ := inRange_two h.2
    exact ⟨i, j, k, rfl, h.1, hj, hk⟩

theorem inRange_four {a b c d : Nat} {idx : List Nat} (h : inRange [a, b, c, d] idx = true) :
    ∃ i j k l, idx = [i, j, k, l] ∧ i < a ∧ j < b ∧ k < c ∧ l < d := by
  cases idx with
  | nil => simp [inRange] at h
  | cons i is =>
    rw [inRange, Bool.and_eq_true, decide_eq_true_eq] at h
    obtain ⟨j, k, l, rfl, hj, hk, hl⟩ := inRange_three h.2
    exact ⟨i, j, k, l, rfl, h.1, hj, hk, hl⟩

end Pgkyl
