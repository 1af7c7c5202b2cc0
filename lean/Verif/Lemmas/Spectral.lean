import Verif.Model.Spectral
import Verif.Spec.Spectral
import Verif.Lemmas.NumOps
import Mathlib.Algebra.BigOperators.Group.List.Basic
import Mathlib.Algebra.BigOperators.Ring.Finset
import Mathlib.Algebra.Field.GeomSum
import Mathlib.Analysis.SpecialFunctions.Complex.Log
import Mathlib.Tactic.Push
import Mathlib.Tactic.FieldSimp
import Mathlib.Tactic.LinearCombination
/-! Lemmas on the discrete Fourier transform. -/

namespace Pgkyl.Spectral
open Pgkyl

theorem cis_zero : cis 0 = 1 := by simp [cis]

theorem cis_add (a b : ℝ) : cis (a + b) = cis a * cis b := by
  simp only [cis, ← Complex.exp_add]; congr 1; push_cast; ring

theorem cis_int (n : ℤ) : cis n = 1 := by
  have := Complex.exp_int_mul_two_pi_mul_I n
  simp only [cis]; rw [← this]; congr 1; push_cast; ring

theorem cis_nat_mul (n : ℕ) (t : ℝ) : cis (n * t) = cis t ^ n := by
  simp only [cis, ← Complex.exp_nat_mul]; congr 1; push_cast; ring

theorem cis_eq_one {t : ℝ} (h : cis t = 1) : ∃ n : ℤ, t = n := by
  rw [cis, Complex.exp_eq_one_iff] at h
  obtain ⟨n, hn⟩ := h
  refine ⟨n, ?_⟩
  have hpi : (2 * (Real.pi : ℂ) * Complex.I) ≠ 0 := by
    simp [Real.pi_ne_zero, Complex.I_ne_zero]
  have : ((t : ℝ) : ℂ) = ((n : ℝ) : ℂ) := by
    have h2 : (t : ℂ) * (2 * (Real.pi : ℂ) * Complex.I) = (n : ℂ) * (2 * (Real.pi : ℂ) * Complex.I) := by
      rw [← hn]; ring
    have := mul_right_cancel₀ hpi h2
    simpa using this
  exact_mod_cast this

/-- Orthogonality on one axis. -/
theorem sum_cis (n m j : Nat) (hm : m < n) (hj : j < n) :
    ((List.range n).map fun k : Nat => cis ((m : ℝ) * k / n - (j : ℝ) * k / n)).sum
      = if j = m then (n : ℂ) else 0 := by
  have hn : (n : ℝ) ≠ 0 := by have : 0 < n := by omega
                              positivity
  have hterm : ∀ k : Nat, cis ((m : ℝ) * k / n - (j : ℝ) * k / n)
      = cis (((m : ℝ) - j) / n) ^ k := by
    intro k
    rw [← cis_nat_mul]; congr 1; field_simp
  simp only [hterm]
  have : ((List.range n).map fun k : Nat => cis (((m : ℝ) - j) / n) ^ k).sum
      = ∑ k ∈ Finset.range n, cis (((m : ℝ) - j) / n) ^ k := by
    rw [Finset.sum_range, ← List.sum_ofFn]; congr 1
    rw [List.ofFn_eq_map, ← List.map_coe_finRange_eq_range, List.map_map]; rfl
  rw [this]
  split
  · next h => subst h; simp [cis_zero]
  · next h =>
    have hne : cis (((m : ℝ) - j) / n) ≠ 1 := by
      intro h1
      obtain ⟨z, hz⟩ := cis_eq_one h1
      have h2 : ((m : ℝ) - j) = z * n := by field_simp at hz; linarith
      have h3 : ((m : ℤ) - j) = z * n := by exact_mod_cast h2
      rcases lt_trichotomy z 0 with h | h | h
      · nlinarith
      · subst h; omega
      · nlinarith
    rw [geom_sum_eq hne, ← cis_nat_mul]
    have : (n : ℝ) * (((m : ℝ) - j) / n) = (((m : ℤ) - j : ℤ) : ℝ) := by push_cast; field_simp
    rw [this, cis_int]; simp

theorem sum_flatMap_range {β : Type} [AddCommMonoid β] (f : List Nat → β) (n : Nat) (l : List (List Nat)) :
    (((List.range n).flatMap fun i => l.map (i :: ·)).map f).sum
      = ((List.range n).map fun i => (l.map fun t => f (i :: t)).sum).sum := by
  induction List.range n with
  | nil => simp
  | cons a t ih => simp [ih, Function.comp_def]

theorem inRange_snoc : ∀ {s k : List Nat} {n c : Nat},
    inRange (s ++ [n]) (k ++ [c]) = true ↔ inRange s k = true ∧ c < n
  | [], [], _, _ => by simp [inRange]
  | [], [_], _, _ => by simp [inRange]
  | [], _ :: _ :: _, _, _ => by simp [inRange]
  | [_], [], _, _ => by simp [inRange]
  | _ :: _ :: _, [], _, _ => by simp [inRange]
  | _ :: s, _ :: k, _, _ => by
    simp only [List.cons_append, inRange, Bool.and_eq_true, inRange_snoc (s := s) (k := k), and_assoc]

/-- Orthogonality over all axes. -/
theorem sum_cis_indices : ∀ (shape m j : List Nat), inRange shape m = true → inRange shape j = true →
    ((indices shape).map fun k => cis (phase shape m k - phase shape j k)).sum
      = if j = m then (shape.prod : ℂ) else 0
  | [], [], [], _, _ => by simp [indices, phase, cis_zero]
  | n :: ns, m :: ms, j :: js, hm, hj => by
    simp only [inRange, Bool.and_eq_true, decide_eq_true_eq] at hm hj
    have ih := sum_cis_indices ns ms js hm.2 hj.2
    simp only [indices]
    rw [sum_flatMap_range]
    have : ∀ i : Nat, ((indices ns).map fun t => cis (phase (n :: ns) (m :: ms) (i :: t) - phase (n :: ns) (j :: js) (i :: t))).sum
        = cis ((m : ℝ) * i / n - (j : ℝ) * i / n) * (if js = ms then (ns.prod : ℂ) else 0) := by
      intro i
      rw [← ih, ← List.sum_map_mul_left]
      congr 1
      apply List.map_congr_left
      intro t _
      rw [← cis_add]; congr 1; simp only [phase]; ring
    simp only [this]
    rw [List.sum_map_mul_right, sum_cis n m j hm.1 hj.1]
    by_cases h1 : j = m <;> by_cases h2 : js = ms <;> simp [h1, h2]
  | [], [], _ :: _, _, h => by simp [inRange] at h
  | [], _ :: _, _, h, _ => by simp [inRange] at h
  | _ :: _, [], _, h, _ => by simp [inRange] at h
  | _ :: _, _ :: _, [], _, h => by simp [inRange] at h

theorem sum_indices_finset {β : Type} [AddCommMonoid β] (shape : List Nat) (f : List Nat → β) :
    ((indices shape).map f).sum = ∑ k ∈ (indices shape).toFinset, f k :=
  (List.sum_toFinset f (nodup_indices shape)).symm

theorem prod_ne_zero_of_inRange {shape j : List Nat} (h : inRange shape j = true) : shape.prod ≠ 0 := by
  have := ravel_lt h; omega

/-- The inverse transform recovers the array. -/
theorem sum_dft (shape : List Nat) (v : List Nat → ℂ) (m : List Nat) (hm : inRange shape m = true) :
    ((indices shape).map fun k => dftAt shape v k * cis (phase shape m k)).sum = v m * (shape.prod : ℂ) := by
  simp only [dftAt, sum_indices_finset, Finset.sum_mul]
  rw [Finset.sum_comm]
  have : ∀ j ∈ (indices shape).toFinset,
      ∑ k ∈ (indices shape).toFinset, v j * cis (-phase shape j k) * cis (phase shape m k)
        = if j = m then v m * (shape.prod : ℂ) else 0 := by
    intro j hj
    rw [List.mem_toFinset, mem_indices] at hj
    have h := sum_cis_indices shape m j hm hj
    rw [sum_indices_finset] at h
    have : ∀ k : List Nat, v j * cis (-phase shape j k) * cis (phase shape m k)
        = v j * cis (phase shape m k - phase shape j k) := by
      intro k; rw [mul_assoc, ← cis_add]; congr 2; ring
    simp only [this]
    rw [← Finset.mul_sum, h]
    split
    · next h => rw [h]
    · simp
  rw [Finset.sum_congr rfl this]
  simp [mem_indices, hm]

theorem idft_dft (shape : List Nat) (v : List Nat → ℂ) (m : List Nat) (hm : inRange shape m = true) :
    idftAt shape (dftAt shape v) m = v m := by
  rw [idftAt, sum_dft shape v m hm]
  have : (shape.prod : ℂ) ≠ 0 := by exact_mod_cast prod_ne_zero_of_inRange hm
  field_simp

end Pgkyl.Spectral
