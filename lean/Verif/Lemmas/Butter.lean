import Verif.Model.Butter
import Verif.Spec.Butter
import Mathlib.Tactic.Ring
import Mathlib.Tactic.FieldSimp
/-! # The recursion of a digital filter -/

namespace Pgkyl.Filters
open Spec

variable {F : Type} [_root_.Field F]

theorem weighted_cons (c : F) (cs : List F) (h : F) (hs : List F) : weighted (c :: cs) (h :: hs) = c * h + weighted cs hs := by
  simp [weighted]

theorem weighted_nil (h : List F) : weighted [] h = 0 := by simp [weighted]
theorem weighted_nil' (c : List F) : weighted c [] = 0 := by simp [weighted]

theorem weighted_sum (c : List F) : ∀ h : List F,
    weighted c h = ∑ k ∈ Finset.range c.length, (c[k]?).getD 0 * (h[k]?).getD 0 := by
  induction c with
  | nil => intro h; simp [weighted_nil]
  | cons c cs ih =>
    intro h
    cases h with
    | nil => simp [weighted_nil']
    | cons h hs =>
      rw [weighted_cons, ih, List.length_cons, Finset.sum_range_succ']
      simp [add_comm]

theorem weighted_zeros (k : Nat) : ∀ c h : List F, weighted c (h ++ List.replicate k 0) = weighted c h := by
  intro c h
  rw [weighted_sum, weighted_sum]
  refine Finset.sum_congr rfl fun j _ => ?_
  congr 1
  by_cases hj : j < h.length
  · rw [List.getElem?_append_left hj]
  · rw [List.getElem?_append_right (by omega), List.getElem?_eq_none (l := h) (by omega), List.getElem?_replicate]
    split <;> rfl

theorem weighted_lin (s t : F) : ∀ c h h' : List F, h.length = h'.length →
    weighted c (List.zipWith (fun p q => s * p + t * q) h h') = s * weighted c h + t * weighted c h' := by
  intro c
  induction c with
  | nil => intro h h' _; simp [weighted_nil]
  | cons c cs ih =>
    intro h h' hl
    cases h with
    | nil => cases h' with
      | nil => simp [weighted_nil']
      | cons _ _ => simp at hl
    | cons x xs => cases h' with
      | nil => simp at hl
      | cons y ys =>
        rw [List.zipWith_cons_cons, weighted_cons, weighted_cons, weighted_cons, ih xs ys (by simpa using hl)]
        ring

variable (b : List F) (a0 : F) (a : List F)

theorem recur_length : ∀ (data xs ys : List F), (recur b a0 a xs ys data).length = data.length
  | [], _, _ => rfl
  | x :: rest, xs, ys => by simp [recur, recur_length rest]

theorem recur_append (more : List F) : ∀ (data xs ys : List F),
    (recur b a0 a xs ys (data ++ more)).take data.length = recur b a0 a xs ys data
  | [], _, _ => by simp [recur]
  | x :: rest, xs, ys => by simp [recur, recur_append more rest]

theorem recur_get : ∀ (data xs ys : List F) (n : Nat), n < data.length →
    (recur b a0 a xs ys data)[n]? = some ((weighted b ((data.take (n + 1)).reverse ++ xs) -
      weighted a (((recur b a0 a xs ys data).take n).reverse ++ ys)) / a0)
  | [], _, _, n, h => by simp at h
  | x :: rest, xs, ys, 0, _ => by simp [recur]
  | x :: rest, xs, ys, n + 1, h => by
    have := recur_get rest (x :: xs) ((weighted b (x :: xs) - weighted a ys) / a0 :: ys) n (by simpa using h)
    simp only [recur, List.getElem?_cons_succ, List.take_succ_cons, List.reverse_cons, List.append_assoc, List.singleton_append]
    simpa using this

theorem recur_lin (s t : F) : ∀ (x y xs ys us vs : List F), x.length = y.length → xs.length = ys.length → us.length = vs.length →
    recur b a0 a (List.zipWith (fun p q => s * p + t * q) xs ys) (List.zipWith (fun p q => s * p + t * q) us vs)
      (List.zipWith (fun p q => s * p + t * q) x y) =
    List.zipWith (fun p q => s * p + t * q) (recur b a0 a xs us x) (recur b a0 a ys vs y)
  | [], [], _, _, _, _, _, _, _ => by simp [recur]
  | [], _ :: _, _, _, _, _, h, _, _ => by simp at h
  | _ :: _, [], _, _, _, _, h, _, _ => by simp at h
  | x :: xr, y :: yr, xs, ys, us, vs, h, h1, h2 => by
    have e1 := weighted_lin s t b (x :: xs) (y :: ys) (by simpa using h1)
    have e2 := weighted_lin s t a us vs h2
    rw [List.zipWith_cons_cons] at e1
    have ih := recur_lin s t xr yr (x :: xs) (y :: ys) ((weighted b (x :: xs) - weighted a us) / a0 :: us)
      ((weighted b (y :: ys) - weighted a vs) / a0 :: vs) (by simpa using h) (by simpa using h1) (by simpa using h2)
    rw [List.zipWith_cons_cons] at ih
    simp only [List.zipWith_cons_cons, recur, e1, e2] at ih ⊢
    have e3 : (s * weighted b (x :: xs) + t * weighted b (y :: ys) - (s * weighted a us + t * weighted a vs)) / a0 =
        s * ((weighted b (x :: xs) - weighted a us) / a0) + t * ((weighted b (y :: ys) - weighted a vs) / a0) := by ring
    rw [e3, ih]

theorem recur_history (k l : Nat) : ∀ (data xs ys : List F),
    recur b a0 a (xs ++ List.replicate k 0) (ys ++ List.replicate l 0) data = recur b a0 a xs ys data
  | [], _, _ => rfl
  | x :: rest, xs, ys => by
    have e1 := weighted_zeros k b (x :: xs)
    have e2 := weighted_zeros l a ys
    rw [List.cons_append] at e1
    simp only [recur, e1, e2]
    have := recur_history k l rest (x :: xs) ((weighted b (x :: xs) - weighted a ys) / a0 :: ys)
    rw [List.cons_append, List.cons_append] at this
    rw [this]

theorem recur_delay (data : List F) : ∀ k : Nat,
    recur b a0 a [] [] (List.replicate k 0 ++ data) = List.replicate k 0 ++ recur b a0 a [] [] data
  | 0 => by simp
  | k + 1 => by
    have e : weighted b [0] = 0 := by
      have := weighted_zeros 1 b ([] : List F)
      simpa [weighted_nil'] using this
    have h := recur_history b a0 a 1 1 (List.replicate k 0 ++ data) [] []
    simp only [List.replicate_one, List.nil_append] at h
    simp only [List.replicate_succ, List.cons_append, recur, e, weighted_nil', sub_self, zero_div]
    rw [h, recur_delay data k]

theorem sample_nat (x : List F) (n : Nat) : sample x (n : Int) = (x[n]?).getD 0 := by
  simp [sample]

theorem sample_back (x : List F) (n k : Nat) (h : n < x.length) :
    sample x ((n : Int) - k) = (((x.take (n + 1)).reverse)[k]?).getD 0 := by
  unfold sample
  by_cases hk : k ≤ n
  · rw [if_neg (by omega), List.getElem?_reverse (by simp; omega), List.getElem?_take_of_lt (by simp)]
    have e : ((n : Int) - k).toNat = n - k := by omega
    rw [e, List.length_take, Nat.min_eq_left (by omega), show n + 1 - 1 - k = n - k by omega]
  · rw [if_pos (by omega), List.getElem?_eq_none (by simp; omega)]
    rfl

theorem recur_answers (ha : a0 ≠ 0) (data : List F) : Answers b (a0 :: a) data (recur b a0 a [] [] data) := by
  refine ⟨recur_length .., fun n hn => ?_⟩
  have hg := recur_get b a0 a data [] [] n hn
  have hl : n < (recur b a0 a [] [] data).length := by rw [recur_length]; exact hn
  have e1 : ∑ k ∈ Finset.range b.length, sample b k * sample data ((n : Int) - k) = weighted b (data.take (n + 1)).reverse := by
    rw [weighted_sum]
    exact Finset.sum_congr rfl fun k _ => by rw [sample_nat, sample_back _ _ _ hn]
  have e2 : ∑ k ∈ Finset.range (a0 :: a).length, sample (a0 :: a) k * sample (recur b a0 a [] [] data) ((n : Int) - k) =
      weighted (a0 :: a) ((recur b a0 a [] [] data).take (n + 1)).reverse := by
    rw [weighted_sum]
    exact Finset.sum_congr rfl fun k _ => by rw [sample_nat, sample_back _ _ _ hl]
  rw [e1, e2, List.take_add_one, hg]
  simp only [Option.toList_some, List.reverse_append, List.reverse_singleton, List.singleton_append, weighted_cons,
    List.append_nil]
  field_simp
  ring

/-- The answer is determined by the equation. -/
theorem answers_unique {b a x y z : List F} (ha : sample a 0 ≠ 0) (hy : Answers b a x y) (hz : Answers b a x z) : y = z := by
  have key : ∀ n : Nat, n < x.length → ∀ m ≤ n, sample y m = sample z m := by
    intro n
    induction n with
    | zero =>
      intro hn m hm
      obtain rfl : m = 0 := by omega
      exact step hn fun k hk => by omega
    | succ n ih =>
      intro hn m hm
      by_cases e : m ≤ n
      · exact ih (by omega) m e
      · obtain rfl : m = n + 1 := by omega
        exact step hn fun k hk => ih (by omega) k (by omega)
  apply List.ext_getElem?
  intro n
  by_cases hn : n < x.length
  · have := key n hn n le_rfl
    rw [sample_nat, sample_nat] at this
    rw [List.getElem?_eq_getElem (by rw [hy.1]; exact hn), List.getElem?_eq_getElem (by rw [hz.1]; exact hn)] at this ⊢
    simpa using this
  · rw [List.getElem?_eq_none (by rw [hy.1]; omega), List.getElem?_eq_none (by rw [hz.1]; omega)]
where
  step {b a x y z : List F} {n : Nat} (hn : n < x.length) (ih : ∀ k < n, sample y k = sample z k)
      (ha : sample a 0 ≠ 0 := by assumption) (hy : Answers b a x y := by assumption) (hz : Answers b a x z := by assumption) :
      sample y n = sample z n := by
    have h := (hy.2 n hn).trans (hz.2 n hn).symm
    cases a with
    | nil => simp [sample] at ha
    | cons a0 a =>
      rw [List.length_cons, Finset.sum_range_succ', Finset.sum_range_succ'] at h
      have e : ∑ k ∈ Finset.range a.length, sample (a0 :: a) ((k + 1 : Nat) : Int) * sample y ((n : Int) - ((k + 1 : Nat) : Int)) =
          ∑ k ∈ Finset.range a.length, sample (a0 :: a) ((k + 1 : Nat) : Int) * sample z ((n : Int) - ((k + 1 : Nat) : Int)) := by
        refine Finset.sum_congr rfl fun k _ => ?_
        congr 1
        by_cases hk : k + 1 ≤ n
        · rw [show (n : Int) - ((k + 1 : Nat) : Int) = ((n - (k + 1) : Nat) : Int) by omega]
          exact ih _ (by omega)
        · unfold sample
          rw [if_pos (by omega), if_pos (by omega)]
      rw [e] at h
      have h' := add_left_cancel h
      simp only [Nat.cast_zero, sub_zero] at h'
      exact mul_left_cancel₀ ha h'

end Pgkyl.Filters
