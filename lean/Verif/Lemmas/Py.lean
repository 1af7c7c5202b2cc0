import Verif.Model.Py
import Mathlib.Order.Basic
import Mathlib.Tactic.Common
import Mathlib.Data.Nat.Digits.Defs
/-! # Lemmas about the Python primitives -/

namespace Pgkyl

theorem splitOn_ne_nil (c : Char) (s : List Char) : splitOn c s ≠ [] := by
  cases s with
  | nil => simp [splitOn]
  | cons x xs =>
    simp only [splitOn]; split
    · simp
    · split <;> simp

theorem splitOn_notMem {c : Char} {s : List Char} (h : c ∉ s) : splitOn c s = [s] := by
  induction s with
  | nil => rfl
  | cons x xs ih =>
    simp only [List.mem_cons, not_or] at h
    simp only [splitOn, ih h.2]
    rw [if_neg (fun e => h.1 e.symm)]

theorem splitOn_append {c : Char} {s t : List Char} (h : c ∉ s) :
    splitOn c (s ++ c :: t) = s :: splitOn c t := by
  induction s with
  | nil => simp [splitOn]
  | cons x xs ih =>
    simp only [List.mem_cons, not_or] at h
    simp only [List.cons_append, splitOn, ih h.2]
    rw [if_neg (fun e => h.1 e.symm)]

/-- `split` inverts `join` when no part contains the separator. -/
theorem splitOn_joinWith {c : Char} : ∀ (ps : List (List Char)), ps ≠ [] →
    (∀ p ∈ ps, c ∉ p) → splitOn c (joinWith c ps) = ps
  | [], h, _ => absurd rfl h
  | [p], _, h => by simpa [joinWith] using splitOn_notMem (h p (by simp))
  | p :: q :: ps, _, h => by
    rw [joinWith, splitOn_append (h p (by simp)),
      splitOn_joinWith (q :: ps) (by simp) (fun x hx => h x (by simp [hx]))]

/-- `join` inverts `split`. -/
theorem joinWith_splitOn (c : Char) (s : List Char) : joinWith c (splitOn c s) = s := by
  induction s with
  | nil => rfl
  | cons x xs ih =>
    simp only [splitOn]
    split
    · rename_i hx
      cases hsp : splitOn c xs with
      | nil => exact absurd hsp (splitOn_ne_nil c xs)
      | cons q qs => rw [joinWith, ← hsp, ih, hx]; rfl
    · cases hsp : splitOn c xs with
      | nil => exact absurd hsp (splitOn_ne_nil c xs)
      | cons q qs =>
        rw [hsp] at ih
        cases qs with
        | nil => simp [joinWith] at ih ⊢; exact ih
        | cons r rs => simp [joinWith] at ih ⊢; exact ih

/-- no part of a `split` contains the separator -/
theorem notMem_of_mem_splitOn {c : Char} : ∀ {s p : List Char}, p ∈ splitOn c s → c ∉ p
  | [], p, h => by simp [splitOn] at h; simp [h]
  | x :: xs, p, h => by
    simp only [splitOn] at h
    split at h
    · rcases List.mem_cons.1 h with rfl | h'
      · simp
      · exact notMem_of_mem_splitOn h'
    · rename_i hx
      cases hsp : splitOn c xs with
      | nil => exact absurd hsp (splitOn_ne_nil c xs)
      | cons q qs =>
        rw [hsp] at h
        simp only [List.mem_cons] at h
        rcases h with rfl | h'
        · have := notMem_of_mem_splitOn (c := c) (s := xs) (p := q) (by simp [hsp])
          simp only [List.mem_cons, not_or]
          exact ⟨fun e => hx e.symm, this⟩
        · exact notMem_of_mem_splitOn (c := c) (s := xs) (by simp [hsp, h'])

/-! ### Decimal numerals -/

theorem isDig_digitChar {d : Nat} (h : d < 10) : isDig (Nat.digitChar d) = true := by
  rcases d with _ | _ | _ | _ | _ | _ | _ | _ | _ | _ | d <;> first | decide | omega

theorem digVal_digitChar {d : Nat} (h : d < 10) : digVal (Nat.digitChar d) = d := by
  rcases d with _ | _ | _ | _ | _ | _ | _ | _ | _ | _ | d <;> first | decide | omega

theorem toDigits_cons_or (n : Nat) :
    Nat.toDigits 10 n = if n < 10 then [Nat.digitChar n]
      else Nat.toDigits 10 (n / 10) ++ [Nat.digitChar (n % 10)] := by
  split
  · rename_i h; exact Nat.toDigits_of_lt_base h
  · rename_i h
    exact Nat.toDigits_of_base_le (by norm_num) (Nat.le_of_not_lt h)

theorem toDigits_all_isDig (n : Nat) : (Nat.toDigits 10 n).all isDig = true := by
  induction n using Nat.strong_induction_on with
  | _ n ih =>
    rw [toDigits_cons_or]; split
    · rename_i h; simp [isDig_digitChar h]
    · rename_i h
      rw [List.all_append, ih (n / 10) (by omega)]
      simp [isDig_digitChar (Nat.mod_lt n (by norm_num : 10 > 0))]

theorem toDigits_ne_nil (n : Nat) : Nat.toDigits 10 n ≠ [] := by
  rw [toDigits_cons_or]; split <;> simp

theorem isDigitStr_toDigits (n : Nat) : isDigitStr (Nat.toDigits 10 n) = true := by
  simp only [isDigitStr, toDigits_all_isDig, Bool.and_true]
  cases h : Nat.toDigits 10 n with
  | nil => exact absurd h (toDigits_ne_nil n)
  | cons => rfl

theorem natOfDigits_append (s : List Char) (c : Char) :
    natOfDigits (s ++ [c]) = 10 * natOfDigits s + digVal c := by
  simp [natOfDigits]

theorem natOfDigits_toDigits (n : Nat) : natOfDigits (Nat.toDigits 10 n) = n := by
  induction n using Nat.strong_induction_on with
  | _ n ih =>
    rw [toDigits_cons_or]; split
    · rename_i h; simp [natOfDigits, digVal_digitChar h]
    · rename_i h
      rw [natOfDigits_append, ih (n / 10) (by omega),
        digVal_digitChar (Nat.mod_lt n (by norm_num))]
      omega

theorem notMem_of_all_isDig {s : List Char} (h : s.all isDig = true) {c : Char}
    (hc : isDig c = false) : c ∉ s := by
  intro hm
  have := List.all_eq_true.1 h c hm
  simp [hc] at this

theorem isDigitStr_all {s : List Char} (h : isDigitStr s = true) : s.all isDig = true := by
  simp only [isDigitStr, Bool.and_eq_true] at h; exact h.2

theorem isDigitStr_notMem {s : List Char} (h : isDigitStr s = true) {c : Char}
    (hc : isDig c = false) : c ∉ s := notMem_of_all_isDig (isDigitStr_all h) hc

theorem isDigitStr_ne_nil {s : List Char} (h : isDigitStr s = true) : s ≠ [] := by
  rintro rfl; simp [isDigitStr] at h

theorem isDigitStr_iff {s : List Char} : isDigitStr s = true ↔ s ≠ [] ∧ s.all isDig = true := by
  cases s <;> simp [isDigitStr]

theorem pyInt_of_isDigitStr {s : List Char} (h : isDigitStr s = true) :
    pyInt s = some (natOfDigits s : Int) := by
  unfold pyInt
  split
  · exact absurd (List.mem_cons_self) (isDigitStr_notMem h (c := '-') (by decide))
  · exact absurd (List.mem_cons_self) (isDigitStr_notMem h (c := '+') (by decide))
  · simp [h]

theorem pyInt_neg_toDigits (n : Nat) : pyInt ('-' :: Nat.toDigits 10 n) = some (-(n : Int)) := by
  simp [pyInt, isDigitStr_toDigits, natOfDigits_toDigits]

theorem pyStr_ofNat (n : Nat) : pyStr (n : Int) = Nat.toDigits 10 n := by
  simp [pyStr]

theorem pyInt_pyStr (n : Int) : pyInt (pyStr n) = some n := by
  unfold pyStr; split
  · rw [pyInt_neg_toDigits]; congr 1; omega
  · rw [pyInt_of_isDigitStr (isDigitStr_toDigits _), natOfDigits_toDigits]; congr 1; omega

/-! ### Slices -/

theorem sliceBound_le (n : Nat) (i : Int) : sliceBound n i ≤ n := by
  unfold sliceBound; split <;> omega

theorem pySlice_natCast {α : Type} (l : List α) {a b : Nat} (hb : b ≤ l.length) :
    pySlice l a b = (l.drop a).take (b - a) := by
  simp only [pySlice, sliceBound]
  have h1 : ¬ ((a : Int) < 0) := by omega
  have h2 : ¬ ((b : Int) < 0) := by omega
  simp only [h1, h2, if_false, Int.toNat_natCast]
  rw [Nat.min_eq_left hb]
  rcases Nat.lt_or_ge a l.length with h | h
  · rw [Nat.min_eq_left h.le]
  · rw [Nat.min_eq_right h, Nat.sub_eq_zero_of_le hb, Nat.sub_eq_zero_of_le (le_trans hb h)]
    simp

theorem pySlice_getElem? {α : Type} (l : List α) {a b : Nat} (hb : b ≤ l.length) (k : Nat) :
    (pySlice l a b)[k]? = if k < b - a then l[a + k]? else none := by
  rw [pySlice_natCast l hb, List.getElem?_take]
  split <;> simp [List.getElem?_drop]

theorem pySlice_length {α : Type} (l : List α) {a b : Nat} (hb : b ≤ l.length) :
    (pySlice l a b).length = b - a := by
  rw [pySlice_natCast l hb]; simp; omega

/-! ### Binary search -/

theorem bisectLeft_spec {F : Type} [LinearOrder F] (a : List F) (v : F)
    (hs : a.Pairwise (· < ·)) :
    ∀ (lo hi : Nat), lo ≤ hi → hi ≤ a.length →
      (∀ j x, j < lo → a[j]? = some x → x < v) →
      (∀ j x, hi ≤ j → a[j]? = some x → v ≤ x) →
      let r := bisectLeft a v lo hi
      lo ≤ r ∧ r ≤ hi ∧ (∀ j x, j < r → a[j]? = some x → x < v) ∧
        (∀ j x, r ≤ j → a[j]? = some x → v ≤ x) := by
  intro lo hi
  induction hn : hi - lo using Nat.strong_induction_on generalizing lo hi with
  | _ n ih =>
    intro hle hlen hlow hhigh
    unfold bisectLeft
    have sorted : ∀ (i j : Nat) (x y : F), i < j → a[i]? = some x → a[j]? = some y → x < y := by
      intro i j x y hij hx hy
      obtain ⟨hi', rfl⟩ := List.getElem?_eq_some_iff.1 hx
      obtain ⟨hj', rfl⟩ := List.getElem?_eq_some_iff.1 hy
      exact List.pairwise_iff_getElem.1 hs i j hi' hj' hij
    by_cases h : lo < hi
    · simp only [h, if_true]
      have hmid : lo + (hi - lo) / 2 < a.length := by omega
      rw [List.getElem?_eq_getElem hmid]
      simp only
      by_cases hx : a[lo + (hi - lo) / 2] < v
      · simp only [hx, if_true]
        have := ih (hi - (lo + (hi - lo) / 2 + 1)) (by omega) (lo + (hi - lo) / 2 + 1) hi rfl
          (by omega) hlen ?_ hhigh
        · refine ⟨by have := this.1; omega, this.2⟩
        · intro j x hj hjx
          rcases Nat.lt_or_ge j (lo + (hi - lo) / 2) with h' | h'
          · exact lt_trans (sorted _ _ _ _ h' hjx (List.getElem?_eq_getElem hmid)) hx
          · have : j = lo + (hi - lo) / 2 := by omega
            subst this
            rw [List.getElem?_eq_getElem hmid] at hjx
            cases hjx; exact hx
      · simp only [hx, if_false]
        have := ih (lo + (hi - lo) / 2 - lo) (by omega) lo (lo + (hi - lo) / 2) rfl
          (by omega) (by omega) hlow ?_
        · refine ⟨this.1, by have := this.2.1; omega, this.2.2⟩
        · intro j x hj hjx
          rcases Nat.eq_or_lt_of_le hj with h' | h'
          · subst h'
            rw [List.getElem?_eq_getElem hmid] at hjx
            cases hjx; exact not_lt.1 hx
          · exact le_trans (not_lt.1 hx)
              (le_of_lt (sorted _ _ _ _ h' (List.getElem?_eq_getElem hmid) hjx))
    · simp only [h, if_false]
      have : lo = hi := by omega
      subst this
      exact ⟨le_refl _, le_refl _, hlow, hhigh⟩

theorem searchsorted_spec {F : Type} [LinearOrder F] (a : List F) (v : F)
    (hs : a.Pairwise (· < ·)) :
    searchsorted a v ≤ a.length ∧ (∀ j x, j < searchsorted a v → a[j]? = some x → x < v) ∧
      (∀ j x, searchsorted a v ≤ j → a[j]? = some x → v ≤ x) := by
  have := bisectLeft_spec a v hs 0 a.length (Nat.zero_le _) le_rfl (by intro j x h; omega)
    (by
      intro j x h hx
      rw [List.getElem?_eq_none h] at hx; cases hx)
  exact ⟨this.2.1, this.2.2⟩

end Pgkyl
