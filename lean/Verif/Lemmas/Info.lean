import Verif.Spec.Info
import Verif.Lemmas.NArr
import Verif.Lemmas.Idx
import Mathlib.Order.Basic
/-! # Lemmas about `info` -/

namespace Pgkyl.Text
open Spec

theorem unravel_ok : ∀ (shape : List Nat) (k : Nat), k < shape.prod →
    inRange shape (unravel shape k) = true ∧ ravel shape (unravel shape k) = k
  | [], k, h => by
    simp only [List.prod_nil] at h
    simp [unravel, inRange, ravel]; omega
  | n :: ns, k, h => by
    rw [List.prod_cons] at h
    have hp : 0 < ns.prod := Nat.pos_of_ne_zero fun h0 => by rw [h0] at h; simp at h
    obtain ⟨h1, h2⟩ := unravel_ok ns (k % ns.prod) (Nat.mod_lt _ hp)
    refine ⟨?_, ?_⟩
    · simp only [unravel, inRange, h1, Bool.and_true, decide_eq_true_eq]
      exact (Nat.div_lt_iff_lt_mul hp).2 h
    · simp only [unravel, ravel, h2]
      rw [Nat.mul_comm]
      exact Nat.div_add_mod _ _

/-- Positions in C order are ordered like the indices. -/
theorem ravel_lt_of_lt : ∀ {shape i j : List Nat}, inRange shape i = true → inRange shape j = true → i < j → ravel shape i < ravel shape j
  | [], [], [], _, _, h => absurd h (List.lt_irrefl _)
  | n :: ns, i :: is, j :: js, hi, hj, h => by
    simp only [inRange, Bool.and_eq_true, decide_eq_true_eq] at hi hj
    simp only [ravel]
    rcases List.cons_lt_cons_iff.1 h with h | ⟨rfl, h'⟩
    · have h1 := ravel_lt hi.2
      have h2 : (i + 1) * ns.prod ≤ j * ns.prod := Nat.mul_le_mul_right _ h
      rw [Nat.add_mul, Nat.one_mul] at h2
      omega
    · have := ravel_lt_of_lt hi.2 hj.2 h'
      omega
  | [], _ :: _, _, hi, _, _ => by simp [inRange] at hi
  | [], [], _ :: _, _, hj, _ => by simp [inRange] at hj
  | _ :: _, [], _, hi, _, _ => by simp [inRange] at hi
  | _ :: _, _ :: _, [], _, hj, _ => by simp [inRange] at hj

section
variable {F : Type} {nan : F → Bool} {better : F → F → Bool}

/-- What `nanArg` has found in the values `l`. -/
def Found (nan : F → Bool) (better : F → F → Bool) (l : List F) : Option (Nat × F) → Prop
  | none => ∀ x ∈ l, nan x = true
  | some b => l[b.1]? = some b.2 ∧ nan b.2 = false ∧
      ∀ (j : Nat) (y : F), l[j]? = some y → nan y = false → better y b.2 = false ∧ (better b.2 y = false → b.1 ≤ j)

theorem found_step (h1 : ∀ x b y, better x b = true → better y b = false → better x y = true)
    (h2 : ∀ x y, better x y = true → better y x = false) (h3 : ∀ x, better x x = false) {pre : List F} {best : Option (Nat × F)}
    (h : Found nan better pre best) (x : F) :
    Found nan better (pre ++ [x]) (nanStep nan better pre.length x best) := by
  have hget : ∀ (j : Nat) (y : F), (pre ++ [x])[j]? = some y → pre[j]? = some y ∨ (j = pre.length ∧ y = x) := by
    intro j y hj
    rcases Nat.lt_trichotomy j pre.length with hl | hl | hl
    · rw [List.getElem?_append_left hl] at hj; exact .inl hj
    · subst hl; simp at hj; exact .inr ⟨rfl, hj.symm⟩
    · rw [List.getElem?_append_right (by omega)] at hj
      rw [List.getElem?_eq_none (by simp; omega)] at hj
      cases hj
  cases hn : nan x with
  | true =>
    cases best with
    | none =>
      simp only [nanStep, hn, if_true]
      intro y hy
      rcases List.mem_append.1 hy with hy | hy
      · exact h y hy
      · rw [List.mem_singleton.1 hy, hn]
    | some b =>
      obtain ⟨e1, e2, e3⟩ := h
      simp only [nanStep, hn, Bool.not_true, Bool.false_and, Bool.false_eq_true, if_false]
      refine ⟨?_, e2, fun j y hj hy => ?_⟩
      · rw [List.getElem?_append_left (List.getElem?_eq_some_iff.1 e1).1, e1]
      · rcases hget j y hj with hj | ⟨-, rfl⟩
        · exact e3 j y hj hy
        · rw [hn] at hy; cases hy
  | false =>
    cases best with
    | none =>
      simp only [nanStep, hn, Bool.false_eq_true, if_false]
      refine ⟨by simp, hn, fun j y hj hy => ?_⟩
      rcases hget j y hj with hj | ⟨rfl, rfl⟩
      · rw [h y (List.mem_of_getElem? hj)] at hy; cases hy
      · exact ⟨h3 y, fun _ => le_rfl⟩
    | some b =>
      obtain ⟨e1, e2, e3⟩ := h
      have hb := (List.getElem?_eq_some_iff.1 e1).1
      cases hx : better x b.2 with
      | true =>
        simp only [nanStep, hn, hx, Bool.not_false, Bool.true_and, if_true]
        refine ⟨by simp, hn, fun j y hj hy => ?_⟩
        rcases hget j y hj with hj | ⟨rfl, rfl⟩
        · have := h1 x b.2 y hx (e3 j y hj hy).1
          exact ⟨h2 _ _ this, fun h0 => by rw [this] at h0; cases h0⟩
        · exact ⟨h3 y, fun _ => le_rfl⟩
      | false =>
        simp only [nanStep, hn, hx, Bool.and_false, Bool.false_eq_true, if_false]
        refine ⟨by rw [List.getElem?_append_left hb, e1], e2, fun j y hj hy => ?_⟩
        rcases hget j y hj with hj | ⟨rfl, rfl⟩
        · exact e3 j y hj hy
        · exact ⟨hx, fun _ => hb.le⟩

theorem nanArg_found (h1 : ∀ x b y, better x b = true → better y b = false → better x y = true)
    (h2 : ∀ x y, better x y = true → better y x = false) (h3 : ∀ x, better x x = false) : ∀ (xs pre : List F) (best : Option (Nat × F)),
    Found nan better pre best → Found nan better (pre ++ xs) (nanArg nan better pre.length best xs)
  | [], pre, best, h => by simpa [nanArg] using h
  | x :: xs, pre, best, h => by
    have := nanArg_found h1 h2 h3 xs (pre ++ [x]) _ (found_step h1 h2 h3 h x)
    rw [List.append_assoc, List.singleton_append, List.length_append] at this
    exact this

/-- The best value and its place. -/
theorem nanArg_best (h1 : ∀ x b y, better x b = true → better y b = false → better x y = true)
    (h2 : ∀ x y, better x y = true → better y x = false) (h3 : ∀ x, better x x = false) {v : NArr F} (hwf : v.WF)
    (hv : ∃ idx y, v.get? idx = some y ∧ nan y = false) :
    ∃ b, nanArg nan better 0 none v.data = some b ∧ inRange v.shape (unravel v.shape b.1) = true ∧
      IsBest nan (fun x y => better x y = true) v b.2 (unravel v.shape b.1) := by
  have hf := nanArg_found (nan := nan) h1 h2 h3 v.data [] none (by simp [Found])
  simp only [List.nil_append, List.length_nil] at hf
  have hget : ∀ idx y, v.get? idx = some y → inRange v.shape idx = true ∧ v.data[ravel v.shape idx]? = some y := by
    intro idx y h
    have hr := NArr.inRange_of_get? h
    simp only [NArr.get?, hr, if_true] at h
    exact ⟨hr, h⟩
  cases hb : nanArg nan better 0 none v.data with
  | none =>
    rw [hb] at hf
    obtain ⟨idx, y, hy, hn⟩ := hv
    have := hf y (List.mem_of_getElem? (hget idx y hy).2)
    rw [hn] at this; cases this
  | some b =>
    rw [hb] at hf
    obtain ⟨e1, e2, e3⟩ := hf
    have hlt : b.1 < v.shape.prod := by rw [← hwf]; exact (List.getElem?_eq_some_iff.1 e1).1
    obtain ⟨u1, u2⟩ := unravel_ok v.shape b.1 hlt
    refine ⟨b, rfl, u1, ?_, e2, fun idx y hy hn => ?_⟩
    · simp only [NArr.get?, u1, if_true, u2, e1]
    · obtain ⟨g1, g2⟩ := hget idx y hy
      obtain ⟨k1, k2⟩ := e3 _ y g2 hn
      refine ⟨by simp [k1], ?_⟩
      rintro rfl hlt'
      have := ravel_lt_of_lt g1 u1 hlt'
      rw [u2] at this
      have := k2 (h3 _)
      omega

end

/-- Joining lines of which the first end with a line end and the last begin with one. -/
theorem intercalate_lines (l : List Char) (sep : List Char) (B : List (List Char)) : ∀ A : List (List Char),
    List.intercalate sep (A ++ l :: B) = (A.flatMap fun x => x ++ sep) ++ l ++ B.flatMap fun x => sep ++ x
  | [] => by
    induction B generalizing l with
    | nil => simp [List.intercalate]
    | cons b B ih =>
      have := ih b
      simp only [List.nil_append, List.flatMap_nil] at this ⊢
      rw [List.intercalate_cons_cons, this]
      simp
  | a :: A => by
    have := intercalate_lines l sep B A
    have hne : A ++ l :: B ≠ [] := by simp
    obtain ⟨y, ys, hy⟩ := List.exists_cons_of_ne_nil hne
    rw [List.cons_append, hy, List.intercalate_cons_cons, ← hy, this]
    simp

end Pgkyl.Text
