import Verif.Model.NumOps
import Verif.Lemmas.NArr
/-! # Lemmas on broadcasting -/

namespace Pgkyl

theorem bcastRev_self : ∀ s : List Nat, bcastRev s s = some s
  | [] => rfl
  | x :: xs => by simp [bcastRev, bcastRev_self xs]

theorem bcastShape_self (s : List Nat) : bcastShape s s = some s := by
  simp [bcastShape, bcastRev_self]

theorem bcastShape_nil_left (s : List Nat) : bcastShape [] s = some s := by
  simp [bcastShape, bcastRev]

theorem bcastShape_nil_right (s : List Nat) : bcastShape s [] = some s := by
  have : bcastRev s.reverse [] = some s.reverse := by
    cases s.reverse <;> simp [bcastRev]
  simp [bcastShape, this]

theorem inRange_reverse {s idx : List Nat} (h : inRange s idx = true) :
    inRange s.reverse idx.reverse = true := by
  rw [inRange_iff_forall₂] at h ⊢
  exact List.rel_reverse h

theorem bcastIdxRev_self : ∀ {s idx : List Nat}, inRange s idx = true → bcastIdxRev s idx = idx
  | [], [], _ => rfl
  | [], _ :: _, h => by simp [inRange] at h
  | _ :: _, [], h => by simp [inRange] at h
  | n :: ns, i :: is, h => by
    simp only [inRange, Bool.and_eq_true, decide_eq_true_eq] at h
    simp only [bcastIdxRev, bcastIdxRev_self h.2]
    congr 1
    split
    · omega
    · rfl

theorem bcastIdx_self {s idx : List Nat} (h : inRange s idx = true) : bcastIdx s idx = idx := by
  rw [bcastIdx, bcastIdxRev_self (inRange_reverse h), List.reverse_reverse]

theorem bcastIdx_nil (idx : List Nat) : bcastIdx [] idx = [] := by
  simp [bcastIdx, bcastIdxRev]

namespace NArr
variable {α β γ : Type}

theorem get?_scalar (a : NArr α) {x : α} (hs : a.shape = []) (hd : a.data = [x]) : a.get? [] = some x := by
  simp [get?, hs, hd, inRange, ravel]

theorem map1_WF {f : α → β} {a : NArr α} (h : a.WF) : (a.map1 f).WF := by
  simpa [map1, WF] using h

theorem map1_get? (f : α → β) (a : NArr α) (idx : List Nat) :
    (a.map1 f).get? idx = (a.get? idx).map f := by
  by_cases h : inRange a.shape idx = true
  · simp only [get?, map1, h, if_true, List.getElem?_map]
  · simp only [get?, map1, h, Bool.false_eq_true, if_false, Option.map_none]

/-- The general form: the result is pointwise when both index maps land in the arrays. -/
theorem zip2_ok {f : α → β → γ} {a : NArr α} {b : NArr β} {s : List Nat}
    (hs : bcastShape a.shape b.shape = some s) (ha : a.WF) (hb : b.WF)
    (hia : ∀ idx, inRange s idx = true → inRange a.shape (bcastIdx a.shape idx) = true)
    (hib : ∀ idx, inRange s idx = true → inRange b.shape (bcastIdx b.shape idx) = true) :
    ∃ c, zip2 f a b = .ok c ∧ c.shape = s ∧ c.WF ∧
      ∀ idx, inRange s idx = true → c.get? idx = (do
        let x ← a.get? (bcastIdx a.shape idx)
        let y ← b.get? (bcastIdx b.shape idx)
        return f x y) := by
  have hsome : ∀ idx, inRange s idx = true → ((do
        let x ← a.get? (bcastIdx a.shape idx)
        let y ← b.get? (bcastIdx b.shape idx)
        return f x y) : Option γ).isSome := by
    intro idx h
    obtain ⟨x, hx⟩ := Option.isSome_iff_exists.1 (get?_isSome ha (hia idx h))
    obtain ⟨y, hy⟩ := Option.isSome_iff_exists.1 (get?_isSome hb (hib idx h))
    simp [hx, hy]
  refine ⟨_, by simp only [zip2, hs], rfl, ofFn_WF hsome, fun idx h => ?_⟩
  exact ofFn_get? hsome h

end NArr
end Pgkyl
