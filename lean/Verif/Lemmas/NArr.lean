import Verif.Model.NArr
import Mathlib.Tactic.Common
import Mathlib.Algebra.BigOperators.Group.List.Basic
import Mathlib.Data.List.Forall2
import Mathlib.Data.List.Nodup
import Mathlib.Tactic.Ring
/-! # Lemmas about N-dimensional arrays -/

namespace Pgkyl

theorem inRange_iff_forall₂ {shape idx : List Nat} :
    inRange shape idx = true ↔ List.Forall₂ (· < ·) idx shape := by
  induction shape generalizing idx with
  | nil => cases idx <;> simp [inRange]
  | cons n ns ih => cases idx <;> simp [inRange, ih]

theorem inRange_length {shape idx : List Nat} (h : inRange shape idx = true) :
    idx.length = shape.length := (inRange_iff_forall₂.1 h).length_eq

theorem mem_indices {shape idx : List Nat} : idx ∈ indices shape ↔ inRange shape idx = true := by
  induction shape generalizing idx with
  | nil => cases idx <;> simp [indices, inRange]
  | cons n ns ih =>
    cases idx with
    | nil => simp [indices, inRange]
    | cons i is => simp [indices, inRange, ih]

theorem ravel_lt {shape idx : List Nat} (h : inRange shape idx = true) :
    ravel shape idx < shape.prod := by
  induction shape generalizing idx with
  | nil => cases idx <;> simp [inRange, ravel] at *
  | cons n ns ih =>
    cases idx with
    | nil => simp [inRange] at h
    | cons i is =>
      simp only [inRange, Bool.and_eq_true, decide_eq_true_eq] at h
      have := ih h.2
      simp only [ravel, List.prod_cons]
      calc i * ns.prod + ravel ns is < i * ns.prod + ns.prod := by omega
        _ = (i + 1) * ns.prod := by ring
        _ ≤ n * ns.prod := Nat.mul_le_mul_right _ h.1

theorem length_indices (shape : List Nat) : (indices shape).length = shape.prod := by
  induction shape with
  | nil => rfl
  | cons n ns ih => simp [indices, List.length_flatMap, ih]

/-- element `i*m + k` of a concatenation of `n` lists of equal length `m` -/
theorem getElem?_flatMap_range {β : Type*} (g : Nat → List β) (m : Nat) :
    ∀ (n : Nat), (∀ i, i < n → (g i).length = m) → ∀ i k, i < n → k < m →
      ((List.range n).flatMap g)[i * m + k]? = (g i)[k]? := by
  intro n
  induction n with
  | zero => intro _ i k h; omega
  | succ n ih =>
    intro hlen i k hi hk
    rw [List.range_succ, List.flatMap_append]
    have hl : ((List.range n).flatMap g).length = n * m := by
      have : ∀ n', n' ≤ n → ((List.range n').flatMap g).length = n' * m := by
        intro n' hn'
        induction n' with
        | zero => simp
        | succ n' ih' =>
          rw [List.range_succ, List.flatMap_append, List.length_append, ih' (by omega)]
          simp [hlen n' (by omega)]; ring
      exact this n le_rfl
    rcases Nat.lt_or_ge i n with h | h
    · rw [List.getElem?_append_left]
      · exact ih (fun j hj => hlen j (by omega)) i k h hk
      · rw [hl]
        calc i * m + k < i * m + m := by omega
          _ = (i + 1) * m := by ring
          _ ≤ n * m := Nat.mul_le_mul_right _ h
    · have : i = n := by omega
      subst this
      rw [List.getElem?_append_right (by rw [hl]; omega), hl]
      simp

theorem indices_getElem? {shape idx : List Nat} (h : inRange shape idx = true) :
    (indices shape)[ravel shape idx]? = some idx := by
  induction shape generalizing idx with
  | nil => cases idx <;> simp [inRange, ravel, indices] at *
  | cons n ns ih =>
    cases idx with
    | nil => simp [inRange] at h
    | cons i is =>
      simp only [inRange, Bool.and_eq_true, decide_eq_true_eq] at h
      simp only [indices, ravel]
      rw [getElem?_flatMap_range (fun i => (indices ns).map (i :: ·)) ns.prod n
        (fun j _ => by simp [length_indices]) i _ h.1 (ravel_lt h.2)]
      simp [ih h.2]

theorem nodup_indices (shape : List Nat) : (indices shape).Nodup := by
  induction shape with
  | nil => simp [indices]
  | cons n ns ih =>
    simp only [indices]
    rw [List.nodup_flatMap]
    refine ⟨fun i _ => ih.map (by intro a b h; simpa using h), ?_⟩
    refine List.Pairwise.imp ?_ (List.nodup_range (n := n))
    intro a b hab
    simp only [Function.onFun, List.disjoint_left, List.mem_map, not_exists, not_and,
      forall_exists_index, and_imp]
    rintro x y _ rfl z _ h
    simp at h; exact hab h.1.symm

theorem ravel_injective {shape i j : List Nat} (hi : inRange shape i = true)
    (hj : inRange shape j = true) (h : ravel shape i = ravel shape j) : i = j := by
  have h1 := indices_getElem? hi
  have h2 := indices_getElem? hj
  rw [h] at h1
  rw [h1] at h2; exact Option.some.inj h2

/-- every position below the size is the position of an index -/
theorem exists_ravel_eq {shape : List Nat} {k : Nat} (h : k < shape.prod) :
    ∃ idx, inRange shape idx = true ∧ ravel shape idx = k := by
  have hk : k < (indices shape).length := by rw [length_indices]; exact h
  refine ⟨(indices shape)[k], mem_indices.1 (List.getElem_mem hk), ?_⟩
  have := indices_getElem? (mem_indices.1 (List.getElem_mem hk))
  obtain ⟨h1, h2⟩ := List.getElem?_eq_some_iff.1 this
  exact (List.nodup_iff_injective_getElem.1 (nodup_indices shape)
    (a₁ := ⟨_, h1⟩) (a₂ := ⟨k, hk⟩) h2 |> fun e => by simpa using e)

namespace NArr
variable {α : Type}

theorem filterMap_all_some {β γ : Type*} (f : β → Option γ) (l : List β)
    (h : ∀ x ∈ l, (f x).isSome) : (l.filterMap f).map some = l.map f := by
  induction l with
  | nil => rfl
  | cons x xs ih =>
    obtain ⟨y, hy⟩ := Option.isSome_iff_exists.1 (h x (by simp))
    simp [hy, ih (fun z hz => h z (by simp [hz]))]

@[simp] theorem ofFn_shape (shape : List Nat) (f : List Nat → Option α) :
    (ofFn shape f).shape = shape := rfl

theorem ofFn_data_map {shape : List Nat} {f : List Nat → Option α}
    (h : ∀ idx, inRange shape idx = true → (f idx).isSome) :
    (ofFn shape f).data.map some = (indices shape).map f :=
  filterMap_all_some f _ (fun x hx => h x (mem_indices.1 hx))

theorem ofFn_WF {shape : List Nat} {f : List Nat → Option α}
    (h : ∀ idx, inRange shape idx = true → (f idx).isSome) : (ofFn shape f).WF := by
  have := congrArg List.length (ofFn_data_map h)
  simpa [WF, length_indices] using this

theorem ofFn_get? {shape : List Nat} {f : List Nat → Option α}
    (h : ∀ idx, inRange shape idx = true → (f idx).isSome) {idx : List Nat}
    (hi : inRange shape idx = true) : (ofFn shape f).get? idx = f idx := by
  have hd := ofFn_data_map h
  have h1 : ((ofFn shape f).data.map some)[ravel shape idx]? = some (f idx) := by
    rw [hd]; simp [indices_getElem? hi]
  rw [List.getElem?_map] at h1
  simp only [get?, ofFn_shape, hi, if_true]
  cases hg : (ofFn shape f).data[ravel shape idx]? with
  | none => rw [hg] at h1; simp at h1
  | some v => rw [hg] at h1; simpa using h1

theorem get?_isSome {a : NArr α} (hw : a.WF) {idx : List Nat} (h : inRange a.shape idx = true) :
    (a.get? idx).isSome := by
  simp only [get?, h, if_true]
  rw [List.getElem?_eq_getElem (by rw [hw]; exact ravel_lt h)]; rfl

theorem get?_eq_none {a : NArr α} {idx : List Nat} (h : ¬ inRange a.shape idx = true) :
    a.get? idx = none := by simp [get?, h]

theorem inRange_of_get? {a : NArr α} {idx : List Nat} {x : α} (h : a.get? idx = some x) :
    inRange a.shape idx = true := by
  by_contra hc; rw [get?_eq_none hc] at h; cases h

/-- Arrays are determined by shape and elements. -/
theorem ext_get? {a b : NArr α} (ha : a.WF) (hb : b.WF) (hs : a.shape = b.shape)
    (h : ∀ idx, inRange a.shape idx = true → a.get? idx = b.get? idx) : a = b := by
  obtain ⟨sa, da⟩ := a
  obtain ⟨sb, db⟩ := b
  simp only at hs; subst hs
  simp only [WF] at ha hb
  congr 1
  apply List.ext_getElem?
  intro k
  rcases Nat.lt_or_ge k sa.prod with hk | hk
  · obtain ⟨idx, hi, rfl⟩ := exists_ravel_eq hk
    have := h idx hi
    simpa [get?, hi] using this
  · rw [List.getElem?_eq_none (by omega), List.getElem?_eq_none (by omega)]

@[simp] theorem ofList_shape (l : List α) : (ofList l).shape = [l.length] := rfl

theorem ofList_WF (l : List α) : (ofList l).WF := by simp [WF, ofList]

theorem ofList_get? (l : List α) (i : Nat) : (ofList l).get? [i] = l[i]? := by
  simp only [get?, ofList, inRange, ravel, Bool.and_true, decide_eq_true_eq, List.prod_nil,
    Nat.mul_one, Nat.add_zero]
  split
  · rfl
  · rw [List.getElem?_eq_none (by omega)]

end NArr

end Pgkyl
