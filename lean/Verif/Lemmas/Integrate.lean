import Verif.Model.Integrate
import Verif.Spec.Integrate
import Verif.Lemmas.NumOps
import Verif.Lemmas.Store
import Mathlib.Tactic.Ring
import Mathlib.Data.List.Sort
import Mathlib.Algebra.BigOperators.Ring.List
/-! # Lemmas on integration -/

namespace Pgkyl
namespace Integ
open Spec EvCmd

/-! ## Lists -/

theorem insertAt_zero {α : Type} (x : α) (l : List α) : insertAt 0 x l = x :: l := by simp [insertAt]

theorem insertAt_succ {α : Type} (a : Nat) (x y : α) (l : List α) :
    insertAt (a + 1) x (y :: l) = y :: insertAt a x l := by simp [insertAt]

theorem insertAt_get_lt {α : Type} {a d : Nat} (x : α) (h : d < a) : ∀ {l : List α}, a ≤ l.length →
    (insertAt a x l)[d]? = l[d]? := by
  intro l hl
  rw [insertAt, List.getElem?_append_left (by simp; omega), List.getElem?_take_of_lt h]

theorem insertAt_get_eq {α : Type} {a : Nat} (x : α) {l : List α} (hl : a ≤ l.length) :
    (insertAt a x l)[a]? = some x := by
  rw [insertAt, List.getElem?_append_right (by simp)]
  simp [Nat.min_eq_left hl]

theorem insertAt_get_gt {α : Type} {a d : Nat} (x : α) {l : List α} (hl : a ≤ l.length) (h : a ≤ d) :
    (insertAt a x l)[d + 1]? = l[d]? := by
  rw [insertAt, List.getElem?_append_right (by simp; omega)]
  simp only [List.length_take, Nat.min_eq_left hl]
  rw [show d + 1 - a = (d - a) + 1 by omega, List.getElem?_cons_succ, List.getElem?_drop]
  congr 1; omega

theorem erase_get_lt {α : Type} {a d : Nat} (l : List α) (h : d < a) : (l.eraseIdx a)[d]? = l[d]? := by
  rw [List.getElem?_eraseIdx, if_pos h]

theorem erase_get_ge {α : Type} {a d : Nat} (l : List α) (h : a ≤ d) : (l.eraseIdx a)[d]? = l[d + 1]? := by
  rw [List.getElem?_eraseIdx, if_neg (by omega)]

theorem insertAt_erase {α : Type} {a : Nat} {x : α} {l : List α} (h : l[a]? = some x) :
    insertAt a x (l.eraseIdx a) = l := by
  have hlt := (List.getElem?_eq_some_iff.1 h).1
  have hle : a ≤ (l.eraseIdx a).length := by rw [List.length_eraseIdx]; split <;> omega
  refine List.ext_getElem? fun d => ?_
  rcases Nat.lt_trichotomy d a with hd | rfl | hd
  · rw [insertAt_get_lt _ hd hle, erase_get_lt _ hd]
  · rw [insertAt_get_eq _ hle, h]
  · obtain ⟨d, rfl⟩ : ∃ e, d = e + 1 := ⟨d - 1, by omega⟩
    rw [insertAt_get_gt _ hle (by omega), erase_get_ge _ (by omega)]

theorem erase_insertAt {α : Type} {a : Nat} (x : α) {l : List α} (h : a ≤ l.length) :
    (insertAt a x l).eraseIdx a = l := by
  refine List.ext_getElem? fun d => ?_
  rcases Nat.lt_or_ge d a with hd | hd
  · rw [erase_get_lt _ hd, insertAt_get_lt _ hd h]
  · rw [erase_get_ge _ hd, insertAt_get_gt _ h hd]

theorem length_insertAt {α : Type} {a : Nat} (x : α) {l : List α} (h : a ≤ l.length) :
    (insertAt a x l).length = l.length + 1 := by
  simp [insertAt]; omega

/-! ## Index ranges -/

theorem inRange_get {sh idx : List Nat} : inRange sh idx = true ↔
    idx.length = sh.length ∧ ∀ (d : Nat) (i n : Nat), idx[d]? = some i → sh[d]? = some n → i < n := by
  rw [inRange_iff_forall₂, List.forall₂_iff_get]
  constructor
  · rintro ⟨h1, h2⟩
    refine ⟨h1, fun d i n hi hn => ?_⟩
    obtain ⟨p, rfl⟩ := List.getElem?_eq_some_iff.1 hi
    obtain ⟨q, rfl⟩ := List.getElem?_eq_some_iff.1 hn
    exact h2 d p q
  · rintro ⟨h1, h2⟩
    exact ⟨h1, fun d p q => h2 d _ _ (List.getElem?_eq_getElem p) (List.getElem?_eq_getElem q)⟩

theorem inRange_insertAt {sh r : List Nat} {a n k : Nat} (hn : sh[a]? = some n) (hk : k < n) :
    inRange sh (insertAt a k r) = true ↔ a ≤ r.length ∧ inRange (sh.eraseIdx a) r = true := by
  have hlt := (List.getElem?_eq_some_iff.1 hn).1
  constructor
  · intro h
    obtain ⟨h1, h2⟩ := inRange_get.1 h
    have hl : a ≤ r.length := by
      by_contra hc
      simp only [insertAt, List.length_append, List.length_take, List.length_cons, List.length_drop] at h1
      omega
    refine ⟨hl, inRange_get.2 ⟨?_, fun d i m hi hm => ?_⟩⟩
    · rw [length_insertAt _ hl] at h1
      rw [List.length_eraseIdx_of_lt hlt]; omega
    · rcases Nat.lt_or_ge d a with hd | hd
      · exact h2 d i m (by rw [insertAt_get_lt _ hd hl, hi]) (by rw [← erase_get_lt _ hd, hm])
      · exact h2 (d + 1) i m (by rw [insertAt_get_gt _ hl hd, hi]) (by rw [← erase_get_ge _ hd, hm])
  · rintro ⟨hl, h⟩
    obtain ⟨h1, h2⟩ := inRange_get.1 h
    rw [List.length_eraseIdx_of_lt hlt] at h1
    refine inRange_get.2 ⟨by rw [length_insertAt _ hl]; omega, fun d i m hi hm => ?_⟩
    rcases Nat.lt_trichotomy d a with hd | rfl | hd
    · exact h2 d i m (by rw [← insertAt_get_lt k hd hl, hi]) (by rw [erase_get_lt _ hd, hm])
    · rw [insertAt_get_eq _ hl] at hi
      rw [hn] at hm
      obtain rfl := Option.some.inj hi
      obtain rfl := Option.some.inj hm
      exact hk
    · obtain ⟨d, rfl⟩ : ∃ e, d = e + 1 := ⟨d - 1, by omega⟩
      exact h2 d i m (by rw [← insertAt_get_gt k hl (by omega), hi]) (by rw [erase_get_ge _ (by omega), hm])

/-- Every index is an index of the other axes with an entry inserted. -/
theorem indices_insert {sh : List Nat} {a n : Nat} (hn : sh[a]? = some n) :
    (indices sh).Perm ((indices (sh.eraseIdx a)).flatMap fun r => (List.range n).map fun k => insertAt a k r) := by
  have hlt := (List.getElem?_eq_some_iff.1 hn).1
  have hlen : ∀ r ∈ indices (sh.eraseIdx a), a ≤ r.length := fun r hr => by
    have := inRange_length (mem_indices.1 hr)
    rw [List.length_eraseIdx_of_lt hlt] at this; omega
  rw [List.perm_ext_iff_of_nodup (nodup_indices _)]
  · intro i
    rw [mem_indices, List.mem_flatMap]
    constructor
    · intro h
      have hl := inRange_length h
      have hi : i[a]? = some i[a] := List.getElem?_eq_getElem (by omega)
      have hk := (inRange_get.1 h).2 a _ _ hi hn
      have := insertAt_erase hi
      refine ⟨i.eraseIdx a, ?_, List.mem_map.2 ⟨_, List.mem_range.2 hk, this⟩⟩
      rw [mem_indices]
      rw [← this] at h
      exact ((inRange_insertAt hn hk).1 h).2
    · rintro ⟨r, hr, hm⟩
      obtain ⟨k, hk, rfl⟩ := List.mem_map.1 hm
      rw [inRange_insertAt hn (List.mem_range.1 hk)]
      exact ⟨hlen r hr, mem_indices.1 hr⟩
  · rw [List.nodup_flatMap]
    refine ⟨fun r hr => ?_, ?_⟩
    · refine List.Nodup.map_on ?_ List.nodup_range
      intro x _ y _ hxy
      have := insertAt_get_eq (a := a) x (hlen r hr)
      rw [hxy, insertAt_get_eq _ (hlen r hr)] at this
      exact (Option.some.inj this).symm
    · refine (nodup_indices _).imp_of_mem ?_
      intro r r' hr hr' hne
      simp only [Function.onFun, List.disjoint_left, List.mem_map, not_exists, not_and]
      rintro x ⟨k, hk, rfl⟩ k' hk' h
      have := congrArg (fun l => l.eraseIdx a) h
      simp only [erase_insertAt _ (hlen r hr), erase_insertAt _ (hlen r' hr')] at this
      exact hne this.symm

theorem filter_eq_single {x : List Nat} {L : List (List Nat)} (hm : x ∈ L) (hnd : L.Nodup) :
    L.filter (fun i => i == x) = [x] := by
  induction L with
  | nil => simp at hm
  | cons y L ih =>
    rw [List.nodup_cons] at hnd
    by_cases hy : y = x
    · subst hy
      rw [List.filter_cons_of_pos (by simp)]
      congr 1
      rw [List.filter_eq_nil_iff]
      intro z hz hzy
      exact hnd.1 ((beq_iff_eq.1 hzy) ▸ hz)
    · rw [List.filter_cons_of_neg (by simpa using hy)]
      exact ih ((List.mem_cons.1 hm).resolve_left fun h => hy h.symm) hnd.2

section
variable {F : Type} [CommRing F]

theorem sum_filter_map {α : Type} (l : List α) (p : α → Bool) (f : α → F) :
    ((l.filter p).map f).sum = (l.map fun x => if p x then f x else 0).sum := by
  induction l with
  | nil => rfl
  | cons a l ih =>
    cases h : p a with
    | true => simp [List.filter_cons_of_pos (p := p) h, ih, h]
    | false => simp [List.filter_cons_of_neg (p := p) (a := a) (by simp [h]), ih, h]

theorem sum_flatMap {α β : Type} (l : List α) (g : α → List β) (f : β → F) :
    ((l.flatMap g).map f).sum = (l.map fun x => ((g x).map f).sum).sum := by
  induction l with
  | nil => rfl
  | cons a l ih => simp [List.flatMap_cons, ih]

theorem foldl_sum (l : List F) : l.foldl (· + ·) 0 = l.sum := by
  rw [List.sum_eq_foldl]

/-- Summing over one axis more. -/
theorem cellSum_cons {sh : List Nat} {a n : Nat} (hn : sh[a]? = some n) (v : List Nat → F) (w : Nat → Nat → F)
    {as : List Nat} (has : ∀ b ∈ as, b < a) (idx : List Nat) (hidx : idx.length = sh.length) :
    cellSum sh v w (a :: as) idx =
      cellSum (sh.eraseIdx a) (fun r => ((List.range n).map fun k => v (insertAt a k r) * w a k).sum) w as
        (idx.eraseIdx a) := by
  have hlt := (List.getElem?_eq_some_iff.1 hn).1
  have hlen : ∀ r ∈ indices (sh.eraseIdx a), r.length + 1 = sh.length := fun r hr => by
    have := inRange_length (mem_indices.1 hr)
    rw [List.length_eraseIdx_of_lt hlt] at this; omega
  unfold cellSum
  rw [sum_filter_map, sum_filter_map, ((indices_insert hn).map _).sum_eq, sum_flatMap]
  congr 1
  refine List.map_congr_left fun r hr => ?_
  have hl := hlen r hr
  have hle : a ≤ r.length := by omega
  simp only [List.map_map]
  have hcond : ∀ k : Nat, (∀ d < sh.length, d ∉ a :: as → (insertAt a k r)[d]? = idx[d]?) ↔
      ∀ d < (sh.eraseIdx a).length, d ∉ as → r[d]? = (idx.eraseIdx a)[d]? := by
    intro k
    rw [List.length_eraseIdx_of_lt hlt]
    constructor
    · intro h d hd hda
      rcases Nat.lt_or_ge d a with hd' | hd'
      · rw [erase_get_lt _ hd', ← insertAt_get_lt k hd' hle]
        exact h d (by omega) (by simp only [List.mem_cons, not_or]; exact ⟨by omega, hda⟩)
      · rw [erase_get_ge _ hd', ← insertAt_get_gt k hle hd']
        refine h (d + 1) (by omega) ?_
        simp only [List.mem_cons, not_or]
        exact ⟨by omega, fun hm => by have := has _ hm; omega⟩
    · intro h d hd hda
      simp only [List.mem_cons, not_or] at hda
      rcases Nat.lt_trichotomy d a with hd' | hd' | hd'
      · rw [insertAt_get_lt _ hd' hle, ← erase_get_lt idx hd']
        exact h d (by omega) hda.2
      · exact absurd hd' hda.1
      · obtain ⟨d, rfl⟩ : ∃ e, d = e + 1 := ⟨d - 1, by omega⟩
        rw [insertAt_get_gt _ hle (Nat.le_of_lt_succ hd'), ← erase_get_ge idx (Nat.le_of_lt_succ hd')]
        exact h d (by omega) (fun hm => by have := has _ hm; omega)
  have hprod : ∀ k : Nat, (as.map fun b => w b ((insertAt a k r).getD b 0)) = as.map fun b => w b (r.getD b 0) := by
    intro k
    refine List.map_congr_left fun b hb => ?_
    rw [List.getD_eq_getElem?_getD, insertAt_get_lt _ (has b hb) hle, ← List.getD_eq_getElem?_getD]
  have hka : ∀ k : Nat, (insertAt a k r).getD a 0 = k := fun k => by
    rw [List.getD_eq_getElem?_getD, insertAt_get_eq _ hle]; rfl
  simp only [Function.comp_def, hcond, List.map_cons, List.prod_cons, hprod, hka]
  by_cases hP : ∀ d < (sh.eraseIdx a).length, d ∉ as → r[d]? = (idx.eraseIdx a)[d]?
  · simp only [decide_eq_true hP, if_true]
    rw [← List.sum_map_mul_right]
    congr 1
    exact List.map_congr_left fun k _ => by ring
  · simp only [decide_eq_false hP, Bool.false_eq_true, if_false]
    simp

/-- The loop contracting the axes, last first. -/
theorem contract_loop (step : NArr F → Nat → Except Err (NArr F)) (N : Nat → Nat) (W : Nat → List F)
    : ∀ (D : List Nat) (v : NArr F), (∀ a ∈ D, (W a).length = N a) → D.Pairwise (· > ·) → v.WF →
    (∀ a ∈ D, v.shape[a]? = some (N a)) →
    (∀ a ∈ D, ∀ v : NArr F, v.WF → v.shape[a]? = some (N a) → step v a = contract v a (W a)) →
    ∃ r, D.foldlM step v = .ok r ∧ r.WF ∧ r.shape = D.foldl List.eraseIdx v.shape ∧
      ∀ idx : List Nat, idx.length = v.shape.length → inRange r.shape (D.foldl List.eraseIdx idx) = true →
        r.get? (D.foldl List.eraseIdx idx) =
          some (cellSum v.shape (entry v) (fun a i => (W a).getD i 0) D idx)
  | [], v, _, _, hv, _, _ => by
    refine ⟨v, rfl, hv, rfl, fun idx hidx hr => ?_⟩
    simp only [List.foldl_nil] at hr ⊢
    have hs := NArr.get?_isSome hv hr
    obtain ⟨x, hx⟩ := Option.isSome_iff_exists.1 hs
    rw [hx]
    congr 1
    unfold cellSum
    have hfil : (indices v.shape).filter
        (fun i => decide (∀ d < v.shape.length, d ∉ ([] : List Nat) → i[d]? = idx[d]?)) = [idx] := by
      have : ∀ i ∈ indices v.shape, decide (∀ d < v.shape.length, d ∉ ([] : List Nat) → i[d]? = idx[d]?) = (i == idx) := by
        intro i hi
        have hl := inRange_length (mem_indices.1 hi)
        rw [Bool.eq_iff_iff, decide_eq_true_eq, beq_iff_eq]
        constructor
        · intro h
          refine List.ext_getElem? fun d => ?_
          by_cases hd : d < v.shape.length
          · exact h d hd (by simp)
          · rw [List.getElem?_eq_none (by omega), List.getElem?_eq_none (by omega)]
        · rintro rfl d _ _; rfl
      rw [List.filter_congr this]
      exact filter_eq_single (mem_indices.2 hr) (nodup_indices v.shape)
    rw [hfil]
    simp [entry, hx]
  | a :: D, v, hW, hD, hv, hsh, hstep => by
    rw [List.pairwise_cons] at hD
    have hn := hsh a (by simp)
    have hlt := (List.getElem?_eq_some_iff.1 hn).1
    -- one contraction
    have hc : contract v a (W a) = .ok (NArr.ofFn (v.shape.eraseIdx a) fun r =>
        some (((List.range (N a)).map fun k => entry v (insertAt a k r) * (W a).getD k 0).sum)) := by
      simp only [contract, hn]
      rw [if_neg (by rw [hW a (by simp)]; simp)]
      have hfn : ∀ r ∈ indices (v.shape.eraseIdx a), (((List.range (N a)).filterMap fun i => do
          let x ← v.get? (insertAt a i r)
          let w ← (W a)[i]?
          return x * w).foldl (· + ·) 0) =
          ((List.range (N a)).map fun k => entry v (insertAt a k r) * (W a).getD k 0).sum := by
        intro r hr
        rw [foldl_sum]
        congr 1
        rw [← List.filterMap_eq_map]
        refine List.filterMap_congr fun k hk => ?_
        have hk := List.mem_range.1 hk
        have hrl := inRange_length (mem_indices.1 hr)
        rw [List.length_eraseIdx_of_lt hlt] at hrl
        have hin := (inRange_insertAt hn hk).2 ⟨by omega, mem_indices.1 hr⟩
        obtain ⟨x, hx⟩ := Option.isSome_iff_exists.1 (NArr.get?_isSome hv hin)
        have hw : (W a)[k]? = some ((W a).getD k 0) := by
          rw [List.getD_eq_getElem?_getD, List.getElem?_eq_getElem (by rw [hW a (by simp)]; exact hk)]; rfl
        simp only [hx, hw, entry, bind, Option.bind, pure, Function.comp, Option.getD_some]
      congr 1
      unfold NArr.ofFn
      congr 1
      refine List.filterMap_congr fun r hr => ?_
      rw [hfn r hr]
    set v1 := NArr.ofFn (v.shape.eraseIdx a) fun r =>
        some (((List.range (N a)).map fun k => entry v (insertAt a k r) * (W a).getD k 0).sum) with hv1
    have hv1s : v1.shape = v.shape.eraseIdx a := rfl
    have hv1w : v1.WF := NArr.ofFn_WF (by intro i hi; rfl)
    obtain ⟨r, h1, h2, h3, h4⟩ := contract_loop step N W D v1 (fun b hb => hW b (by simp [hb])) hD.2 hv1w
      (fun b hb => by rw [hv1s, erase_get_lt _ (hD.1 b hb)]; exact hsh b (by simp [hb]))
      (fun b hb => hstep b (by simp [hb]))
    refine ⟨r, ?_, h2, by rw [h3, hv1s]; rfl, fun idx hidx hr => ?_⟩
    · rw [Space.foldlM_ok_cons, hstep a (by simp) v hv hn, hc]
      exact h1
    · simp only [List.foldl_cons] at hr ⊢
      rw [h4 (idx.eraseIdx a) (by
        rw [hv1s, List.length_eraseIdx_of_lt hlt, List.length_eraseIdx_of_lt (by omega)]; omega) hr]
      rw [cellSum_cons hn _ _ hD.1 idx hidx, hv1s]
      congr 1
      unfold cellSum
      congr 1
      refine List.map_congr_left fun i hi => ?_
      have hi' := mem_indices.1 (List.mem_filter.1 hi).1
      congr 1
      simp only [entry]
      rw [hv1, NArr.ofFn_get? (by intro i hi; rfl) hi']
      rfl

end

/-! ## Sorting -/

theorem sortDesc_mem {l : List Nat} {a : Nat} : a ∈ sortDesc l ↔ a ∈ l := (List.mergeSort_perm _ _).mem_iff

theorem sortDesc_pairwise {l : List Nat} (h : l.Nodup) : (sortDesc l).Pairwise (· > ·) := by
  have h1 : (sortDesc l).Pairwise (fun a b => decide (b ≤ a) = true) :=
    List.pairwise_mergeSort (by intro a b c; simp; omega) (by intro a b; simp; omega) l
  have h2 : (sortDesc l).Nodup := (List.mergeSort_perm l _).nodup_iff.2 h
  rw [List.Nodup] at h2
  refine (h1.and h2).imp ?_
  rintro a b ⟨p, q⟩
  simp only [decide_eq_true_eq] at p
  omega

theorem sortAsc_eq {l : List Nat} : sortAsc l = (sortDesc l).reverse := by
  have h1 : (sortAsc l).Pairwise (fun a b => a ≤ b) := by
    have := List.pairwise_mergeSort (le := fun a b : Nat => decide (a ≤ b)) (by intro a b c; simp; omega) (by intro a b; simp; omega) l
    exact this.imp (by intro a b h; simpa using h)
  have h2 : (sortDesc l).reverse.Pairwise (fun a b => a ≤ b) := by
    rw [List.pairwise_reverse]
    have := List.pairwise_mergeSort (le := fun a b : Nat => decide (b ≤ a)) (by intro a b c; simp; omega) (by intro a b; simp; omega) l
    exact this.imp (by intro a b h; simpa using h)
  have hp : (sortAsc l).Perm (sortDesc l).reverse :=
    (List.mergeSort_perm l _).trans ((List.mergeSort_perm l _).symm.trans (List.reverse_perm _).symm)
  exact hp.eq_of_pairwise (fun a b _ _ h h' => Nat.le_antisymm h h') h1 h2

theorem sortDesc_perm {l m : List Nat} (h : l.Perm m) : sortDesc l = sortDesc m := by
  have aux : ∀ l : List Nat, (sortDesc l).Pairwise (fun a b => b ≤ a) := fun l => by
    have := List.pairwise_mergeSort (le := fun a b : Nat => decide (b ≤ a)) (by intro a b c; simp; omega) (by intro a b; simp; omega) l
    exact this.imp (by intro a b h; simpa using h)
  have hp : (sortDesc l).Perm (sortDesc m) :=
    (List.mergeSort_perm l _).trans (h.trans (List.mergeSort_perm m _).symm)
  exact hp.eq_of_pairwise (fun a b _ _ h h' => Nat.le_antisymm h' h) (aux l) (aux m)

/-! ## Putting the axes back -/

theorem ravel_insertAt : ∀ {sh idx : List Nat} {a : Nat}, a ≤ sh.length → idx.length = sh.length →
    ravel (insertAt a 1 sh) (insertAt a 0 idx) = ravel sh idx
  | sh, idx, 0, _, _ => by
    rw [insertAt_zero, insertAt_zero]; simp [ravel]
  | n :: sh, i :: idx, a + 1, h, hl => by
    rw [insertAt_succ, insertAt_succ]
    have := ravel_insertAt (sh := sh) (idx := idx) (a := a) (by simpa using h) (by simpa using hl)
    have hp : (insertAt a 1 sh).prod = sh.prod := by
      simp only [insertAt, List.prod_append, List.prod_cons, one_mul]
      rw [← List.prod_append, List.take_append_drop]
    simp only [ravel, this, hp]
  | [], _, _ + 1, h, _ => by simp at h
  | _ :: _, [], _ + 1, _, h => by simp at h

theorem inRange_insertAt_one {sh idx : List Nat} {a : Nat} (ha : a ≤ sh.length) :
    inRange (insertAt a 1 sh) idx = true ↔ idx[a]? = some 0 ∧ inRange sh (idx.eraseIdx a) = true := by
  have hn : (insertAt a 1 sh)[a]? = some 1 := insertAt_get_eq _ ha
  constructor
  · intro h
    have hl := inRange_length h
    rw [length_insertAt _ ha] at hl
    have hi : idx[a]? = some idx[a] := List.getElem?_eq_getElem (by omega)
    have hk := (inRange_get.1 h).2 a _ _ hi hn
    rw [← insertAt_erase hi, inRange_insertAt hn hk, erase_insertAt _ ha] at h
    exact ⟨by rw [hi]; congr 1; omega, h.2⟩
  · rintro ⟨h0, h⟩
    rw [← insertAt_erase h0, inRange_insertAt hn (by omega), erase_insertAt _ ha]
    have := inRange_length h
    exact ⟨by omega, h⟩

theorem expandDims_WF {F : Type} {v : NArr F} {a : Nat} (h : v.WF) : (expandDims v a).WF := by
  simp only [NArr.WF, expandDims] at h ⊢
  rw [h]
  simp only [insertAt, List.prod_append, List.prod_cons, one_mul]
  rw [← List.prod_append, List.take_append_drop]

theorem expandDims_get? {F : Type} {v : NArr F} {a : Nat} (ha : a ≤ v.shape.length) {idx : List Nat}
    (h : inRange (insertAt a 1 v.shape) idx = true) : (expandDims v a).get? idx = v.get? (idx.eraseIdx a) := by
  obtain ⟨h0, h1⟩ := (inRange_insertAt_one ha).1 h
  have hl := inRange_length h1
  simp only [NArr.get?, expandDims, h, h1, if_true]
  rw [← ravel_insertAt ha hl, insertAt_erase h0]

theorem collapsed_get (A sh : List Nat) (d : Nat) :
    (collapsed A sh)[d]? = sh[d]?.map fun n => if d ∈ A then 1 else n := by
  simp [collapsed]

theorem collapsed_length (A sh : List Nat) : (collapsed A sh).length = sh.length := by simp [collapsed]

theorem collapsed_cons {a : Nat} {D sh : List Nat} (ha : a < sh.length) (hD : ∀ b ∈ D, b < a) :
    insertAt a 1 (collapsed D (sh.eraseIdx a)) = collapsed (a :: D) sh := by
  have hle : a ≤ (collapsed D (sh.eraseIdx a)).length := by
    rw [collapsed_length, List.length_eraseIdx_of_lt ha]; omega
  refine List.ext_getElem? fun d => ?_
  rcases Nat.lt_trichotomy d a with hd | rfl | hd
  · rw [insertAt_get_lt _ hd hle, collapsed_get, collapsed_get, erase_get_lt _ hd]
    simp [show d ≠ a by omega]
  · rw [insertAt_get_eq _ hle, collapsed_get, List.getElem?_eq_getElem ha]
    simp
  · obtain ⟨d, rfl⟩ : ∃ e, d = e + 1 := ⟨d - 1, by omega⟩
    rw [insertAt_get_gt _ hle (by omega), collapsed_get, collapsed_get, erase_get_ge _ (by omega)]
    congr 1
    funext n
    have h1 : d ∉ D := fun h => by have := hD _ h; omega
    have h2 : d + 1 ∉ D := fun h => by have := hD _ h; omega
    simp [h1, h2, show d + 1 ≠ a by omega]

theorem collapsed_nil (sh : List Nat) : collapsed [] sh = sh := by
  refine List.ext_getElem? fun d => ?_
  rw [collapsed_get]; simp

theorem collapsed_congr {A B : List Nat} (h : ∀ a, a ∈ A ↔ a ∈ B) (sh : List Nat) :
    collapsed A sh = collapsed B sh := by simp only [collapsed, h]

theorem inRange_erase : ∀ {D sh idx : List Nat}, D.Pairwise (· > ·) → inRange (collapsed D sh) idx = true →
    (∀ a ∈ D, a < sh.length) → inRange (D.foldl List.eraseIdx sh) (D.foldl List.eraseIdx idx) = true
  | [], sh, idx, _, h, _ => by rwa [collapsed_nil] at h
  | a :: D, sh, idx, hD, h, hlt => by
    rw [List.pairwise_cons] at hD
    have ha := hlt a (by simp)
    rw [← collapsed_cons ha hD.1] at h
    have hle : a ≤ (collapsed D (sh.eraseIdx a)).length := by
      rw [collapsed_length, List.length_eraseIdx_of_lt ha]; omega
    exact inRange_erase (D := D) (sh := sh.eraseIdx a) (idx := idx.eraseIdx a) hD.2 ((inRange_insertAt_one hle).1 h).2 (fun b hb => by
      rw [List.length_eraseIdx_of_lt ha]; have := hD.1 b hb; omega)

/-- The loop putting the axes back, given what one step does to values and grid: `s a` is applied to every value,
`c a` becomes the coordinate. -/
theorem restore_loop {F : Type} (step : List (NArr F) × NArr F → Nat → Except Err (List (NArr F) × NArr F))
    (s : Nat → F → F) (c : Nat → NArr F) : ∀ (D sh : List Nat) (g : List (NArr F)) (v : NArr F),
    D.Pairwise (· > ·) → v.WF → v.shape = D.foldl List.eraseIdx sh → (∀ a ∈ D, a < sh.length ∧ a < g.length) →
    (∀ a ∈ D, ∀ (g' : List (NArr F)) (v' : NArr F), g'.length = g.length → g'[a]? = g[a]? → a ≤ v'.shape.length →
      step (g', v') a = .ok (g'.set a (c a), (expandDims v' a).map1 (s a))) →
    ∃ g' r, D.reverse.foldlM step (g, v) = .ok (g', r) ∧ r.WF ∧ r.shape = collapsed D sh ∧
      g'.length = g.length ∧ (∀ a ∈ D, g'[a]? = some (c a)) ∧ (∀ d, d ∉ D → g'[d]? = g[d]?) ∧
      ∀ idx, inRange r.shape idx = true → r.get? idx =
        (v.get? (D.foldl List.eraseIdx idx)).map fun x => D.foldr s x
  | [], sh, g, v, _, hv, hs, _, _ => by
    refine ⟨g, v, rfl, hv, by rw [hs, collapsed_nil]; rfl, rfl, by simp, by simp, ?_⟩
    intro idx _
    simp
  | a :: D, sh, g, v, hD, hv, hs, hlt, hstep => by
    rw [List.pairwise_cons] at hD
    obtain ⟨ha, hag⟩ := hlt a (by simp)
    obtain ⟨g', r, h1, h2, h3, h4, h5, h6, h7⟩ := restore_loop step s c D (sh.eraseIdx a) g v hD.2 hv hs
      (fun b hb => ⟨by rw [List.length_eraseIdx_of_lt ha]; have := hD.1 b hb; omega, (hlt b (by simp [hb])).2⟩)
      (fun b hb => hstep b (by simp [hb]))
    have hna : a ∉ D := fun h => by have := hD.1 a h; omega
    have hle : a ≤ r.shape.length := by
      rw [h3, collapsed_length, List.length_eraseIdx_of_lt ha]; omega
    have hst := hstep a (by simp) g' r h4 (h6 a hna) hle
    refine ⟨g'.set a (c a), (expandDims r a).map1 (s a), ?_, NArr.map1_WF (expandDims_WF h2), ?_, by simp [h4], ?_, ?_, ?_⟩
    · rw [List.reverse_cons, Space.foldlM_append_ok, h1]
      simp only [List.foldlM_cons, List.foldlM_nil, hst, bind, Except.bind, pure, Except.pure]
    · show insertAt a 1 r.shape = _
      rw [h3, collapsed_cons ha hD.1]
    · intro b hb
      rcases List.mem_cons.1 hb with rfl | hb
      · rw [List.getElem?_set_self (by rw [h4]; exact hag)]
      · rw [List.getElem?_set_ne (by have := hD.1 b hb; omega)]; exact h5 b hb
    · intro d hd
      simp only [List.mem_cons, not_or] at hd
      rw [List.getElem?_set_ne (fun h => hd.1 h.symm)]; exact h6 d hd.2
    · intro idx hidx
      have hidx' : inRange (insertAt a 1 r.shape) idx = true := hidx
      rw [NArr.map1_get?, expandDims_get? hle hidx', h7 _ ((inRange_insertAt_one hle).1 hidx').2]
      simp only [List.foldl_cons, List.foldr_cons, Option.map_map]
      rfl

section
variable {F : Type} [CommRing F]

theorem agree_congr {A B : List Nat} (h : A.Perm B) (n : Nat) (i idx : List Nat) :
    (∀ d < n, d ∉ A → i[d]? = idx[d]?) ↔ ∀ d < n, d ∉ B → i[d]? = idx[d]? := by
  simp only [h.mem_iff]

theorem cellSum_perm {A B : List Nat} (h : A.Perm B) (sh : List Nat) (v : List Nat → F) (w : Nat → Nat → F)
    (idx : List Nat) : cellSum sh v w A idx = cellSum sh v w B idx := by
  unfold cellSum
  simp only [agree_congr h]
  congr 1
  refine List.map_congr_left fun i _ => ?_
  rw [(h.map _).prod_eq]

theorem cellSum_weights {A sh : List Nat} {v : List Nat → F} {w w' : Nat → Nat → F}
    (h : ∀ a ∈ A, ∀ (i n : Nat), sh[a]? = some n → i < n → w a i = w' a i) (hA : ∀ a ∈ A, a < sh.length) (idx : List Nat) :
    cellSum sh v w A idx = cellSum sh v w' A idx := by
  unfold cellSum
  congr 1
  refine List.map_congr_left fun i hi => ?_
  have hi' := mem_indices.1 (List.mem_filter.1 hi).1
  congr 2
  refine List.map_congr_left fun a ha => ?_
  have hlt := hA a ha
  have hl := inRange_length hi'
  have hg : i[a]? = some i[a] := List.getElem?_eq_getElem (by omega)
  rw [List.getD_eq_getElem?_getD, hg]
  exact h a ha _ _ (List.getElem?_eq_getElem hlt) ((inRange_get.1 hi').2 a _ _ hg (List.getElem?_eq_getElem hlt))

theorem cellSum_linear (sh : List Nat) (u v : List Nat → F) (w : Nat → Nat → F) (A idx : List Nat) (x y : F) :
    cellSum sh (fun i => x * u i + y * v i) w A idx = x * cellSum sh u w A idx + y * cellSum sh v w A idx := by
  unfold cellSum
  rw [← List.sum_map_mul_left, ← List.sum_map_mul_left, ← List.sum_map_add]
  congr 1
  exact List.map_congr_left fun i _ => by ring

theorem cellSum_congr {sh : List Nat} {u v : List Nat → F} (h : ∀ i, inRange sh i = true → u i = v i)
    (w : Nat → Nat → F) (A idx : List Nat) : cellSum sh u w A idx = cellSum sh v w A idx := by
  unfold cellSum
  congr 1
  refine List.map_congr_left fun i hi => ?_
  rw [h i (mem_indices.1 (List.mem_filter.1 hi).1)]

/-- The weights of a constant factor into one sum for each axis. -/
theorem cellSum_const (c : F) (w : Nat → Nat → F) : ∀ (D sh idx : List Nat), D.Pairwise (· > ·) →
    (∀ a ∈ D, a < sh.length) → idx.length = sh.length →
    (∀ d, d ∉ D → ∀ (i n : Nat), idx[d]? = some i → sh[d]? = some n → i < n) →
    cellSum sh (fun _ => c) w D idx = c * (D.map fun a => ((List.range (sh.getD a 0)).map (w a)).sum).prod
  | [], sh, idx, _, _, hl, hr => by
    have hin : inRange sh idx = true := inRange_get.2 ⟨hl, fun d i n => hr d (by simp) i n⟩
    unfold cellSum
    have hfil : (indices sh).filter (fun i => decide (∀ d < sh.length, d ∉ ([] : List Nat) → i[d]? = idx[d]?)) = [idx] := by
      have : ∀ i ∈ indices sh, decide (∀ d < sh.length, d ∉ ([] : List Nat) → i[d]? = idx[d]?) = (i == idx) := by
        intro i hi
        have hl' := inRange_length (mem_indices.1 hi)
        rw [Bool.eq_iff_iff, decide_eq_true_eq, beq_iff_eq]
        constructor
        · intro h
          refine List.ext_getElem? fun d => ?_
          by_cases hd : d < sh.length
          · exact h d hd (by simp)
          · rw [List.getElem?_eq_none (by omega), List.getElem?_eq_none (by omega)]
        · rintro rfl d _ _; rfl
      rw [List.filter_congr this]
      exact filter_eq_single (mem_indices.2 hin) (nodup_indices sh)
    rw [hfil]
    simp
  | a :: D, sh, idx, hD, hlt, hl, hr => by
    rw [List.pairwise_cons] at hD
    have ha := hlt a (by simp)
    have hn : sh[a]? = some sh[a] := List.getElem?_eq_getElem ha
    rw [cellSum_cons hn _ _ hD.1 idx hl]
    have hc : ∀ r : List Nat, ((List.range sh[a]).map fun k => (fun _ : List Nat => c) (insertAt a k r) * w a k).sum =
        ((List.range sh[a]).map fun k => c * w a k).sum := fun _ => rfl
    simp only [List.sum_map_mul_left]
    rw [cellSum_const _ w D (sh.eraseIdx a) (idx.eraseIdx a) hD.2]
    · rw [List.map_cons, List.prod_cons, ← mul_assoc]
      congr 1
      · rw [List.getD_eq_getElem?_getD, hn]; rfl
      · congr 1
        refine List.map_congr_left fun b hb => ?_
        rw [List.getD_eq_getElem?_getD, List.getD_eq_getElem?_getD, erase_get_lt _ (hD.1 b hb)]
    · intro b hb
      rw [List.length_eraseIdx_of_lt ha]
      have := hD.1 b hb
      omega
    · rw [List.length_eraseIdx_of_lt ha, List.length_eraseIdx_of_lt (by omega), hl]
    · intro d hd i n hi hn'
      rcases Nat.lt_or_ge d a with h | h
      · rw [erase_get_lt _ h] at hi hn'
        exact hr d (by simp only [List.mem_cons, not_or]; exact ⟨by omega, hd⟩) i n hi hn'
      · rw [erase_get_ge _ h] at hi hn'
        exact hr (d + 1) (by
          simp only [List.mem_cons, not_or]
          exact ⟨by omega, fun hm => by have := hD.1 _ hm; omega⟩) i n hi hn'

/-! ## Cell widths -/

omit [CommRing F] in
theorem widths_get [Sub F] [Zero F] (x : List F) {i : Nat} (h : i + 1 < x.length) :
    (widths x)[i]? = some (x.getD (i + 1) 0 - x.getD i 0) := by
  have h1 : x.tail[i]? = some (x.getD (i + 1) 0) := by
    rw [List.getElem?_tail, List.getD_eq_getElem?_getD, List.getElem?_eq_getElem h]; rfl
  have h2 : x.dropLast[i]? = some (x.getD i 0) := by
    rw [List.getElem?_dropLast, if_pos (by omega), List.getD_eq_getElem?_getD, List.getElem?_eq_getElem (by omega)]; rfl
  rw [widths, List.getElem?_zipWith, h1, h2]

omit [CommRing F] in
theorem widths_length [Sub F] (x : List F) : (widths x).length = x.length - 1 := by
  simp [widths]

omit [CommRing F] in
/-- The widths used by the code. -/
theorem dzOf_ok [Sub F] [Zero F] {x : List F} {n : Nat} (h : x.length = n + 1 ∨ x.length = n ∧ 2 ≤ n) :
    ∃ W, dzOf x n = .ok W ∧ W.length = n ∧ ∀ i < n, W.getD i 0 = width x n i := by
  rcases h with h | ⟨h, h2⟩
  · refine ⟨widths x, by rw [dzOf, if_neg (by omega)], by rw [widths_length]; omega, fun i hi => ?_⟩
    rw [List.getD_eq_getElem?_getD, widths_get x (by omega), width, if_neg (by omega)]; rfl
  · have hw := widths_length x
    have hlast : pyGet (widths x) (-1) = .ok (x.getD (n - 1) 0 - x.getD (n - 2) 0) := by
      have := widths_get x (i := n - 2) (by omega)
      rw [show n - 2 + 1 = n - 1 by omega] at this
      simp only [pyGet]
      rw [if_pos (show (-1 : Int) < 0 by omega), if_neg (show ¬ ((widths x).length : Int) + -1 < 0 by omega)]
      rw [show (((widths x).length : Int) + -1).toNat = n - 2 by omega, this]
    refine ⟨widths x ++ [x.getD (n - 1) 0 - x.getD (n - 2) 0], ?_, by simp [hw]; omega, fun i hi => ?_⟩
    · rw [dzOf, if_pos h, hlast]; rfl
    · rw [List.getD_eq_getElem?_getD]
      by_cases hi' : i + 1 = n
      · rw [List.getElem?_append_right (by omega), show i - (widths x).length = 0 by omega, width, if_pos ⟨h, hi'⟩]
        subst hi'
        simp
      · rw [List.getElem?_append_left (by omega), widths_get x (by omega), width, if_neg (by omega)]; rfl

omit [CommRing F] in
theorem pyGet_nat {α : Type} (l : List α) (i : Nat) : pyGet l (i : Int) = match l[i]? with
    | some x => .ok x
    | none => .error .indexError := by
  simp only [pyGet]
  rw [if_neg (by omega), if_neg (by omega), Int.toNat_natCast]
  cases l[i]? <;> rfl

omit [CommRing F] in
/-- A loop over the axes of the grid. -/
theorem mapM_axes {β : Type} {f : NArr F × Nat → Except Err β} {grid : List (NArr F)} {r : Nat → β}
    (h : ∀ (d : Nat) (g : NArr F), grid[d]? = some g → f (g, d) = .ok (r d)) :
    grid.zipIdx.mapM f = .ok ((List.range grid.length).map r) := by
  have : grid.zipIdx.mapM f = .ok (grid.zipIdx.map fun e => r e.2) := by
    refine Space.mapM_ok_of_forall fun e he => ?_
    obtain ⟨g, d⟩ := e
    exact h d g (by rw [List.mem_zipIdx_iff_getElem?] at he; exact he)
  rw [this]
  congr 1
  refine List.ext_getElem? fun d => ?_
  simp only [List.getElem?_map, List.getElem?_zipIdx, Option.map_map]
  by_cases hd : d < grid.length
  · rw [List.getElem?_eq_getElem hd, List.getElem?_range hd]; simp
  · rw [List.getElem?_eq_none (by omega), List.getElem?_eq_none (by simp; omega)]; rfl

end

end Integ
end Pgkyl
