import Verif.Lemmas.IntegrateMore
import Verif.Lemmas.Select
/-! # Sums over the cells of a part of the data -/

namespace Pgkyl.Integ
open Spec

variable {F : Type} [CommRing F]

/-- A sum over some axes, when the positions along the other axes are renamed. -/
theorem cellSum_reindex {sh1 sh2 A idx : List Nat} (φ : Nat → Nat → Nat) (hlen : sh1.length = sh2.length)
    (hφA : ∀ d ∈ A, ∀ x, φ d x = x) (hsh : ∀ d ∈ A, sh1[d]? = sh2[d]?) (hlt : ∀ a ∈ A, a < sh1.length)
    (hin : inRange (collapsed A sh1) idx = true)
    (hφ : ∀ d n1 n2, d ∉ A → sh1[d]? = some n1 → sh2[d]? = some n2 → ∀ x < n1, φ d x < n2)
    {v1 v2 : List Nat → F} {w1 w2 : Nat → Nat → F}
    (hv : ∀ i, inRange sh1 i = true → v1 i = v2 (i.mapIdx φ))
    (hw : ∀ a ∈ A, ∀ k n, sh1[a]? = some n → k < n → w1 a k = w2 a k) :
    cellSum sh1 v1 w1 A idx = cellSum sh2 v2 w2 A (idx.mapIdx φ) := by
  rw [cellSum_weights (w' := w2) (fun a ha i n => hw a ha i n) hlt, cellSum_congr hv]
  unfold cellSum
  obtain ⟨hil, hir⟩ := inRange_get.1 hin
  rw [collapsed_length] at hil
  -- the two lists of positions
  have hperm : (((indices sh1).filter fun i => decide (∀ d < sh1.length, d ∉ A → i[d]? = idx[d]?)).map
      fun i => i.mapIdx φ).Perm
      ((indices sh2).filter fun i => decide (∀ d < sh2.length, d ∉ A → i[d]? = (idx.mapIdx φ)[d]?)) := by
    refine (List.perm_ext_iff_of_nodup ?_ ((nodup_indices _).filter _)).2 fun j => ?_
    · refine List.Nodup.map_on ?_ ((nodup_indices _).filter _)
      intro x hx y hy e
      obtain ⟨x1, x2⟩ := List.mem_filter.1 hx
      obtain ⟨y1, y2⟩ := List.mem_filter.1 hy
      have lx := inRange_length (mem_indices.1 x1)
      have ly := inRange_length (mem_indices.1 y1)
      refine List.ext_getElem? fun d => ?_
      by_cases hd : d < sh1.length
      · by_cases hdA : d ∈ A
        · have := congrArg (fun l => l[d]?) e
          simp only [List.getElem?_mapIdx] at this
          have e1 : (φ d : Nat → Nat) = id := by funext z; exact hφA d hdA z
          rw [e1] at this
          simpa using this
        · rw [decide_eq_true_eq] at x2 y2
          rw [x2 d hd hdA, y2 d hd hdA]
      · rw [List.getElem?_eq_none (by omega), List.getElem?_eq_none (by omega)]
    · rw [List.mem_map, List.mem_filter, decide_eq_true_eq, mem_indices]
      constructor
      · rintro ⟨i, hi, rfl⟩
        rw [List.mem_filter, decide_eq_true_eq, mem_indices] at hi
        obtain ⟨i1, i2⟩ := hi
        obtain ⟨l1, r1⟩ := inRange_get.1 i1
        refine ⟨inRange_get.2 ⟨by simp [l1, hlen], fun d k n hk hn => ?_⟩, fun d hd hdA => ?_⟩
        · rw [List.getElem?_mapIdx, Option.map_eq_some_iff] at hk
          obtain ⟨x, hx, rfl⟩ := hk
          have hd : d < sh1.length := by rw [hlen]; exact (List.getElem?_eq_some_iff.1 hn).1
          have hn1 := List.getElem?_eq_getElem hd
          have hx1 := r1 d x _ hx hn1
          by_cases hdA : d ∈ A
          · rw [hφA d hdA]
            rw [hsh d hdA, hn] at hn1
            cases hn1
            exact hx1
          · exact hφ d _ n hdA hn1 hn x hx1
        · rw [List.getElem?_mapIdx, List.getElem?_mapIdx, i2 d (by rw [hlen]; exact hd) hdA]
      · rintro ⟨j1, j2⟩
        obtain ⟨l1, r1⟩ := inRange_get.1 j1
        have key : ∀ d, d ∈ A → d < idx.length →
            (idx.mapIdx fun d x => if d ∈ A then j.getD d 0 else x)[d]? = j[d]? := by
          intro d hdA hd
          rw [List.getElem?_mapIdx, List.getElem?_eq_getElem hd, Option.map_some, if_pos hdA,
            List.getD_eq_getElem?_getD, List.getElem?_eq_getElem (by omega : d < j.length)]
          rfl
        have key2 : ∀ d, d ∉ A → (idx.mapIdx fun d x => if d ∈ A then j.getD d 0 else x)[d]? = idx[d]? := by
          intro d hdA
          rw [List.getElem?_mapIdx]
          cases idx[d]? <;> simp [hdA]
        refine ⟨idx.mapIdx fun d x => if d ∈ A then j.getD d 0 else x, ?_, ?_⟩
        · rw [List.mem_filter, decide_eq_true_eq, mem_indices]
          refine ⟨inRange_get.2 ⟨by simp [hil], fun d k n hk hn => ?_⟩, fun d _ hdA => key2 d hdA⟩
          by_cases hdA : d ∈ A
          · have hd : d < idx.length := by rw [hil]; exact hlt d hdA
            rw [key d hdA hd] at hk
            rw [hsh d hdA] at hn
            exact r1 d k n hk hn
          · rw [key2 d hdA] at hk
            exact hir d k n hk (by rw [collapsed_get, hn]; simp [hdA])
        · refine List.ext_getElem? fun d => ?_
          by_cases hd : d < idx.length
          · rw [List.getElem?_mapIdx]
            by_cases hdA : d ∈ A
            · rw [key d hdA hd]
              have e1 : (φ d : Nat → Nat) = id := by funext z; exact hφA d hdA z
              rw [e1]; simp
            · rw [key2 d hdA, j2 d (by omega) hdA, List.getElem?_mapIdx]
          · rw [List.getElem?_eq_none (by simpa using hd), List.getElem?_eq_none (by omega)]
  rw [← (hperm.map _).sum_eq, List.map_map]
  congr 1
  refine List.map_congr_left fun i hi => ?_
  obtain ⟨i1, -⟩ := List.mem_filter.1 hi
  have lx := inRange_length (mem_indices.1 i1)
  simp only [Function.comp_apply]
  congr 2
  refine List.map_congr_left fun a ha => ?_
  congr 1
  rw [List.getD_eq_getElem?_getD, List.getD_eq_getElem?_getD, List.getElem?_mapIdx]
  have e1 : (φ a : Nat → Nat) = id := by funext z; exact hφA a ha z
  rw [e1]; simp

end Pgkyl.Integ
