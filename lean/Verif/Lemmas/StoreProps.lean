import Verif.Lemmas.Store
import Mathlib.Data.List.Induction
/-! # Lemmas towards the properties of the dataset store -/

namespace Pgkyl
open Spec
namespace Space
variable {F : Type}

/-! ### Histories -/

theorem inv_perform (ops : List (StoreOp F)) : (perform ops).Inv := by
  unfold perform
  suffices ∀ (s : Space F), s.Inv → (ops.foldl (fun s op => match op with
      | .add g => s.addNew g
      | .clean => s.clean) s).Inv from this _ inv_empty
  induction ops with
  | nil => intro s hs; exact hs
  | cons op ops ih =>
    intro s hs
    rw [List.foldl_cons]
    apply ih
    cases op with
    | add g => exact hs.addNew g
    | clean => exact inv_clean s

/-- The store represents the list of datasets `acc`. -/
structure Rep (s : Space F) (acc : List (GData F)) : Prop where
  inv : s.Inv
  keys : s.keys = firstUse (acc.map GData.tag)
  lists : ∀ t, ((s.lookup t).getD []).map (fun i => s.heap[i]?) = (under t acc).map some
  all : ((s.dict.flatMap Prod.snd).map (fun i => s.heap[i]?)).Perm (acc.map some)

theorem rep_empty : Rep ({} : Space F) [] :=
  ⟨inv_empty, rfl, fun t => by simp [lookup, under], by simp⟩

theorem rep_clean (s : Space F) : Rep s.clean [] :=
  ⟨inv_clean s, rfl, fun t => by simp [lookup, under, clean], by simp [clean]⟩

theorem map_heap_append {h : List (GData F)} {l : List Nat} (hl : ∀ i ∈ l, i < h.length) (g : GData F) :
    l.map (fun i => (h ++ [g])[i]?) = l.map (fun i => h[i]?) := by
  refine List.map_congr_left fun i hi => ?_
  exact List.getElem?_append_left (hl i hi)

theorem firstUse_append (ts : List Tag) (t : Tag) :
    firstUse (ts ++ [t]) = if t ∈ firstUse ts then firstUse ts else firstUse ts ++ [t] := by
  conv_lhs => unfold firstUse
  rw [List.foldl_append]
  rfl

theorem Rep.addNew {s : Space F} {acc : List (GData F)} (h : Rep s acc) (g : GData F) :
    Rep (s.addNew g) (acc ++ [g]) := by
  refine ⟨h.inv.addNew g, ?_, ?_, ?_⟩
  · rw [addNew_keys, h.keys]
    rw [List.map_append, List.map_singleton, firstUse_append]
  · intro t
    have hlt : ∀ i ∈ (s.lookup t).getD [], i < s.heap.length := by
      intro i hi
      cases hl : s.lookup t with
      | none => rw [hl] at hi; simp at hi
      | some l => rw [hl] at hi; exact h.inv.lt hl hi
    rw [addNew_lookup, addNew_heap]
    by_cases ht : g.tag = t
    · rw [if_pos ht, Option.getD_some, List.map_append, map_heap_append hlt, h.lists t]
      simp [under, ht]
    · rw [if_neg ht, map_heap_append hlt, h.lists t]
      simp [under, ht]
  · rw [addNew_dict, addNew_heap]
    refine ((mem_snd_dictAdd _ _ _).map _).trans ?_
    rw [List.map_cons, map_heap_append h.inv.valid, List.map_append]
    have : (s.heap ++ [g])[s.heap.length]? = some g := by simp
    rw [this, List.map_singleton]
    exact (h.all.cons (some g)).trans (List.perm_append_singleton _ _).symm

theorem rep_perform (ops : List (StoreOp F)) : Rep (perform ops) (sinceClean ops) := by
  unfold perform sinceClean
  suffices ∀ (s : Space F) acc, Rep s acc → Rep (ops.foldl (fun s op => match op with
      | .add g => s.addNew g
      | .clean => s.clean) s) (ops.foldl (fun acc op => match op with
      | .add g => acc ++ [g]
      | .clean => []) acc) from this _ _ rep_empty
  induction ops with
  | nil => intro s acc hs; exact hs
  | cons op ops ih =>
    intro s acc hs
    rw [List.foldl_cons, List.foldl_cons]
    apply ih
    cases op with
    | add g => exact hs.addNew g
    | clean => exact rep_clean s

theorem getDataset_of_lookup {s : Space F} {t : Tag} {l : List Nat} (h : s.lookup t = some l) (i : Nat) :
    s.getDataset i t = match l[i]? with
      | some id => .ok id
      | none => .error .indexError := by
  simp only [getDataset, h, listIndex]
  by_cases hi : i < l.length
  · have : (0 : Int) ≤ i ∧ (i : Int) < l.length := by omega
    rw [if_pos this]
    simp [List.getElem?_eq_getElem hi]
  · have h1 : ¬ ((0 : Int) ≤ i ∧ (i : Int) < l.length) := by omega
    have h2 : ¬ ((i : Int) < 0 ∧ (0 : Int) ≤ l.length + i) := by omega
    rw [if_neg h1, if_neg h2, List.getElem?_eq_none (by omega)]

theorem getDataset_neg_of_lookup {s : Space F} {t : Tag} {l : List Nat} (h : s.lookup t = some l) (k : Nat) :
    s.getDataset (-(k + 1 : Nat)) t = match l.reverse[k]? with
      | some id => .ok id
      | none => .error .indexError := by
  simp only [getDataset, h, listIndex]
  have h1 : ¬ ((0 : Int) ≤ -(k + 1 : Nat) ∧ (-(k + 1 : Nat) : Int) < l.length) := by omega
  rw [if_neg h1]
  by_cases hi : k < l.length
  · have : ((-(k + 1 : Nat) : Int) < 0 ∧ (0 : Int) ≤ l.length + -(k + 1 : Nat)) := by omega
    rw [if_pos this]
    have e : ((l.length : Int) + -(k + 1 : Nat)).toNat = l.length - 1 - k := by omega
    simp only [e]
    rw [List.getElem?_reverse hi]
    have : l.length - 1 - k < l.length := by omega
    rw [List.getElem?_eq_getElem this]
  · have h2 : ¬ ((-(k + 1 : Nat) : Int) < 0 ∧ (0 : Int) ≤ l.length + -(k + 1 : Nat)) := by omega
    rw [if_neg h2, List.getElem?_eq_none (by simpa using hi)]

/-! ### What an iteration yields -/

theorem filterMap_range_getElem? (l : List Nat) :
    (List.range l.length).filterMap (fun p => l[p]?) = l := by
  induction l using List.reverseRecOn with
  | nil => rfl
  | append_singleton l a ih =>
    rw [List.length_append, List.length_singleton, List.range_succ, List.filterMap_append]
    congr 1
    · conv_rhs => rw [← ih]
      refine List.filterMap_congr fun p hp => ?_
      rw [List.mem_range] at hp
      exact List.getElem?_append_left hp
    · simp

theorem tagItems_none {s : Space F} {t : Tag} {l : List Nat} (h : s.lookup t = some l) (oa : Bool) :
    tagItems s oa .none (.slice none none none) t = .ok (visit s.active oa l) := by
  simp only [tagItems, h, positions]
  rw [sliceIndices_eq _ _ _ _ (by decide)]
  simp only [Option.getD_none, slicePositions_all, filterMap_range_getElem?]

theorem toList_none {s : Space F} {tag : Option Tag} {ls : Tag → List Nat}
    (h : ∀ t ∈ s.tagsOf tag, s.lookup t = some (ls t)) (enum oa : Bool) :
    s.toList tag enum oa .none = .ok ((s.tagsOf tag).flatMap fun t => visit s.active oa (ls t)) := by
  rw [toList_eq]
  have : ¬ ((enum && Sel.none.truthy) = true) := by simp [Sel.truthy]
  rw [if_neg this]
  simp only [parseSel]
  rw [mapM_ok_of_forall (g := fun t => visit s.active oa (ls t)) (fun t ht => tagItems_none (h t ht) oa)]
  simp only [List.flatMap_def]

theorem tagsOf_none_lookup (s : Space F) :
    ∀ t ∈ s.tagsOf none, s.lookup t = some ((s.lookup t).getD []) := by
  intro t ht
  have : (s.lookup t).isSome := (lookup_isSome_iff s t).2 ht
  cases hl : s.lookup t with
  | none => rw [hl] at this; simp at this
  | some l => rfl

theorem keys_flatMap {s : Space F} (h : s.keys.Nodup) :
    (s.keys.flatMap fun t => (s.lookup t).getD []) = s.dict.flatMap Prod.snd := by
  have : ∀ e ∈ s.dict, (s.lookup e.1).getD [] = e.2 := by
    intro e he
    rw [lookup_of_mem h (t := e.1) (l := e.2) he]; rfl
  unfold keys
  rw [List.flatMap_map]
  exact List.flatMap_congr this

theorem tagsOf_some {s : Space F} {ts : List Tag} (hne : joinWith ',' ts ≠ [])
    (hc : ∀ t ∈ ts, ',' ∉ t) : s.tagsOf (some (joinWith ',' ts)) = ts := by
  have : ts ≠ [] := by rintro rfl; simp [joinWith] at hne
  simp only [tagsOf, if_neg hne]
  exact splitOn_joinWith ts this hc

theorem visit_map_snd (act : Nat → Bool) (oa : Bool) (l : List Nat) :
    (visit act oa l).map Prod.snd = l.filter fun i => !oa || act i := by
  simp only [visit, List.map_map]
  have : (Prod.snd ∘ fun e : Nat × Nat => (e.2, e.1)) = Prod.fst := rfl
  rw [this]
  generalize 0 = k
  induction l generalizing k with
  | nil => rfl
  | cons a l ih =>
    rw [List.zipIdx_cons]
    by_cases h : (!oa || act a) = true
    · rw [List.filter_cons_of_pos (p := fun e : Nat × Nat => !oa || act e.1) h,
        List.filter_cons_of_pos (p := fun i => !oa || act i) h, List.map_cons, ih]
    · rw [List.filter_cons_of_neg (p := fun e : Nat × Nat => !oa || act e.1) h,
        List.filter_cons_of_neg (p := fun i => !oa || act i) h, ih]

theorem mem_visit {act : Nat → Bool} {oa : Bool} {l : List Nat} {i id : Nat} :
    (i, id) ∈ visit act oa l ↔ l[i]? = some id ∧ (oa = true → act id = true) := by
  simp only [visit, List.mem_map, List.mem_filter, Prod.mk.injEq]
  constructor
  · rintro ⟨⟨a, k⟩, ⟨h1, h2⟩, rfl, rfl⟩
    rw [List.mem_zipIdx_iff_getElem?] at h1
    refine ⟨h1, fun ho => ?_⟩
    subst ho
    simpa using h2
  · rintro ⟨h1, h2⟩
    refine ⟨(id, i), ⟨List.mem_zipIdx_iff_getElem?.2 h1, ?_⟩, rfl, rfl⟩
    cases oa with
    | false => rfl
    | true => simpa using h2 rfl

theorem foldlM_count (l : List (Nat × Nat)) (n : Nat) :
    l.foldlM (m := Except Err) (fun n _ => .ok (n + 1)) n = .ok (n + l.length) := by
  induction l generalizing n with
  | nil => rfl
  | cons a l ih => rw [foldlM_ok_cons]; simp only; rw [ih]; simp; omega

theorem getNumDatasets_eq {s : Space F} (hi : s.Inv) {tag : Option Tag} {oa : Bool}
    {l : List (Nat × Nat)} (h : s.toList tag false oa .none = .ok l) :
    s.getNumDatasets tag oa = .ok l.length := by
  unfold getNumDatasets
  rw [iterate_ok (σ := Nat) (fun _ => s) tag false oa .none _ 0 hi (fun _ => True) trivial
    (fun _ _ _ _ _ _ => trivial) (fun _ _ _ _ _ => rfl) (fun _ _ _ _ => rfl) h, foldlM_count]
  simp

/-! ### Index texts -/

theorem pyStr_ne_nil (i : Int) : pyStr i ≠ [] := by
  unfold pyStr
  split
  · simp
  · exact toDigits_ne_nil _

theorem pyStr_notMem {c : Char} (hc : isDig c = false) (hm : c ≠ '-') (i : Int) : c ∉ pyStr i := by
  have h := notMem_of_all_isDig (toDigits_all_isDig i.natAbs) hc
  unfold pyStr
  split
  · simp only [List.mem_cons, not_or]; exact ⟨hm, h⟩
  · exact h

theorem intOrErr_pyStr (i : Int) : intOrErr (pyStr i) = .ok i := by simp [intOrErr, pyInt_pyStr]

theorem optInt_boundText (o : Option Int) : optInt (boundText o) = .ok o := by
  cases o with
  | none => rfl
  | some i =>
    simp only [boundText, optInt, if_neg (pyStr_ne_nil i), intOrErr_pyStr]
    rfl

theorem boundText_notMem (o : Option Int) : ':' ∉ boundText o := by
  cases o with
  | none => simp [boundText]
  | some i => exact pyStr_notMem (by decide) (by decide) i

theorem parseSel_sliceText (lo hi step : Option Int) :
    parseSel (.str (sliceText lo hi step)) = .ok (.slice lo hi step) := by
  cases step with
  | none =>
    have hm : ':' ∈ sliceText lo hi none := by simp [sliceText]
    have hs : splitOn ':' (sliceText lo hi none) = [boundText lo, boundText hi] := by
      simp only [sliceText]
      rw [splitOn_append (boundText_notMem lo), splitOn_notMem (boundText_notMem hi)]
    simp only [parseSel, if_pos hm, hs, optInt_boundText]
    rfl
  | some st =>
    have hm : ':' ∈ sliceText lo hi (some st) := by simp [sliceText]
    have hs : splitOn ':' (sliceText lo hi (some st)) = [boundText lo, boundText hi, pyStr st] := by
      simp only [sliceText]
      rw [splitOn_append (boundText_notMem lo), splitOn_append (boundText_notMem hi),
        splitOn_notMem (pyStr_notMem (by decide) (by decide) st)]
    simp only [parseSel, if_pos hm, hs, optInt_boundText, intOrErr_pyStr]
    rfl

theorem joinWith_notMem {c d : Char} (hcd : c ≠ d) : ∀ {ps : List (List Char)},
    (∀ p ∈ ps, c ∉ p) → c ∉ joinWith d ps
  | [], _ => by simp [joinWith]
  | [p], h => by simpa [joinWith] using h p (by simp)
  | p :: q :: ps, h => by
    simp only [joinWith, List.mem_append, List.mem_cons, not_or]
    exact ⟨h p (by simp), hcd, joinWith_notMem hcd (fun r hr => h r (List.mem_cons_of_mem _ hr))⟩

theorem parseSel_listText {is : List Int} (hne : is ≠ []) :
    parseSel (.str (listText is)) = .ok (.list is) := by
  have hm : ':' ∉ listText is := by
    apply joinWith_notMem (by decide)
    intro p hp
    obtain ⟨i, _, rfl⟩ := List.mem_map.1 hp
    exact pyStr_notMem (by decide) (by decide) i
  have hs : splitOn ',' (listText is) = is.map pyStr := by
    apply splitOn_joinWith
    · simpa using hne
    · intro p hp
      obtain ⟨i, _, rfl⟩ := List.mem_map.1 hp
      exact pyStr_notMem (by decide) (by decide) i
  simp only [parseSel, if_neg hm, hs]
  have : (is.map pyStr).mapM intOrErr = .ok is := by
    induction is with
    | nil => rfl
    | cons i is ih =>
      rw [List.map_cons, List.mapM_cons, intOrErr_pyStr]
      by_cases h : is = []
      · subst h; rfl
      · rw [show (is.map pyStr).mapM intOrErr = .ok is from by
          clear ih hm hs hne
          induction is with
          | nil => rfl
          | cons j is ih2 =>
            rw [List.map_cons, List.mapM_cons, intOrErr_pyStr]
            by_cases h' : is = []
            · subst h'; rfl
            · rw [ih2 h']; rfl]
        rfl
  rw [this]; rfl

theorem listText_ne_nil {is : List Int} (hne : is ≠ []) : listText is ≠ [] := by
  cases is with
  | nil => exact absurd rfl hne
  | cons i is =>
    cases is with
    | nil => simpa [listText, joinWith] using pyStr_ne_nil i
    | cons j is => simp [listText, joinWith]

theorem listIndex_eq {n : Nat} {i : Int} (h0 : 0 ≤ fromEnd n i) (h1 : fromEnd n i < n) :
    listIndex n i = .ok (fromEnd n i).toNat := by
  unfold fromEnd at *
  unfold listIndex
  split at h0
  · rename_i hneg
    rw [if_neg (by omega), if_pos (by omega), if_pos hneg]
  · rename_i hneg
    rw [if_pos (by rw [if_neg hneg] at h1; omega), if_neg hneg]

theorem listIndex_error {n : Nat} {i : Int} (h : fromEnd n i < 0 ∨ (n : Int) ≤ fromEnd n i) :
    listIndex n i = .error .indexError := by
  unfold fromEnd at h
  unfold listIndex
  split at h
  · rw [if_neg (by omega), if_neg (by omega)]
  · rw [if_neg (by omega), if_neg (by omega)]

end Space
end Pgkyl
