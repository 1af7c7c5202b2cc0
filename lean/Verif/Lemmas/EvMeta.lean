import Verif.Model.Ev
import Verif.Lemmas.Bytes
import Verif.Lemmas.Store
import Mathlib.Data.List.Induction
/-! # Lemmas on the merging of metadata in `ev` -/

namespace Pgkyl
namespace Ev
variable {V : Type}

theorem mem_fromKeys (k : String) : ∀ l : List String, k ∈ fromKeys l ↔ k ∈ l
  | [] => by simp [fromKeys]
  | a :: l => by
    simp only [fromKeys, List.mem_cons, List.mem_filter, mem_fromKeys k l, decide_eq_true_eq]
    by_cases h : k = a <;> simp [h]

theorem nodup_fromKeys : ∀ l : List String, (fromKeys l).Nodup
  | [] => by simp [fromKeys]
  | a :: l => by
    simp only [fromKeys, List.nodup_cons, List.mem_filter, decide_eq_true_eq]
    exact ⟨by simp, (nodup_fromKeys l).filter _⟩

theorem foldl_dicts {σ : Type} (f : σ → String × V → σ) (ds : List (Dict V)) (acc : σ) :
    ds.foldl (fun acc d => d.foldl f acc) acc = (ds.flatten : List (String × V)).foldl f acc := by
  induction ds generalizing acc with
  | nil => rfl
  | cons d ds ih => rw [List.foldl_cons, ih, List.flatten_cons, List.foldl_append]

theorem get?_append (l l' : List (String × V)) (k : String) :
    Dict.get? (l ++ l' : List (String × V)) k = (Dict.get? l k).or (Dict.get? l' k) := by
  induction l with
  | nil => simp [Dict.get?]
  | cons e l ih =>
    obtain ⟨a, b⟩ := e
    simp only [List.cons_append, Dict.get?, ih]
    split <;> simp

theorem dict_mem_of_get? {d : Dict V} {k : String} {v : V} (h : Dict.get? d k = some v) : (k, v) ∈ d := by
  induction d with
  | nil => simp [Dict.get?] at h
  | cons e d ih =>
    obtain ⟨a, b⟩ := e
    simp only [Dict.get?] at h
    split at h
    · rename_i ha
      simp only [Option.some.injEq] at h
      subst ha h; simp
    · exact List.mem_cons_of_mem _ (ih h)

theorem dict_get?_iff {d : Dict V} (hn : (d.map Prod.fst).Nodup) {k : String} {v : V} :
    Dict.get? d k = some v ↔ (k, v) ∈ d := by
  refine ⟨dict_mem_of_get?, fun h => ?_⟩
  induction d with
  | nil => simp at h
  | cons e d ih =>
    obtain ⟨a, b⟩ := e
    rw [List.map_cons, List.nodup_cons] at hn
    simp only [Dict.get?]
    rcases List.mem_cons.1 h with h | h
    · simp only [Prod.mk.injEq] at h
      rw [if_pos h.1.symm, h.2]
    · have : a ≠ k := by
        rintro rfl; exact hn.1 (List.mem_map.2 ⟨_, h, rfl⟩)
      rw [if_neg this]; exact ih hn.2 h

/-- State after reading the entries `L`. -/
theorem collect_inv (cmp : V → V → Bool) (L : List (String × V)) :
    (∀ k, Dict.get? (L.foldl (collect cmp) ([], [])).1 k = Dict.get? (L : Dict V) k) ∧
    (∀ k, k ∈ (L.foldl (collect cmp) ([], [])).2 → ∃ v w, (k, v) ∈ L ∧ Dict.get? (L : Dict V) k = some w ∧
      cmp v w = false) ∧
    (∀ k v w, (k, v) ∈ L → Dict.get? (L : Dict V) k = some w → v ≠ w → cmp v w = false →
      k ∈ (L.foldl (collect cmp) ([], [])).2) := by
  induction L using List.reverseRecOn with
  | nil => simp [Dict.get?]
  | append_singleton L e ih =>
    obtain ⟨h1, h2, h3⟩ := ih
    rw [List.foldl_append]
    simp only [List.foldl_cons, List.foldl_nil]
    generalize L.foldl (collect cmp) ([], []) = acc at h1 h2 h3
    have hsing : ∀ k, Dict.get? ([e] : Dict V) k = if e.1 = k then some e.2 else none := by
      intro k; by_cases h : e.1 = k <;> simp [Dict.get?, h]
    cases hg : Dict.get? acc.1 e.1 with
    | some w =>
      have hLe : Dict.get? (L : Dict V) e.1 = some w := by rw [← h1, hg]
      have hget : ∀ k, Dict.get? (L ++ [e] : List (String × V)) k = Dict.get? (L : Dict V) k := by
        intro k
        rw [get?_append, hsing]
        by_cases hk : e.1 = k
        · subst hk; rw [hLe]; simp
        · simp [hk]
      have hfst : (collect cmp acc e).1 = acc.1 := by
        simp only [collect, hg]; split <;> rfl
      refine ⟨fun k => by rw [hfst, h1, hget], fun k hk => ?_, fun k v w' hv hw' hne hc => ?_⟩
      · simp only [collect, hg] at hk
        split at hk
        · obtain ⟨v, w', q1, q2, q3⟩ := h2 k hk
          exact ⟨v, w', by simp [q1], by rw [hget]; exact q2, q3⟩
        · rename_i hc
          simp only [List.mem_append, List.mem_singleton] at hk
          rcases hk with hk | rfl
          · obtain ⟨v, w', q1, q2, q3⟩ := h2 k hk
            exact ⟨v, w', by simp [q1], by rw [hget]; exact q2, q3⟩
          · exact ⟨e.2, w, by simp, by rw [hget, hLe], by simpa using hc⟩
      · rw [hget] at hw'
        simp only [List.mem_append, List.mem_singleton] at hv
        rcases hv with hv | rfl
        · have := h3 k v w' hv hw' hne hc
          simp only [collect, hg]; split
          · exact this
          · simp [this]
        · simp only at hLe hg
          obtain rfl : w = w' := by rw [hLe] at hw'; exact Option.some.inj hw'
          simp [collect, hg, hc]
    | none =>
      have hLe : Dict.get? (L : Dict V) e.1 = none := by rw [← h1, hg]
      have hnot : ∀ v, (e.1, v) ∉ L := by
        intro v hv
        have := (Dict.mem_iff_get? (L : Dict V) e.1).1 (List.any_eq_true.2 ⟨_, hv, by simp⟩)
        rw [hLe] at this; simp at this
      have hc : collect cmp acc e = (Dict.set acc.1 e.1 e.2, acc.2) := by simp only [collect, hg]
      rw [hc]
      refine ⟨fun k => ?_, fun k hk => ?_, fun k v w hv hw hne hcm => ?_⟩
      · simp only
        rw [get?_append, hsing, Dict.get?_set, h1]
        by_cases hk : e.1 = k
        · subst hk; simp [hLe]
        · have : ¬ k = e.1 := fun h => hk h.symm
          simp [hk, this]
      · obtain ⟨v, w, q1, q2, q3⟩ := h2 k hk
        exact ⟨v, w, by simp [q1], by rw [get?_append, q2]; rfl, q3⟩
      · simp only [List.mem_append, List.mem_singleton] at hv
        rcases hv with hv | rfl
        · have hk : ¬ e.1 = k := by rintro rfl; exact hnot _ hv
          rw [get?_append, hsing, if_neg hk, Option.or_none] at hw
          exact h3 k v w hv hw hne hcm
        · simp only at hLe
          rw [get?_append, hsing, hLe] at hw
          simp at hw
          exact absurd hw hne

theorem foldlM_pop (ks : List String) (d : Dict V) (hn : ks.Nodup) (h : ∀ k ∈ ks, (Dict.get? d k).isSome) :
    ∃ d', ks.foldlM pop d = .ok d' ∧ ∀ k, Dict.get? d' k = if k ∈ ks then none else Dict.get? d k := by
  induction ks generalizing d with
  | nil => exact ⟨d, rfl, by simp⟩
  | cons a ks ih =>
    have hm : Dict.mem d a = true := (Dict.mem_iff_get? d a).2 (h a (by simp))
    obtain ⟨hna, hn'⟩ := List.nodup_cons.1 hn
    obtain ⟨d', hd', hg⟩ := ih (Dict.del d a) hn' (by
      intro k hk
      rw [Dict.get?_del, if_neg (by rintro rfl; exact hna hk)]
      exact h k (by simp [hk]))
    refine ⟨d', ?_, fun k => ?_⟩
    · rw [Space.foldlM_ok_cons]; simp only [pop, hm, if_true]; exact hd'
    · rw [hg, Dict.get?_del]
      by_cases h1 : k ∈ ks <;> by_cases h2 : k = a <;> simp [h1, h2]

/-- Merging never fails. -/
theorem mergeMeta_ok (cmp : V → V → Bool) (ds : List (Dict V)) :
    ∃ m, mergeMeta cmp ds = .ok m ∧ ∀ k, Dict.get? m k =
      if k ∈ (ds.flatten.foldl (collect cmp) ([], [])).2 then none else Dict.get? (ds.flatten : Dict V) k := by
  obtain ⟨h1, h2, -⟩ := collect_inv cmp ds.flatten
  obtain ⟨m, hm, hg⟩ := foldlM_pop (fromKeys (ds.flatten.foldl (collect cmp) ([], [])).2)
    (ds.flatten.foldl (collect cmp) ([], [])).1 (nodup_fromKeys _) (by
      intro k hk
      rw [mem_fromKeys] at hk
      obtain ⟨v, w, q1, q2, q3⟩ := h2 k hk
      rw [h1, q2]; rfl)
  refine ⟨m, ?_, fun k => ?_⟩
  · simp only [mergeMeta, foldl_dicts]; exact hm
  · rw [hg]; simp only [mem_fromKeys, h1]

end Ev
end Pgkyl
