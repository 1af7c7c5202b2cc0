import Verif.Model.Commands
import Verif.Spec.Commands
import Verif.Lemmas.StoreCmd
import Verif.Lemmas.StoreOnce
import Verif.Lemmas.GData
import Verif.Lemmas.Collect
import Verif.Lemmas.CompOps
/-!
# Commands that compute one result per dataset
-/

namespace Pgkyl
open Spec

namespace Space
variable {F : Type}

theorem mapM_ok_forall₂ {f : GData F → Except Err (GData F)} : ∀ {ds : List (GData F)},
    (∀ d ∈ ds, ∃ r, f d = .ok r) → ∃ rs, ds.mapM f = .ok rs ∧ List.Forall₂ (fun d r => f d = .ok r) ds rs
  | [], _ => ⟨[], rfl, .nil⟩
  | d :: ds, h => by
    obtain ⟨r, hr⟩ := h d (by simp)
    obtain ⟨rs, h1, h2⟩ := mapM_ok_forall₂ (fun d hd => h d (List.mem_cons_of_mem _ hd))
    exact ⟨r :: rs, by simp [List.mapM_cons, hr, h1, bind, Except.bind, pure, Except.pure], .cons hr h2⟩

theorem visited_get {s : Space F} (hi : s.Inv) {ts : List Tag} {id : Nat} (h : id ∈ visited s ts) :
    ∃ d, s.heap[id]? = some d ∧ d.status = true := by
  obtain ⟨t, _, hm⟩ := List.mem_flatMap.1 h
  obtain ⟨hm, hact⟩ := List.mem_filter.1 hm
  cases hl : s.lookup t with
  | none => rw [hl] at hm; simp at hm
  | some l =>
    rw [hl] at hm
    have hlt := hi.lt hl hm
    refine ⟨s.heap[id], List.getElem?_eq_getElem hlt, ?_⟩
    unfold active at hact
    rw [List.getElem?_eq_getElem hlt] at hact
    exact hact

theorem toList_visited' {s : Space F} {use : Option Tag} (hkeys : ∀ t ∈ s.tagsOf use, t ∈ s.dict.map Prod.fst) :
    ∃ l, s.toList use false true .none = .ok l ∧ l.map Prod.snd = visited s (s.tagsOf use) := by
  have hlk : ∀ t ∈ s.tagsOf use, s.lookup t = some ((s.lookup t).getD []) := by
    intro t ht
    cases h : s.lookup t with
    | some l => rfl
    | none => exact absurd (hkeys t ht) ((Space.lookup_eq_none_iff s t).1 h)
  refine ⟨_, Space.toList_none hlk false true, ?_⟩
  rw [List.map_flatMap]
  unfold visited
  refine List.flatMap_congr fun t _ => ?_
  rw [Space.visit_map_snd]
  simp

theorem visited_nodup {s : Space F} (hi : s.Inv) {ts : List Tag} (hnd : ts.Nodup) : (visited s ts).Nodup := by
  have hl : ∀ t, ((s.lookup t).getD []).Nodup := by
    intro t
    cases h : s.lookup t with
    | none => simp
    | some l => exact hi.list_nodup h
  refine List.nodup_flatMap.2 ⟨fun t _ => (hl t).filter _, ?_⟩
  refine hnd.imp_of_mem ?_
  intro a b _ _ hab x hx hx'
  have hx := (List.mem_filter.1 hx).1
  have hx' := (List.mem_filter.1 hx').1
  cases ha : s.lookup a with
  | none => rw [ha] at hx; simp at hx
  | some la =>
    cases hb : s.lookup b with
    | none => rw [hb] at hx'; simp at hx'
    | some lb =>
      rw [ha] at hx; rw [hb] at hx'
      exact hi.disjoint ha hb hab hx hx'

/-- `mapCmd` with an output tag that is not among the tags still to be visited after the first one. -/
theorem map_adds {s : Space F} (hi : s.Inv) (f : GData F → Except Err (GData F)) {use : Option Tag}
    (hkeys : ∀ t ∈ s.tagsOf use, t ∈ s.dict.map Prod.fst) {c : Char} {cs : List Char}
    (hlater : c :: cs ∉ (s.tagsOf use).tail) {R : GData F → GData F → Prop}
    (hf : ∀ id ∈ visited s (s.tagsOf use), ∀ d, s.heap[id]? = some d → ∃ r, f d = .ok r ∧ r.tag = c :: cs ∧
      r.status = true ∧ R d r) :
    ∃ s', mapCmd f use (some (c :: cs)) s = .ok s' ∧ AddsResults s (c :: cs) (visited s (s.tagsOf use)) R s' := by
  obtain ⟨l, hl, hv⟩ := toList_visited' hkeys
  rw [mapCmd_tag]
  rw [iterate_ok (σ := Space F) id use false true .none (fun s _ i => mapBody f (c :: cs) s i) s hi
    (fun s' => (∃ x, s'.heap = s.heap ++ x) ∧ ∀ t, t ≠ c :: cs → s'.lookup t = s.lookup t)
    ⟨⟨[], by simp⟩, fun _ _ => rfl⟩
    (fun st i id st' hP hb => mapBody_preserves hP hb)
    (by rintro - st' ⟨⟨x, hx⟩, _⟩ i hi; exact active_append hx hi)
    (by
      rintro st' ⟨_, hlk⟩ t ht
      refine hlk t ?_
      rintro rfl
      exact hlater ht)
    hl]
  have hmem : ∀ e ∈ l, e.2 ∈ visited s (s.tagsOf use) := fun e he => hv ▸ List.mem_map_of_mem he
  let ds : List (GData F) := l.map fun e => (s.heap[e.2]?).getD {}
  have hds : l.map (fun e => s.heap[e.2]?) = ds.map some := by
    simp only [ds, List.map_map]
    refine List.map_congr_left fun e he => ?_
    obtain ⟨d, hd, _⟩ := visited_get hi (hmem e he)
    simp [hd]
  obtain ⟨rs, hrs, hall⟩ := mapM_ok_forall₂ (f := f) (ds := ds) (by
    intro d hd
    obtain ⟨e, he, rfl⟩ := List.mem_map.1 hd
    obtain ⟨d, hd, _⟩ := visited_get hi (hmem e he)
    obtain ⟨r, hr, _⟩ := hf _ (hmem e he) d hd
    exact ⟨r, by simpa [hd] using hr⟩)
  obtain ⟨s', h1, h2, h3, h4⟩ := foldlM_mapBody f (c :: cs) l s ds rs hds hrs
  have hlen : rs.length = (visited s (s.tagsOf use)).length := by
    rw [← hall.length_eq, ← hv]; simp [ds]
  refine ⟨s', h1, ?_, ?_, ?_, ?_⟩
  · intro j hj
    rw [h2, List.getElem?_append_left hj]
  · intro k id hk
    have hk' : (l.map Prod.snd)[k]? = some id := by rw [hv]; exact hk
    have hid : id ∈ visited s (s.tagsOf use) := List.mem_of_getElem? hk
    obtain ⟨d, hd, _⟩ := visited_get hi hid
    obtain ⟨r, hr, ht, hst, hR⟩ := hf id hid d hd
    refine ⟨d, r, hd, ?_, ht, hst, hR⟩
    rw [h2, List.getElem?_append_right (by omega), Nat.add_sub_cancel_left]
    rw [List.getElem?_map] at hk'
    cases hlk : l[k]? with
    | none => rw [hlk] at hk'; simp at hk'
    | some e =>
      rw [hlk] at hk'
      have he : e.2 = id := by simpa using hk'
      have hdk : ds[k]? = some d := by simp [ds, hlk, he, hd]
      have hkl : k < rs.length := by
        rw [← hall.length_eq]; exact (List.getElem?_eq_some_iff.1 hdk).1
      have hkd : k < ds.length := (List.getElem?_eq_some_iff.1 hdk).1
      have := List.forall₂_iff_get.1 hall |>.2 k hkd hkl
      have e1 : ds.get ⟨k, hkd⟩ = d := (List.getElem?_eq_some_iff.1 hdk).2
      rw [e1, hr] at this
      rw [List.getElem?_map, List.getElem?_eq_getElem hkl]
      have e2 : rs[k] = r := (Except.ok.inj this).symm
      simp only [Option.map_some, e2, Option.some.injEq]
      rw [← ht, ← hst]
  · rw [h2]; simp [hlen]
  · intro t
    by_cases ht : t = c :: cs
    · subst ht
      rw [h4, if_pos rfl, List.range'_eq_map_range, hlen]
    · rw [h3 t ht, if_neg ht, List.append_nil]

theorem foldlM_mapBody_error (f : GData F → Except Err (GData F)) (T : Tag) (s : Space F) : ∀ (l : List (Nat × Nat))
    (s' : Space F), (∃ x, s'.heap = s.heap ++ x) →
    (∃ e ∈ l, ∃ d, s.heap[e.2]? = some d ∧ ∃ err, f d = .error err) →
    ∃ err, l.foldlM (fun s e => mapBody f T s e.2) s' = .error err
  | [], _, _, h => by obtain ⟨_, h, _⟩ := h; simp at h
  | e :: l, s', ⟨x, hx⟩, h => by
    rw [foldlM_ok_cons]
    cases hb : mapBody f T s' e.2 with
    | error err => exact ⟨err, rfl⟩
    | ok s'' =>
      obtain ⟨e', he', d, hd, err, herr⟩ := h
      rcases List.mem_cons.1 he' with rfl | he'
      · have hlt := (List.getElem?_eq_some_iff.1 hd).1
        have : s'.heap[e'.2]? = some d := by rw [hx, List.getElem?_append_left hlt, hd]
        simp only [mapBody, this, herr] at hb
        cases hb
      · refine foldlM_mapBody_error f T s l s'' ?_ ⟨e', he', d, hd, err, herr⟩
        unfold mapBody at hb
        split at hb
        · cases hb; exact ⟨x, hx⟩
        · split at hb
          · cases hb
          · cases hb
            rw [addNew_heap, hx]
            exact ⟨_, List.append_assoc ..⟩

/-- `mapCmd` with an output tag fails if the computation fails for one of the datasets. -/
theorem map_fails {s : Space F} (hi : s.Inv) (f : GData F → Except Err (GData F)) {use : Option Tag}
    (hkeys : ∀ t ∈ s.tagsOf use, t ∈ s.dict.map Prod.fst) {c : Char} {cs : List Char}
    (hlater : c :: cs ∉ (s.tagsOf use).tail) {id : Nat} (hid : id ∈ visited s (s.tagsOf use)) {d : GData F}
    (hd : s.heap[id]? = some d) {err : Err} (hf : f d = .error err) :
    ∃ err, mapCmd f use (some (c :: cs)) s = .error err := by
  obtain ⟨l, hl, hv⟩ := toList_visited' hkeys
  rw [mapCmd_tag]
  rw [iterate_ok (σ := Space F) _root_.id use false true .none (fun s _ i => mapBody f (c :: cs) s i) s hi
    (fun s' => (∃ x, s'.heap = s.heap ++ x) ∧ ∀ t, t ≠ c :: cs → s'.lookup t = s.lookup t)
    ⟨⟨[], by simp⟩, fun _ _ => rfl⟩
    (fun st i id st' hP hb => mapBody_preserves hP hb)
    (by rintro - st' ⟨⟨x, hx⟩, _⟩ i hi; exact active_append hx hi)
    (by
      rintro st' ⟨_, hlk⟩ t ht
      refine hlk t ?_
      rintro rfl
      exact hlater ht)
    hl]
  rw [← hv] at hid
  obtain ⟨e, he, rfl⟩ := List.mem_map.1 hid
  exact foldlM_mapBody_error f _ s l s ⟨[], by simp⟩ ⟨e, he, d, hd, err, hf⟩

/-- `mapCmd` without an output tag. -/
theorem map_replaces {s : Space F} (hi : s.Inv) (f : GData F → Except Err (GData F)) {use : Option Tag}
    (hkeys : ∀ t ∈ s.tagsOf use, t ∈ s.dict.map Prod.fst) (hnd : (s.tagsOf use).Nodup) {R : GData F → GData F → Prop}
    (hf : ∀ id ∈ visited s (s.tagsOf use), ∀ d, s.heap[id]? = some d → ∃ r, f d = .ok r ∧ r.tag = d.tag ∧
      r.status = d.status ∧ R d r) :
    ∃ s', mapCmd f use none s = .ok s' ∧ ReplacesResults s (visited s (s.tagsOf use)) R s' := by
  obtain ⟨l, hl, hv⟩ := toList_visited' hkeys
  rw [mapCmd_inplace]
  rw [iterate_ok (σ := Space F) id use false true .none (fun s _ i => inplaceBody f s i) s hi
    (fun s' => s'.dict = s.dict ∧ ∀ j, s'.active j = s.active j) ⟨rfl, fun _ => rfl⟩
    (by
      rintro st i id st' ⟨h1, h2⟩ hb
      unfold inplaceBody at hb
      split at hb
      · cases hb; exact ⟨h1, h2⟩
      · split at hb
        · cases hb
        · cases hb
          exact ⟨h1, fun j => by rw [update_active]; exact h2 j⟩)
    (by rintro - st' ⟨_, h2⟩ i _; exact h2 i)
    (by rintro st' ⟨h1, _⟩ t _; simp only [id, lookup, h1])
    hl]
  have hmem : ∀ e ∈ l, e.2 ∈ visited s (s.tagsOf use) := fun e he => hv ▸ List.mem_map_of_mem he
  obtain ⟨s', h1, h2, h3, h4, h5⟩ := foldlM_inplace f l s (by rw [hv]; exact visited_nodup hi hnd) (by
    intro e he
    obtain ⟨d, hd, _⟩ := visited_get hi (hmem e he)
    obtain ⟨r, hr, _⟩ := hf _ (hmem e he) d hd
    exact ⟨d, r, hd, hr⟩)
  refine ⟨s', h1, ?_, ?_, h3, h2⟩
  · intro j hj
    exact h5 j (by rw [hv]; exact hj)
  · intro id hid
    obtain ⟨d, hd, _⟩ := visited_get hi hid
    obtain ⟨r, hr, ht, hst, hR⟩ := hf id hid d hd
    obtain ⟨e, he, rfl⟩ := List.mem_map.1 (hv ▸ hid)
    refine ⟨d, r, hd, ?_, ht, hst, hR⟩
    rw [h4 e he d r hd hr]
    congr 1
    rw [← ht, ← hst]

end Space

namespace Cmd
variable {F : Type} [Min F] [Max F]

theorem push_tag {d r : GData F} {g : List (NArr F)} {v : NArr F} (h : d.push g v = .ok r) :
    r.tag = d.tag ∧ r.status = d.status ∧ r.ctx.other = d.ctx.other ∧ r.grid = some g ∧ r.values = some v := by
  obtain ⟨nc, l, u, -, -, -, rfl⟩ := GData.push_eq_ok h
  exact ⟨rfl, rfl, rfl, rfl, rfl⟩

/-- A grid with coordinates for every axis can be stored with a field. -/
theorem push_field {g : List (NArr F)} {cells : List Nat} (hl : cells.length ≤ g.length) (hg : ∀ a ∈ g, a.data ≠ [])
    {v : NArr F} {m : Nat} {f : List Nat → Nat → F} (hv : IsField v cells m f) (d : GData F) :
    ∃ r, d.push g v = .ok r ∧ HoldsField r g cells m f := by
  have hn : v.shape.length - 1 ≤ g.length := by rw [hv.shape]; simpa using hl
  obtain ⟨l, h1⟩ := Collect.minima_ok hg hn
  obtain ⟨u, h2⟩ := Collect.maxima_ok hg hn
  exact ⟨_, GData.push_ok hv.last h1 h2, rfl, hl, hg, v, rfl, hv⟩

theorem pushCmd_tag (f : GData F → Except Err (List (NArr F) × NArr F)) (use : Option Tag) (c : Char) (cs : List Char)
    (label : List Char) (s : Space F) :
    pushCmd f use (some (c :: cs)) label s =
      Space.mapCmd (fun d => do let p ← f d; (GData.new (c :: cs) label d.ctx).push p.1 p.2) use (some (c :: cs)) s := by
  unfold pushCmd Space.mapCmd
  congr 1
  funext s _ i
  cases s.heap[i]? with
  | none => rfl
  | some d =>
    simp only [bind, Except.bind]
    cases f d with
    | error e => rfl
    | ok p =>
      simp only
      cases hp : (GData.new (c :: cs) label d.ctx).push p.1 p.2 with
      | error e => rfl
      | ok r =>
        obtain ⟨h1, h2, -⟩ := push_tag hp
        have : r = { r with tag := c :: cs, status := true } := by
          rw [show c :: cs = r.tag from h1.symm, show true = r.status from h2.symm]
        simp only
        rw [← this]

theorem pushCmd_none (f : GData F → Except Err (List (NArr F) × NArr F)) (use : Option Tag) (label : List Char) (s : Space F) :
    pushCmd f use none label s = Space.mapCmd (fun d => do let p ← f d; d.push p.1 p.2) use none s := by
  unfold pushCmd Space.mapCmd
  congr 1
  funext s _ i
  cases hd : s.heap[i]? with
  | none => rfl
  | some d =>
    simp only [bind, Except.bind]
    cases f d with
    | error e => rfl
    | ok p =>
      simp only
      cases hp : d.push p.1 p.2 with
      | error e => rfl
      | ok r =>
        obtain ⟨h1, h2, -⟩ := push_tag hp
        simp only [Except.ok.injEq]
        unfold Space.update
        congr 1
        refine List.ext_getElem? fun j => ?_
        rw [List.getElem?_modify, List.getElem?_modify]
        by_cases hj : i = j
        · subst hj
          simp only [if_true, hd, Option.map_eq_map, Option.map_some, Option.some.injEq]
          rw [← h1, ← h2]
        · simp [hj]

omit [Min F] [Max F] in
theorem addNew_update (s : Space F) {a b : GData F} (h : a.tag = b.tag) :
    (s.addNew a).update s.heap.length (fun _ => b) = s.addNew b := by
  unfold Space.addNew Space.add Space.alloc Space.update
  simp [h]
  refine List.ext_getElem? fun j => ?_
  rw [List.getElem?_modify]
  by_cases hj : s.heap.length = j
  · subst hj; simp
  · simp only [hj, if_false]
    rcases Nat.lt_or_ge j s.heap.length with h | h
    · simp [List.getElem?_append_left h]
    · rw [List.getElem?_eq_none (by simp; omega), List.getElem?_eq_none (by simp; omega)]; rfl

/-- The order of computing and adding does not matter if nothing fails or the program ends. -/
theorem fluidCmd_some (f : NArr F → Except Err (NArr F)) (use tag : Option Tag) (label : List Char) (s : Space F) :
    fluidCmd (some f) use tag label s = pushCmd (ofValues f) use tag label s := by
  unfold fluidCmd pushCmd
  congr 1
  funext s _ i
  cases hd : s.heap[i]? with
  | none => rfl
  | some d =>
    simp only [bind, Except.bind]
    rcases tag with _ | t
    · rfl
    · rcases t with _ | ⟨c, cs⟩
      · rfl
      · simp only
        cases ofValues f d with
        | error e => rfl
        | ok p =>
          simp only
          cases hp : (GData.new (c :: cs) label d.ctx).push p.1 p.2 with
          | error e => rfl
          | ok r =>
            simp only [Except.ok.injEq]
            exact addNew_update s (push_tag hp).1.symm

/-- A command whose computation gives a field on the grid of the dataset, with an output tag. -/
theorem pushCmd_adds {f : NArr F → Except Err (NArr F)} {s : Space F} (hi : s.Inv) {use : Option Tag}
    (hkeys : ∀ t ∈ s.tagsOf use, t ∈ s.dict.map Prod.fst) {T : Tag} (hT : T ≠ [])
    (hlater : T ∉ (s.tagsOf use).tail) (label : List Char) {R : GData F → GData F → Prop}
    (hf : ∀ id ∈ visited s (s.tagsOf use), ∀ d, s.heap[id]? = some d → ∃ g v w, d.grid = some g ∧ d.values = some v ∧
      f v = .ok w ∧ ∀ e : GData F, e.ctx.other = d.ctx.other → ∃ r, e.push g w = .ok r ∧ R d r) :
    ∃ s', pushCmd (ofValues f) use (some T) label s = .ok s' ∧ AddsResults s T (visited s (s.tagsOf use)) R s' := by
  cases T with
  | nil => exact absurd rfl hT
  | cons c cs =>
    rw [pushCmd_tag]
    refine Space.map_adds hi _ hkeys hlater fun id hid d hd => ?_
    obtain ⟨g, v, w, h1, h2, h3, h4⟩ := hf id hid d hd
    obtain ⟨r, hr, hR⟩ := h4 (GData.new (c :: cs) label d.ctx) rfl
    refine ⟨r, ?_, (push_tag hr).1, (push_tag hr).2.1, hR⟩
    simp only [ofValues, h1, h2, h3, bind, Except.bind, pure, Except.pure, hr]

theorem pushCmd_fails {f : GData F → Except Err (List (NArr F) × NArr F)} {s : Space F} (hi : s.Inv) {use : Option Tag}
    (hkeys : ∀ t ∈ s.tagsOf use, t ∈ s.dict.map Prod.fst) {T : Tag} (hT : T ≠ [])
    (hlater : T ∉ (s.tagsOf use).tail) (label : List Char) {id : Nat} (hid : id ∈ visited s (s.tagsOf use)) {d : GData F}
    (hd : s.heap[id]? = some d) {err : Err} (hf : f d = .error err) :
    ∃ err, pushCmd f use (some T) label s = .error err := by
  cases T with
  | nil => exact absurd rfl hT
  | cons c cs =>
    rw [pushCmd_tag]
    refine Space.map_fails hi _ hkeys hlater hid hd (err := err) ?_
    simp only [hf, bind, Except.bind]

theorem pushCmd_replaces {f : NArr F → Except Err (NArr F)} {s : Space F} (hi : s.Inv) {use : Option Tag}
    (hkeys : ∀ t ∈ s.tagsOf use, t ∈ s.dict.map Prod.fst) (hnd : (s.tagsOf use).Nodup) (label : List Char)
    {R : GData F → GData F → Prop}
    (hf : ∀ id ∈ visited s (s.tagsOf use), ∀ d, s.heap[id]? = some d → ∃ g v w, d.grid = some g ∧ d.values = some v ∧
      f v = .ok w ∧ ∀ e : GData F, e.ctx.other = d.ctx.other → ∃ r, e.push g w = .ok r ∧ R d r) :
    ∃ s', pushCmd (ofValues f) use none label s = .ok s' ∧ ReplacesResults s (visited s (s.tagsOf use)) R s' := by
  rw [pushCmd_none]
  refine Space.map_replaces hi _ hkeys hnd fun id hid d hd => ?_
  obtain ⟨g, v, w, h1, h2, h3, h4⟩ := hf id hid d hd
  obtain ⟨r, hr, hR⟩ := h4 d rfl
  refine ⟨r, ?_, (push_tag hr).1, (push_tag hr).2.1, hR⟩
  simp only [ofValues, h1, h2, h3, bind, Except.bind, pure, Except.pure, hr]

/-- What a pointwise function makes of a dataset: if every field `q` that the dataset holds (and that has the property
`gas`) is turned into a field, the result dataset holds this field. -/
theorem derived_of {f : NArr F → Except Err (NArr F)} {d : GData F} {σ : Type} {gas : σ → Prop} {cells : σ → List Nat}
    {m : σ → Nat} {q : σ → List Nat → Nat → F} {res : σ → Nat → (List Nat → Nat → F) → Prop} {g : List (NArr F)} {x : σ}
    (hx : gas x) (h : HoldsField d g (cells x) (m x) (q x))
    (hf : ∀ x, gas x → ∀ v, IsField v (cells x) (m x) (q x) → ∃ n p, res x n p ∧ Gives (f v) (cells x) n p) :
    ∃ g v w, d.grid = some g ∧ d.values = some v ∧ f v = .ok w ∧
      ∀ e : GData F, e.ctx.other = d.ctx.other → ∃ r, e.push g w = .ok r ∧
        ∀ y g', gas y → HoldsField d g' (cells y) (m y) (q y) → ∃ n p, res y n p ∧ Derived (cells y) n p d r := by
  obtain ⟨h1, h2, h3, v, h4, h5⟩ := h
  obtain ⟨n, p, -, w, hw, hp⟩ := hf x hx v h5
  refine ⟨g, v, w, h1, h4, hw, fun e he => ?_⟩
  obtain ⟨r, hr, hh⟩ := push_field h2 h3 hp e
  refine ⟨r, hr, fun y g' hy hd => ?_⟩
  obtain ⟨k1, k2, k3, v', k4, k5⟩ := hd
  rw [h4] at k4; cases k4
  rw [h1] at k1; cases k1
  obtain ⟨n', p', hres, w', hw', hp'⟩ := hf y hy v k5
  rw [hw] at hw'; cases hw'
  obtain ⟨-, -, t3, t4, t5⟩ := push_tag hr
  exact ⟨n', p', hres, ⟨g, h1, t4, k2, h3, w, t5, hp'⟩, by rw [t3, he]⟩

/-- A command whose computation succeeds, with an output tag. -/
theorem pushCmd_adds' {f : GData F → Except Err (List (NArr F) × NArr F)} {s : Space F} (hi : s.Inv) {use : Option Tag}
    (hkeys : ∀ t ∈ s.tagsOf use, t ∈ s.dict.map Prod.fst) {T : Tag} (hT : T ≠ [])
    (hlater : T ∉ (s.tagsOf use).tail) (label : List Char) {R : GData F → GData F → Prop}
    (hf : ∀ id ∈ visited s (s.tagsOf use), ∀ d, s.heap[id]? = some d → ∃ g w, f d = .ok (g, w) ∧
      ∀ e : GData F, e.ctx.other = d.ctx.other → ∃ r, e.push g w = .ok r ∧ R d r) :
    ∃ s', pushCmd f use (some T) label s = .ok s' ∧ AddsResults s T (visited s (s.tagsOf use)) R s' := by
  cases T with
  | nil => exact absurd rfl hT
  | cons c cs =>
    rw [pushCmd_tag]
    refine Space.map_adds hi _ hkeys hlater fun id hid d hd => ?_
    obtain ⟨g, w, h3, h4⟩ := hf id hid d hd
    obtain ⟨r, hr, hR⟩ := h4 (GData.new (c :: cs) label d.ctx) rfl
    refine ⟨r, ?_, (push_tag hr).1, (push_tag hr).2.1, hR⟩
    simp only [h3, bind, Except.bind, hr]

theorem pushCmd_replaces' {f : GData F → Except Err (List (NArr F) × NArr F)} {s : Space F} (hi : s.Inv) {use : Option Tag}
    (hkeys : ∀ t ∈ s.tagsOf use, t ∈ s.dict.map Prod.fst) (hnd : (s.tagsOf use).Nodup) (label : List Char)
    {R : GData F → GData F → Prop}
    (hf : ∀ id ∈ visited s (s.tagsOf use), ∀ d, s.heap[id]? = some d → ∃ g w, f d = .ok (g, w) ∧
      ∀ e : GData F, e.ctx.other = d.ctx.other → ∃ r, e.push g w = .ok r ∧ R d r) :
    ∃ s', pushCmd f use none label s = .ok s' ∧ ReplacesResults s (visited s (s.tagsOf use)) R s' := by
  rw [pushCmd_none]
  refine Space.map_replaces hi _ hkeys hnd fun id hid d hd => ?_
  obtain ⟨g, w, h3, h4⟩ := hf id hid d hd
  obtain ⟨r, hr, hR⟩ := h4 d rfl
  refine ⟨r, ?_, (push_tag hr).1, (push_tag hr).2.1, hR⟩
  simp only [h3, bind, Except.bind, hr]

/-! ### The grid as a dataset -/

section
variable {F : Type}

/-- Filling the components from `k` on. -/
theorem fill_from {cells : List Nat} {m : Nat} {p : Nat → List Nat → F} : ∀ (arrays : List (NArr F)) (k : Nat) (out : NArr F)
    (f : List Nat → Nat → F), IsField out cells m f → k + arrays.length ≤ m →
    (∀ (c : Nat) (a : NArr F), arrays[c]? = some a → IsPlain a cells (p (k + c))) →
    Gives ((arrays.zipIdx k).foldlM (fun out e => NArr.assignComp out e.2 e.1) out) cells m
      fun i c => if k ≤ c ∧ c < k + arrays.length then p c i else f i c
  | [], k, out, f, hf, _, _ => ⟨out, rfl, hf.congr fun i _ c _ => by
      simp only [List.length_nil]; rw [if_neg (by omega)]⟩
  | a :: as, k, out, f, hf, hm, hp => by
    simp only [List.length_cons] at hm
    obtain ⟨out', h1, h2⟩ := gives_assign hf (k := k) (by omega) (hp 0 a rfl)
    rw [List.zipIdx_cons, Space.foldlM_ok_cons]
    simp only [h1]
    refine (fill_from (p := p) as (k + 1) out' _ h2 (by omega) fun c b hb => ?_).congr fun i _ c _ => ?_
    · have := hp (c + 1) b (by simpa using hb)
      rwa [show k + (c + 1) = k + 1 + c by omega] at this
    · simp only [List.length_cons]
      by_cases h : c = k
      · subst h
        rw [if_neg (by omega), if_pos rfl, if_pos (by omega)]
        rfl
      · rw [if_neg h]
        by_cases h' : k + 1 ≤ c ∧ c < k + 1 + as.length
        · rw [if_pos h', if_pos (by omega)]
        · rw [if_neg h', if_neg (by omega)]

theorem fill_gives [Zero F] {cells : List Nat} {p : Nat → List Nat → F} {arrays : List (NArr F)}
    (hp : ∀ (c : Nat) (a : NArr F), arrays[c]? = some a → IsPlain a cells (p c)) :
    Gives (fillComps arrays (NArr.zeros (cells ++ [arrays.length]))) cells arrays.length fun i c => p c i := by
  refine (fill_from (p := p) arrays 0 _ _ (isField_zeros cells arrays.length) (by omega) (by simpa using hp)).congr
    fun i _ c hc => ?_
  rw [if_pos (by omega)]

theorem inRange_get {s i : List Nat} (h : inRange s i = true) {c n : Nat} (hc : s[c]? = some n) :
    ∃ k, i[c]? = some k ∧ k < n := by
  induction s generalizing i c with
  | nil => simp at hc
  | cons a s ih =>
    cases i with
    | nil => simp [inRange] at h
    | cons j i =>
      simp only [inRange, Bool.and_eq_true, decide_eq_true_eq] at h
      cases c with
      | zero => simp at hc; exact ⟨j, rfl, by omega⟩
      | succ c => exact ih h.2 (by simpa using hc)

theorem gridOf_uniform [Zero F] [NatCast F] {d : GData F} {cells : List Nat} {x : Nat → Nat → F}
    (h : UniformNodes d cells x) :
    ∃ v, gridOf d = .ok (cells.map fun n => NArr.ofList ((List.range (n + 2)).map fun k : Nat => (k : F)), v) ∧
      IsField v (cells.map (· + 1)) cells.length fun i c => x c ((i[c]?).getD 0) := by
  obtain ⟨hne, hc, g, hg, hlen, hx⟩ := h
  have hshape : ∀ (c : Nat) (a : NArr F), g[c]? = some a → ∃ n, cells[c]? = some n ∧
      a = NArr.ofList ((List.range (n + 1)).map (x c)) := by
    intro c a ha
    have hlt : c < cells.length := by rw [← hlen]; exact (List.getElem?_eq_some_iff.1 ha).1
    have := hx c _ (List.getElem?_eq_getElem hlt)
    rw [ha] at this
    exact ⟨_, List.getElem?_eq_getElem hlt, Option.some.inj this⟩
  have hplain : ∀ (c n : Nat), cells[c]? = some n → IsPlain (NArr.ofList ((List.range (n + 1)).map (x c))) [n + 1]
      fun i => x c ((i[0]?).getD 0) := by
    intro c n _
    refine ⟨by simp [NArr.WF, NArr.ofList], by simp [NArr.ofList], fun i hi => ?_⟩
    obtain ⟨k, rfl⟩ : ∃ k, i = [k] := by
      match i, hi with
      | [k], _ => exact ⟨k, rfl⟩
      | [], hi => simp [inRange] at hi
      | _ :: _ :: _, hi => simp [inRange] at hi
    have hk : k < n + 1 := by simpa [inRange] using hi
    simp [NArr.get?, NArr.ofList, inRange, hk, ravel]
  cases g with
  | nil => exact absurd (List.length_eq_zero_iff.1 hlen.symm) hne
  | cons a as =>
    obtain ⟨n, hn, ha⟩ := hshape 0 a rfl
    simp only [gridOf, hg, hc]
    by_cases h1 : cells.length = 1
    · obtain ⟨n', rfl⟩ := List.length_eq_one_iff.1 h1
      cases Option.some.inj hn
      obtain ⟨v, hv, hf⟩ := gives_assign (isField_zeros (F := F) [n + 1] 1) (k := 0) (by omega) (hplain 0 n rfl)
      refine ⟨v, ?_, hf.congr fun i hi c hc => ?_⟩
      · rw [if_pos h1, ha]
        show (do let y ← NArr.assignComp (NArr.zeros ([n + 1] ++ [1])) 0 _; pure (_, y)) = _
        rw [hv]; rfl
      · have : c = 0 := by simpa using hc
        subst this
        rw [if_pos rfl]
    · rw [if_neg h1, if_pos (by rw [ha]; rfl)]
      have hsh : (a :: as).map (fun g => g.data.length) = cells.map (· + 1) := by
        refine List.ext_getElem? fun c => ?_
        rw [List.getElem?_map, List.getElem?_map]
        cases hc : (a :: as)[c]? with
        | none =>
          rw [List.getElem?_eq_none (by rw [← hlen]; exact List.getElem?_eq_none_iff.1 hc)]; rfl
        | some b =>
          obtain ⟨n, h2, rfl⟩ := hshape c b hc
          simp [h2, NArr.ofList]
      have hml : (meshgrid (a :: as)).length = cells.length := by simp [meshgrid, ← hlen]
      have := fill_gives (cells := cells.map (· + 1)) (p := fun c i => x c ((i[c]?).getD 0)) (arrays := meshgrid (a :: as))
        (by
          intro c b hb
          obtain ⟨hlt, rfl⟩ := List.getElem?_eq_some_iff.1 hb
          simp only [meshgrid, List.getElem_map, List.getElem_range, hsh]
          refine isPlain_of_ofFn fun i hi => ?_
          have hlt' : c < cells.length := hml ▸ hlt
          obtain ⟨k, hk, hk'⟩ := inRange_get hi (c := c) (n := cells[c] + 1) (by simp [hlt'])
          have hgc := hx c _ (List.getElem?_eq_getElem hlt')
          simp [hgc, hk, NArr.ofList, hk', bind])
      rw [hml] at this
      obtain ⟨v, hv, hf⟩ := this
      refine ⟨v, ?_, hf⟩
      rw [hv]; rfl

theorem gridOf_mapped [Zero F] [NatCast F] {d : GData F} {cells : List Nat} {x : Nat → List Nat → F}
    (h : MappedNodes d cells x) :
    ∃ v, gridOf d = .ok (cells.map fun n => NArr.ofList ((List.range (n + 2)).map fun k : Nat => (k : F)), v) ∧
      IsField v (cells.map (· + 1)) cells.length fun i c => x c i := by
  obtain ⟨hne, hc, g, hg, hlen, hx⟩ := h
  cases g with
  | nil => simp at hlen; omega
  | cons a as =>
    simp only [gridOf, hg, hc]
    rw [if_neg (by omega), if_neg (by rw [(hx 0 a rfl).2.1]; simp; omega)]
    have := fill_gives (cells := cells.map (· + 1)) (p := x) (arrays := a :: as) fun c b hb =>
      ⟨(hx c b hb).1, (hx c b hb).2.1, (hx c b hb).2.2⟩
    rw [hlen] at this
    obtain ⟨v, hv, hf⟩ := this
    exact ⟨v, by rw [hv]; rfl, hf⟩

theorem push_index [Min F] [Max F] [NatCast F] {cells : List Nat} {v : NArr F} {x : List Nat → Nat → F}
    (hv : IsField v (cells.map (· + 1)) cells.length x) (e : GData F) :
    ∃ r, e.push (cells.map fun n => NArr.ofList ((List.range (n + 2)).map fun k : Nat => (k : F))) v = .ok r := by
  obtain ⟨r, hr, -⟩ := push_field
      (g := cells.map fun n => NArr.ofList ((List.range (n + 2)).map fun k : Nat => (k : F))) (by simp) (by
    intro a ha
    obtain ⟨n, -, rfl⟩ := List.mem_map.1 ha
    simp [NArr.ofList]) hv e
  exact ⟨r, hr⟩

theorem gridOf_nodes [Min F] [Max F] [Zero F] [NatCast F] {d : GData F}
    (h : (∃ cells x, UniformNodes d cells x) ∨ ∃ cells x, MappedNodes d cells x) :
    ∃ g w, gridOf d = .ok (g, w) ∧ ∀ e : GData F, e.ctx.other = d.ctx.other → ∃ r, e.push g w = .ok r ∧
      (∀ cells x, UniformNodes d cells x → HoldsNodes r cells fun i c => x c (i.getD c 0)) ∧
      (∀ cells x, MappedNodes d cells x → HoldsNodes r cells fun i c => x c i) := by
  have key : ∃ (cells : List Nat) (x : List Nat → Nat → F) (v : NArr F),
      gridOf d = .ok (cells.map fun n => NArr.ofList ((List.range (n + 2)).map fun k : Nat => (k : F)), v) ∧
      IsField v (cells.map (· + 1)) cells.length x := by
    rcases h with ⟨cells, x, h⟩ | ⟨cells, x, h⟩
    · obtain ⟨v, h1, h2⟩ := gridOf_uniform h
      exact ⟨cells, _, v, h1, h2⟩
    · obtain ⟨v, h1, h2⟩ := gridOf_mapped h
      exact ⟨cells, _, v, h1, h2⟩
  obtain ⟨cells, x, v, h1, h2⟩ := key
  refine ⟨_, v, h1, fun e _ => ?_⟩
  obtain ⟨r, hr⟩ := push_index h2 e
  obtain ⟨-, -, -, hg, hv⟩ := push_tag hr
  refine ⟨r, hr, fun cells' x' hx => ?_, fun cells' x' hx => ?_⟩
  · obtain ⟨v', k1, k2⟩ := gridOf_uniform hx
    rw [h1] at k1
    obtain ⟨e1, e2⟩ := Prod.mk.inj (Except.ok.inj k1)
    subst e2
    exact ⟨by rw [hg, e1], v, hv, k2.congr fun i _ c _ => by rw [List.getD_eq_getElem?_getD]⟩
  · obtain ⟨v', k1, k2⟩ := gridOf_mapped hx
    rw [h1] at k1
    obtain ⟨e1, e2⟩ := Prod.mk.inj (Except.ok.inj k1)
    subst e2
    exact ⟨by rw [hg, e1], v, hv, k2⟩

end

end Cmd
end Pgkyl
