import Verif.Lemmas.Commands
import Verif.Spec.PairCommands
import Verif.Props.DataSpace
import Verif.Lemmas.Tools
import Verif.Lemmas.Idx
/-!
# Commands that combine datasets of several tags
-/

namespace Pgkyl
open Spec

namespace Space
variable {F : Type}

/-- A loop whose body adds one dataset, computed from datasets that were there before. -/
theorem foldlM_adds {ι : Type} {T : Tag} {s0 : Space F} (body : Space F → ι → Except Err (Space F)) {Rel : ι → GData F → Prop} :
    ∀ (items : List ι) (s : Space F), Reachable s → (∃ x, s.heap = s0.heap ++ x) →
      (∀ x ∈ items, ∀ st : Space F, (∃ y, st.heap = s0.heap ++ y) →
        ∃ r, body st x = .ok (st.addNew r) ∧ r.tag = T ∧ r.status = true ∧ Rel x r) →
      ∃ s', items.foldlM body s = .ok s' ∧ (Reachable s' ∧ ∀ t ∈ s.dict.map Prod.fst, t ∈ s'.dict.map Prod.fst) ∧
        AddsEach s T items Rel s'
  | [], s, hr, _, _ => ⟨s, rfl, ⟨hr, fun _ h => h⟩, fun _ _ => rfl, fun k x h => by simp at h, rfl, fun t => by simp⟩
  | x :: items, s, hr, ⟨y, hy⟩, hf => by
    obtain ⟨r, hb, ht, hst, hR⟩ := hf x (by simp) s ⟨y, hy⟩
    obtain ⟨s', h1, h2, h3⟩ := foldlM_adds body items (s.addNew r) (.add hr r)
      ⟨y ++ [r], by rw [addNew_heap, hy, List.append_assoc]⟩ (fun x hx => hf x (List.mem_cons_of_mem _ hx))
    have hh : (s.addNew r).heap = s.heap ++ [r] := addNew_heap ..
    have hlen : (s.addNew r).heap.length = s.heap.length + 1 := by rw [hh]; simp
    refine ⟨s', ?_, ⟨h2.1, fun t ht => h2.2 t ?_⟩, fun j hj => ?_, fun k x' hk => ?_, ?_, fun t => ?_⟩
    · rw [foldlM_ok_cons, hb]; exact h1
    · have : (s.addNew r).keys = _ := addNew_keys ..
      show t ∈ (s.addNew r).keys
      rw [this]
      split
      · exact ht
      · exact List.mem_append_left _ ht
    · rw [h3.old j (by omega), hh, List.getElem?_append_left hj]
    · cases k with
      | zero =>
        cases Option.some.inj hk
        refine ⟨r, ?_, ht, hst, hR⟩
        rw [Nat.add_zero, h3.old _ (by omega), hh]
        simp
      | succ k =>
        obtain ⟨r', k1, k2⟩ := h3.results k x' (by simpa using hk)
        refine ⟨r', ?_, k2⟩
        rw [← k1, hlen]
        congr 1
        omega
    · rw [h3.length, hlen, List.length_cons]; omega
    · rw [h3.lists t, addNew_lookup, hlen]
      by_cases h : t = T
      · subst h
        rw [if_pos ht, if_pos rfl, if_pos rfl, List.length_cons, List.range'_succ]
        simp
      · rw [if_neg (fun h' => h (h'.symm.trans ht)), if_neg h, if_neg h]

theorem requests_one (s : Space F) {a : Tag} (ha : ',' ∉ a) (ha' : a ≠ []) : Requests s (some a) [a] :=
  .listed (ts := [a]) ha' (by simpa using ha)

theorem tagsOf_one (s : Space F) {a : Tag} (ha : ',' ∉ a) (ha' : a ≠ []) : s.tagsOf (some a) = [a] :=
  (requests_one s ha ha').tagsOf_eq

theorem deactivate_off {s : Space F} (hi : s.Inv) {a : Tag} (ha : ',' ∉ a) (ha' : a ≠ [])
    (hka : a ∈ s.dict.map Prod.fst) : ∃ s', s.deactivateAll (some a) = .ok s' ∧ s'.Inv ∧ SwitchedOff s [a] s' := by
  have hl : s.lookup a = some ((s.lookup a).getD []) := by
    cases h : s.lookup a with
    | some l => rfl
    | none => exact absurd hka ((Space.lookup_eq_none_iff s a).1 h)
  obtain ⟨s', h1, h2, h3, h4⟩ := iterate_update hi GData.deactivate (fun _ => rfl)
    (toList_none (ls := fun t => (s.lookup t).getD []) (by rw [tagsOf_one s ha ha']; simpa using hl) false false)
  have hm : ((s.tagsOf (some a)).flatMap fun t => visit s.active false ((s.lookup t).getD [])).map Prod.snd =
      (s.lookup a).getD [] := by
    rw [tagsOf_one s ha ha', List.map_flatMap]
    simp only [List.flatMap_cons, List.flatMap_nil, List.append_nil, visit_map_snd]
    simp
  rw [hm] at h4
  refine ⟨s', h1, hi.congr h2 h3, h2, fun t ht id hid => ?_, fun id hid => ?_⟩
  · have : t = a := by simpa using ht
    subst this
    rw [h4, if_pos hid]; rfl
  · rw [h4, if_neg (hid a (by simp))]

end Space

namespace Spec
variable {F : Type}

theorem SwitchedOff.trans {s s1 s2 : Space F} {l l' : List Tag} (h : SwitchedOff s l s1) (h' : SwitchedOff s1 l' s2) :
    SwitchedOff s (l ++ l') s2 := by
  have hlk : ∀ t, s1.lookup t = s.lookup t := fun t => by simp only [Space.lookup, h.lists]
  refine ⟨h'.lists.trans h.lists, fun t ht id hid => ?_, fun id hid => ?_⟩
  · by_cases h1 : ∃ t' ∈ l', id ∈ (s.lookup t').getD []
    · obtain ⟨t', ht', hid'⟩ := h1
      rw [h'.off t' ht' id (by rw [hlk]; exact hid')]
      by_cases h2 : ∃ t ∈ l, id ∈ (s.lookup t).getD []
      · obtain ⟨t, ht, hid⟩ := h2
        rw [h.off t ht id hid]
        cases s.heap[id]? <;> rfl
      · push Not at h2
        rw [h.others id h2]
    · push Not at h1
      rw [h'.others id (by intro t ht; rw [hlk]; exact h1 t ht)]
      rcases List.mem_append.1 ht with ht | ht
      · exact h.off t ht id hid
      · exact absurd hid (h1 t ht)
  · rw [h'.others id (by intro t ht; rw [hlk]; exact hid t (List.mem_append_right _ ht)),
      h.others id fun t ht => hid t (List.mem_append_left _ ht)]

end Spec

namespace Space
variable {F : Type}

theorem toList_one {s : Space F} {a : Tag} (ha : ',' ∉ a) (ha' : a ≠ []) (hka : a ∈ s.dict.map Prod.fst) :
    ∃ l, s.toList (some a) false true .none = .ok l ∧ l.map Prod.snd = visited s [a] := by
  have := toList_visited' (s := s) (use := some a) (by rw [tagsOf_one s ha ha']; simpa using hka)
  rwa [tagsOf_one s ha ha'] at this

end Space

namespace Cmd
variable {F : Type}

theorem pairsOf_eq {s : Space F} {a b : Tag} (ha : ',' ∉ a) (ha' : a ≠ []) (hka : a ∈ s.dict.map Prod.fst)
    (hb : ',' ∉ b) (hb' : b ≠ []) (hkb : b ∈ s.dict.map Prod.fst) : pairsOf s (some a) (some b) = .ok (pairs s a b) := by
  obtain ⟨la, h1, h2⟩ := Space.toList_one ha ha' hka
  obtain ⟨lb, h3, h4⟩ := Space.toList_one hb hb' hkb
  simp only [pairsOf, h1, h3, bind, Except.bind, pairs, ← h2, ← h4]
  cases la with
  | nil => rfl
  | cons e la => rfl

theorem triplesOf_eq {s : Space F} {a b c : Tag} (ha : ',' ∉ a) (ha' : a ≠ []) (hka : a ∈ s.dict.map Prod.fst)
    (hb : ',' ∉ b) (hb' : b ≠ []) (hkb : b ∈ s.dict.map Prod.fst) (hc : ',' ∉ c) (hc' : c ≠ [])
    (hkc : c ∈ s.dict.map Prod.fst) : triplesOf s (some a) (some b) (some c) = .ok (triples s a b c) := by
  obtain ⟨la, h1, h2⟩ := Space.toList_one ha ha' hka
  obtain ⟨lb, h3, h4⟩ := Space.toList_one hb hb' hkb
  obtain ⟨lc, h5, h6⟩ := Space.toList_one hc hc' hkc
  simp only [triplesOf, h1, h3, h5, bind, Except.bind, triples, ← h2, ← h4, ← h6]
  cases la with
  | nil => rfl
  | cons e la =>
    cases lb with
    | nil => rfl
    | cons e lb => rfl

theorem pairs_get {s : Space F} (hi : s.Inv) {a b : Tag} {p : Nat × Nat} (h : p ∈ pairs s a b) :
    ∃ x y, s.heap[p.1]? = some x ∧ s.heap[p.2]? = some y := by
  obtain ⟨h1, h2⟩ := List.of_mem_zip (show (p.1, p.2) ∈ _ from h)
  obtain ⟨x, hx, -⟩ := Space.visited_get hi h1
  obtain ⟨y, hy, -⟩ := Space.visited_get hi h2
  exact ⟨x, y, hx, hy⟩

theorem triples_get {s : Space F} (hi : s.Inv) {a b c : Tag} {p : Nat × Nat × Nat} (h : p ∈ triples s a b c) :
    ∃ x y z, s.heap[p.1]? = some x ∧ s.heap[p.2.1]? = some y ∧ s.heap[p.2.2]? = some z := by
  obtain ⟨h1, h2⟩ := List.of_mem_zip (show (p.1, p.2) ∈ _ from h)
  obtain ⟨h2, h3⟩ := List.of_mem_zip (show (p.2.1, p.2.2) ∈ _ from h2)
  obtain ⟨x, hx, -⟩ := Space.visited_get hi h1
  obtain ⟨y, hy, -⟩ := Space.visited_get hi h2
  obtain ⟨z, hz, -⟩ := Space.visited_get hi h3
  exact ⟨x, y, z, hx, hy, hz⟩

theorem get_prefix {α : Type} {l l' y : List α} (h : l' = l ++ y) {k : Nat} {x : α} (hk : l[k]? = some x) : l'[k]? = some x := by
  rw [h, List.getElem?_append_left (List.getElem?_eq_some_iff.1 hk).1, hk]

variable [Min F] [Max F]

theorem zipLoop_adds {f : GData F → GData F → Except Err (List (NArr F) × NArr F)} {s : Space F} (hr : Reachable s)
    {a b T : Tag} (ha : ',' ∉ a) (ha' : a ≠ []) (hka : a ∈ s.dict.map Prod.fst)
    (hb : ',' ∉ b) (hb' : b ≠ []) (hkb : b ∈ s.dict.map Prod.fst) (label : List Char) {R : GData F → GData F → GData F → Prop}
    (hf : ∀ p ∈ pairs s a b, ∀ x y, s.heap[p.1]? = some x → s.heap[p.2]? = some y → ∃ g v, f x y = .ok (g, v) ∧
      ∀ e : GData F, e.ctx.other = x.ctx.other → ∃ r, e.push g v = .ok r ∧ R x y r) :
    ∃ s', zipLoop f (some a) (some b) T label s = .ok s' ∧
      (Reachable s' ∧ ∀ t ∈ s.dict.map Prod.fst, t ∈ s'.dict.map Prod.fst) ∧ AddsEach s T (pairs s a b)
        (fun p r => ∃ x y, s.heap[p.1]? = some x ∧ s.heap[p.2]? = some y ∧ R x y r) s' := by
  simp only [zipLoop, pairsOf_eq ha ha' hka hb hb' hkb, bind, Except.bind]
  refine Space.foldlM_adds (s0 := s) _ _ s hr ⟨[], by simp⟩ fun p hp st ⟨y, hy⟩ => ?_
  obtain ⟨x, z, hx, hz⟩ := pairs_get (Space.reachable_inv hr) hp
  obtain ⟨g, v, h1, h2⟩ := hf p hp x z hx hz
  obtain ⟨r, hr, hR⟩ := h2 (GData.new T label x.ctx) rfl
  refine ⟨r, ?_, (push_tag hr).1, (push_tag hr).2.1, x, z, hx, hz, hR⟩
  simp only [get_prefix hy hx, get_prefix hy hz, h1, hr]

/-- If the computation fails for every pair and there is one, the loop fails. -/
theorem zipLoop_fails {f : GData F → GData F → Except Err (List (NArr F) × NArr F)} {s : Space F} (hr : Reachable s)
    {a b T : Tag} (ha : ',' ∉ a) (ha' : a ≠ []) (hka : a ∈ s.dict.map Prod.fst)
    (hb : ',' ∉ b) (hb' : b ≠ []) (hkb : b ∈ s.dict.map Prod.fst) (label : List Char) {p : Nat × Nat} {ps : List (Nat × Nat)}
    (hp : pairs s a b = p :: ps)
    (hf : ∀ x y, s.heap[p.1]? = some x → s.heap[p.2]? = some y → ∃ e, f x y = .error e) :
    ∃ e, zipLoop f (some a) (some b) T label s = .error e := by
  obtain ⟨x, y, hx, hy⟩ := pairs_get (Space.reachable_inv hr) (a := a) (b := b) (p := p) (by rw [hp]; simp)
  obtain ⟨e, he⟩ := hf x y hx hy
  refine ⟨e, ?_⟩
  simp only [zipLoop, pairsOf_eq ha ha' hka hb hb' hkb, hp, bind, Except.bind, List.foldlM_cons, hx, hy, he]

/-- What a function of the values makes of a pair: `D` describes the inputs and the result. -/
theorem ofPair_derived {f : NArr F → NArr F → Except Err (NArr F)} {x y : GData F}
    {D : List Nat → Nat → (List Nat → Nat → F) → Prop}
    (hD : ∀ cells n p, D cells n p → ∃ g v w, x.grid = some g ∧ cells.length ≤ g.length ∧ (∀ a ∈ g, a.data ≠ []) ∧
      x.values = some v ∧ y.values = some w ∧ Gives (f v w) cells n p) (hex : ∃ cells n p, D cells n p) :
    ∃ g o, ofPair f x y = .ok (g, o) ∧ ∀ e : GData F, e.ctx.other = x.ctx.other → ∃ r, e.push g o = .ok r ∧
      ∀ cells n p, D cells n p → Derived cells n p x r := by
  obtain ⟨cells, n, p, hd⟩ := hex
  obtain ⟨g, v, w, h1, h2, h3, h4, h5, o, ho, hp⟩ := hD _ _ _ hd
  refine ⟨g, o, by simp only [ofPair, h1, h4, h5, ho, bind, Except.bind, pure, Except.pure], fun e he => ?_⟩
  obtain ⟨r, hr, -⟩ := push_field h2 h3 hp e
  obtain ⟨-, -, t3, t4, t5⟩ := push_tag hr
  refine ⟨r, hr, fun cells' n' p' hd' => ?_⟩
  obtain ⟨g', v', w', k1, k2, k3, k4, k5, o', ho', hp'⟩ := hD _ _ _ hd'
  rw [h1] at k1; cases k1
  rw [h4] at k4; cases k4
  rw [h5] at k5; cases k5
  rw [ho] at ho'; cases ho'
  exact ⟨⟨g, h1, t4, k2, k3, o, t5, hp'⟩, by rw [t3, he]⟩

/-- The same with the grid of the second dataset. -/
theorem ofPairSnd_derived {f : NArr F → NArr F → Except Err (NArr F)} {x y : GData F}
    {D : List Nat → Nat → (List Nat → Nat → F) → Prop}
    (hD : ∀ cells n p, D cells n p → ∃ g v w, y.grid = some g ∧ cells.length ≤ g.length ∧ (∀ a ∈ g, a.data ≠ []) ∧
      x.values = some v ∧ y.values = some w ∧ Gives (f v w) cells n p) (hex : ∃ cells n p, D cells n p) :
    ∃ g o, ofPairSnd f x y = .ok (g, o) ∧ ∀ e : GData F, e.ctx.other = x.ctx.other → ∃ r, e.push g o = .ok r ∧
      ∀ cells n p, D cells n p → (∃ g, y.grid = some g ∧ HoldsField r g cells n p) ∧ r.ctx.other = x.ctx.other := by
  obtain ⟨cells, n, p, hd⟩ := hex
  obtain ⟨g, v, w, h1, h2, h3, h4, h5, o, ho, hp⟩ := hD _ _ _ hd
  refine ⟨g, o, by simp only [ofPairSnd, h1, h4, h5, ho, bind, Except.bind, pure, Except.pure], fun e he => ?_⟩
  obtain ⟨r, hr, -⟩ := push_field h2 h3 hp e
  obtain ⟨-, -, t3, t4, t5⟩ := push_tag hr
  refine ⟨r, hr, fun cells' n' p' hd' => ?_⟩
  obtain ⟨g', v', w', k1, k2, k3, k4, k5, o', ho', hp'⟩ := hD _ _ _ hd'
  rw [h1] at k1; cases k1
  rw [h4] at k4; cases k4
  rw [h5] at k5; cases k5
  rw [ho] at ho'; cases ho'
  exact ⟨⟨g, h1, t4, k2, k3, o, t5, hp'⟩, by rw [t3, he]⟩

/-! ### Relative change -/

section
variable [_root_.Field F]

theorem compArg_dec (comp : Option Nat) : compArg (comp.map dec) = .ok comp := by
  cases comp with
  | none => rfl
  | some k => simp [compArg, intOrErr, pyInt_dec, bind, Except.bind, pure, Except.pure]

theorem relStep_ok {s : Space F} {ref id : Nat} {r0 d : GData F} {g0 g : List (NArr F)} {cells : List Nat} {m : Nat}
    {a b : List Nat → Nat → F} {comp : Option Nat} (hc : ∀ k < m, comp.getD k < m) (hr : s.heap[ref]? = some r0)
    (h0 : HoldsField r0 g0 cells m a) (hd : s.heap[id]? = some d) (h : HoldsField d g cells m b) :
    ∃ r, relStep ref (comp.map dec) [] s id = .ok (s.update id fun _ => r) ∧ r.tag = d.tag ∧ r.status = d.status ∧
      ChangeFrom cells m a comp d r := by
  obtain ⟨-, -, -, v0, p4, p5⟩ := h0
  obtain ⟨k1, k2, k3, v, k4, k5⟩ := h
  obtain ⟨w, hw, hf⟩ := Tools.relChange_gives p5 k5 hc
  obtain ⟨r, hr', -⟩ := push_field k2 k3 hf d
  obtain ⟨t1, t2, t3, t4, t5⟩ := push_tag hr'
  refine ⟨r, ?_, t1, t2, fun g' b' ⟨k1', _, _, v', k4', k5'⟩ => ⟨⟨g, k1, t4, k2, k3, w, t5, ?_⟩, t3⟩⟩
  · simp only [relStep, ne_eq, not_true_eq_false, if_false, hr, hd, k1, k4, p4, compArg_dec, hw, hr', bind, Except.bind]
  · rw [k4] at k4'; cases k4'
    obtain ⟨w', hw', hf'⟩ := Tools.relChange_gives p5 k5' hc
    rw [hw] at hw'; cases hw'
    exact hf'

theorem fold_rel {ref : Nat} {r0 : GData F} {g0 : List (NArr F)} {cells : List Nat} {m : Nat} {a : List Nat → Nat → F}
    {comp : Option Nat} (hc : ∀ k < m, comp.getD k < m) (h0 : HoldsField r0 g0 cells m a) :
    ∀ (ids : List Nat) (s : Space F), ids.Nodup → s.heap[ref]? = some r0 → ref ∉ ids.dropLast →
      (∀ id ∈ ids, ∃ d g b, s.heap[id]? = some d ∧ HoldsField d g cells m b) →
      ∃ s', ids.foldlM (relStep ref (comp.map dec) []) s = .ok s' ∧ ReplacesResults s ids (ChangeFrom cells m a comp) s'
  | [], s, _, _, _, _ => ⟨s, rfl, fun _ _ => rfl, fun _ h => by simp at h, rfl, rfl⟩
  | id :: ids, s, hnd, hr, hne, hf => by
    obtain ⟨d, g, b, hd, hh⟩ := hf id (by simp)
    obtain ⟨r, e1, e2, e3, e4⟩ := relStep_ok hc hr h0 hd hh
    obtain ⟨hn1, hn2⟩ := List.nodup_cons.1 hnd
    have hget : ∀ j, j ≠ id → (s.update id fun _ => r).heap[j]? = s.heap[j]? := by
      intro j hj
      rw [Space.update_heap?, if_neg (Ne.symm hj)]
    have hself : (s.update id fun _ => r).heap[id]? = some r := by
      rw [Space.update_heap?, if_pos rfl, hd]; rfl
    have step : ∃ s', ids.foldlM (relStep ref (comp.map dec) []) (s.update id fun _ => r) = .ok s' ∧
        ReplacesResults (s.update id fun _ => r) ids (ChangeFrom cells m a comp) s' := by
      cases hids : ids with
      | nil => exact ⟨_, rfl, fun _ _ => rfl, fun _ h => by simp at h, rfl, rfl⟩
      | cons id2 ids2 =>
        rw [← hids]
        have hne' : ref ≠ id ∧ ref ∉ ids.dropLast := by
          rw [hids, List.dropLast_cons_of_ne_nil (by simp), ← hids] at hne
          exact ⟨fun h => hne (by simp [h]), fun h => hne (List.mem_cons_of_mem _ h)⟩
        refine fold_rel hc h0 ids _ hn2 (by rw [hget _ hne'.1, hr]) hne'.2 fun j hj => ?_
        obtain ⟨d', g', b', hd', hh'⟩ := hf j (List.mem_cons_of_mem _ hj)
        exact ⟨d', g', b', by rw [hget j (fun h => hn1 (h ▸ hj)), hd'], hh'⟩
    obtain ⟨s', h1, h2⟩ := step
    refine ⟨s', ?_, fun j hj => ?_, fun j hj => ?_, ?_, ?_⟩
    · rw [Space.foldlM_ok_cons, e1]; exact h1
    · simp only [List.mem_cons, not_or] at hj
      rw [h2.others j hj.2, hget j hj.1]
    · rcases List.mem_cons.1 hj with rfl | hj
      · refine ⟨d, r, hd, ?_, e2, e3, e4⟩
        rw [h2.others _ hn1, hself]
      · obtain ⟨d', r', k1, k2⟩ := h2.results j hj
        rw [hget j (fun h => hn1 (h ▸ hj))] at k1
        exact ⟨d', r', k1, k2⟩
    · rw [h2.length]; simp [Space.update]
    · exact h2.lists

/-- `relchange` for one tag is the loop over its active datasets. -/
theorem relchange_eq {s : Space F} (hi : s.Inv) {a : Tag} (ha : ',' ∉ a) (ha' : a ≠ []) (hka : a ∈ s.dict.map Prod.fst)
    {k ref : Nat} (hk : ((s.lookup a).getD [])[k]? = some ref) (comp : Option (List Char)) (out : Tag) :
    relchangeCmd (some a) k comp out s = (visited s [a]).foldlM (relStep ref comp out) s := by
  obtain ⟨l, hl, hv⟩ := Space.toList_one ha ha' hka
  have htags : s.tagIterator (some a) true = .ok [a] := by
    have := Space.tagsOf_one s ha ha'
    cases a with
    | nil => exact absurd rfl ha'
    | cons c cs => exact congrArg Except.ok this
  have hget : s.getDataset (k : Int) a = .ok ref := by
    cases hlk : s.lookup a with
    | none => rw [hlk] at hk; simp at hk
    | some l' =>
      rw [hlk] at hk
      have hlt := (List.getElem?_eq_some_iff.1 hk).1
      simp only [Option.getD_some] at hlt hk
      simp only [Space.getDataset, hlk, listIndex, Int.natCast_nonneg, Int.ofNat_lt, hlt, and_self, if_true, Int.toNat_natCast, hk]
  simp only [relchangeCmd, htags, bind, Except.bind, List.foldlM_cons, List.foldlM_nil, relTag, hget]
  rw [Space.iterate_ok (σ := Space F) _root_.id (some a) false true .none (fun s _ i => relStep ref comp out s i) s hi
    (fun s' => s'.dict = s.dict ∧ ∀ j, s'.active j = s.active j) ⟨rfl, fun _ => rfl⟩
    (by
      rintro st i id st' ⟨h1, h2⟩ hb
      unfold relStep at hb
      split at hb
      · cases hb
      · split at hb
        · rename_i r d hr hd
          split at hb
          · rename_i g v v0 hg hv0 hv'
            simp only [bind, Except.bind] at hb
            split at hb
            · cases hb
            · split at hb
              · cases hb
              · split at hb
                · cases hb
                · rename_i d' hd'
                  cases hb
                  refine ⟨h1, fun j => ?_⟩
                  rw [← h2 j]
                  simp only [Space.active, Space.update_heap?]
                  by_cases hj : id = j
                  · subst hj
                    rw [if_pos rfl, hd]
                    exact (push_tag hd').2.1
                  · rw [if_neg hj]
          · cases hb
        · cases hb; exact ⟨h1, h2⟩)
    (by rintro - st' ⟨_, h2⟩ i _; exact h2 i)
    (by rintro st' ⟨h1, _⟩ t _; simp only [_root_.id, Space.lookup, h1])
    hl]
  rw [← hv, List.foldlM_map]
  cases List.foldlM (fun st (e : Nat × Nat) => relStep ref comp out st e.2) s l <;> rfl

end

end Cmd
end Pgkyl
