import Verif.Lemmas.StoreProps
/-! # Lemmas about commands run over the dataset store -/

namespace Pgkyl
open Spec
namespace Space
variable {F : Type}

/-! ### Bodies that change one flag -/

theorem foldlM_update (f : GData F → GData F) (hf : ∀ g, f (f g) = f g) (l : List (Nat × Nat)) (s : Space F) :
    ∃ s', l.foldlM (m := Except Err) (fun s e => .ok (s.update e.2 f)) s = .ok s' ∧
      s'.dict = s.dict ∧ s'.heap.length = s.heap.length ∧
      ∀ j, s'.heap[j]? = if j ∈ l.map Prod.snd then (s.heap[j]?).map f else s.heap[j]? := by
  induction l generalizing s with
  | nil => exact ⟨s, rfl, rfl, rfl, by simp⟩
  | cons e l ih =>
    obtain ⟨s', h1, h2, h3, h4⟩ := ih (s.update e.2 f)
    refine ⟨s', ?_, by rw [h2]; rfl, by rw [h3]; simp, ?_⟩
    · rw [foldlM_ok_cons]; exact h1
    · intro j
      rw [h4 j, update_heap?]
      by_cases hj : e.2 = j
      · subst hj
        by_cases hm : e.2 ∈ l.map Prod.snd
        · simp only [hm, List.map_cons, List.mem_cons, or_true, if_true, Option.map_map]
          congr 1
          funext g; exact hf g
        · simp [hm]
      · have : ¬ j = e.2 := fun h => hj h.symm
        simp only [List.map_cons, List.mem_cons, this, false_or, if_neg hj]

theorem iterate_update {s : Space F} (hi : s.Inv) (f : GData F → GData F) (hf : ∀ g, f (f g) = f g)
    {tag : Option Tag} {enum : Bool} {sel : Sel} {l : List (Nat × Nat)}
    (hl : s.toList tag enum false sel = .ok l) :
    ∃ s', iterate id tag enum false sel (fun s _ id => .ok (s.update id f)) s = .ok s' ∧
      s'.dict = s.dict ∧ s'.heap.length = s.heap.length ∧
      ∀ j, s'.heap[j]? = if j ∈ l.map Prod.snd then (s.heap[j]?).map f else s.heap[j]? := by
  have h := iterate_ok (σ := Space F) id tag enum false sel (fun s _ i => .ok (s.update i f)) s hi
    (fun s' => s'.dict = s.dict) rfl
    (by
      intro st i j st' h1 h2
      simp only [Except.ok.injEq] at h2
      subst h2; exact h1)
    (by simp)
    (by
      intro st' h1 t _
      simp only [id, lookup, h1])
    hl
  rw [h]
  exact foldlM_update f hf l s

theorem iterate_update_error {s : Space F} (hi : s.Inv) (f : GData F → GData F)
    {tag : Option Tag} {enum : Bool} {sel : Sel} {e : Err}
    (hl : s.toList tag enum false sel = .error e) :
    ∃ e', iterate id tag enum false sel (fun s _ id => .ok (s.update id f)) s = .error e' :=
  iterate_error (σ := Space F) id tag enum false sel (fun s _ i => .ok (s.update i f)) s hi
    (fun s' => s'.dict = s.dict) rfl
    (by
      intro st i j st' h1 h2
      simp only [Except.ok.injEq] at h2
      subst h2; exact h1)
    (by simp)
    (by
      intro st' h1 t _
      simp only [id, lookup, h1])
    hl

theorem tagItems_congr {s s' : Space F} (h : s'.dict = s.dict) (sel : Sel) (ix : IdxSel) (t : Tag) :
    tagItems s' false sel ix t = tagItems s false sel ix t := by
  simp only [tagItems, lookup, h, visit, Bool.not_false, Bool.true_or]

theorem toList_congr {s s' : Space F} (h : s'.dict = s.dict) (tag : Option Tag) (enum : Bool) (sel : Sel) :
    s'.toList tag enum false sel = s.toList tag enum false sel := by
  rw [toList_eq, toList_eq]
  have : s'.tagsOf tag = s.tagsOf tag := by simp only [tagsOf, h]
  simp only [this, funext (tagItems_congr h sel _)]

theorem Inv.congr {s s' : Space F} (h : s.Inv) (hd : s'.dict = s.dict)
    (hl : s'.heap.length = s.heap.length) : s'.Inv :=
  ⟨by rw [hd, hl]; exact h.valid, by rw [hd]; exact h.ids_nodup, by unfold keys; rw [hd]; exact h.keys_nodup⟩

/-- Everything stored, as an iteration. -/
theorem toList_all {s : Space F} (enum : Bool) :
    ∃ l, s.toList none enum false .none = .ok l ∧
      ∀ id, id ∈ l.map Prod.snd ↔ ∃ t l, s.lookup t = some l ∧ id ∈ l := by
  refine ⟨_, toList_none (tagsOf_none_lookup s) enum false, ?_⟩
  intro id
  simp only [List.mem_map, List.mem_flatMap]
  constructor
  · rintro ⟨⟨i, id'⟩, ⟨t, ht, hm⟩, rfl⟩
    rw [mem_visit] at hm
    have := tagsOf_none_lookup s t ht
    exact ⟨t, _, this, List.mem_of_getElem? hm.1⟩
  · rintro ⟨t, l, hl, hm⟩
    obtain ⟨i, hi⟩ := List.mem_iff_getElem?.1 hm
    refine ⟨(i, id), ⟨t, ?_, ?_⟩, rfl⟩
    · exact (lookup_isSome_iff s t).1 (by rw [hl]; rfl)
    · rw [mem_visit, hl]
      exact ⟨hi, by simp⟩

/-! ### One result per dataset -/

/-- The body of `mapCmd` with an output tag. -/
def mapBody (f : GData F → Except Err (GData F)) (T : Tag) (s : Space F) (id : Nat) :
    Except Err (Space F) :=
  match s.heap[id]? with
  | none => .ok s
  | some d => match f d with
    | .error e => .error e
    | .ok r => .ok (s.addNew { r with tag := T, status := true })

theorem mapCmd_tag (f : GData F → Except Err (GData F)) (use : Option Tag) (c : Char) (cs : Tag)
    (s : Space F) :
    mapCmd f use (some (c :: cs)) s =
      iterate id use false true .none (fun s _ id => mapBody f (c :: cs) s id) s := rfl

/-- Folding the body over a list of existing objects. -/
theorem foldlM_mapBody (f : GData F → Except Err (GData F)) (T : Tag) :
    ∀ (l : List (Nat × Nat)) (s : Space F) (ds rs : List (GData F)),
      l.map (fun e => s.heap[e.2]?) = ds.map some → ds.mapM f = .ok rs →
      ∃ s', l.foldlM (fun s e => mapBody f T s e.2) s = .ok s' ∧
        s'.heap = s.heap ++ rs.map (fun r => { r with tag := T, status := true }) ∧
        (∀ t, t ≠ T → s'.lookup t = s.lookup t) ∧
        (s'.lookup T).getD [] = (s.lookup T).getD [] ++
          (List.range rs.length).map (fun k => s.heap.length + k)
  | [], s, ds, rs, h1, h2 => by
    have : ds = [] := by simpa using h1.symm
    subst this
    simp only [List.mapM_nil, pure, Except.pure, Except.ok.injEq] at h2
    subst h2
    exact ⟨s, rfl, by simp, by simp, by simp⟩
  | e :: l, s, ds, rs, h1, h2 => by
    cases ds with
    | nil => simp at h1
    | cons d ds =>
      simp only [List.map_cons, List.cons.injEq] at h1
      rw [mapM_cons_ok] at h2
      obtain ⟨r, rs', hr, hrs, rfl⟩ := h2
      have hb : mapBody f T s e.2 = .ok (s.addNew { r with tag := T, status := true }) := by
        simp only [mapBody, h1.1, hr]
      have hm : l.map (fun e => (s.addNew { r with tag := T, status := true }).heap[e.2]?) = ds.map some := by
        rw [← h1.2]
        refine List.map_congr_left fun e' he' => ?_
        have hs : (s.heap[e'.2]?).isSome := by
          have : s.heap[e'.2]? ∈ ds.map some := by
            rw [← h1.2]; exact List.mem_map.2 ⟨e', he', rfl⟩
          obtain ⟨d', _, hd'⟩ := List.mem_map.1 this
          rw [← hd']; rfl
        rw [addNew_heap]
        refine List.getElem?_append_left ?_
        by_contra hlt
        rw [List.getElem?_eq_none (by omega)] at hs
        cases hs
      obtain ⟨s', g1, g2, g3, g4⟩ := foldlM_mapBody f T l _ ds rs' hm hrs
      refine ⟨s', ?_, ?_, ?_, ?_⟩
      · rw [foldlM_ok_cons, hb]; exact g1
      · rw [g2, addNew_heap]; simp
      · intro t ht
        rw [g3 t ht, addNew_lookup, if_neg (fun h => ht h.symm)]
      · rw [g4, addNew_lookup, if_pos rfl, addNew_heap, List.length_cons, List.range_succ_eq_map,
          List.map_cons, List.map_map]
        simp only [Option.getD_some, List.append_assoc, List.length_append, List.length_singleton,
          List.singleton_append, Nat.add_zero]
        congr 2
        refine List.map_congr_left fun k _ => ?_
        simp only [Function.comp]; omega

theorem active_append {s s' : Space F} {x : List (GData F)} (h : s'.heap = s.heap ++ x) {i : Nat}
    (hi : i < s.heap.length) : s'.active i = s.active i := by
  simp only [active, h, List.getElem?_append_left hi]

theorem mapBody_preserves {f : GData F → Except Err (GData F)} {T : Tag} {s0 : Space F} {s : Space F}
    {i : Nat} {s' : Space F}
    (hP : (∃ x, s.heap = s0.heap ++ x) ∧ ∀ t, t ≠ T → s.lookup t = s0.lookup t)
    (hb : mapBody f T s i = .ok s') :
    (∃ x, s'.heap = s0.heap ++ x) ∧ ∀ t, t ≠ T → s'.lookup t = s0.lookup t := by
  unfold mapBody at hb
  split at hb
  · cases hb; exact hP
  · split at hb
    · cases hb
    · cases hb
      obtain ⟨⟨x, hx⟩, hl⟩ := hP
      refine ⟨⟨x ++ [_], by rw [addNew_heap, hx, List.append_assoc]⟩, fun t ht => ?_⟩
      rw [addNew_lookup, if_neg (fun h => ht h.symm)]
      exact hl t ht

/-- The objects an iteration yields exist. -/
theorem toList_none_lt {s : Space F} (hi : s.Inv) {tag : Option Tag} {enum oa : Bool} {l : List (Nat × Nat)}
    (h : s.toList tag enum oa .none = .ok l) : ∀ e ∈ l, e.2 < s.heap.length := by
  rw [toList_eq] at h
  have : ¬ ((enum && Sel.none.truthy) = true) := by simp [Sel.truthy]
  rw [if_neg this] at h
  simp only [parseSel] at h
  cases hm : (s.tagsOf tag).mapM (tagItems s oa .none (.slice none none none)) with
  | error e => rw [hm] at h; cases h
  | ok ls =>
    rw [hm] at h
    simp only [Except.ok.injEq] at h
    subst h
    generalize s.tagsOf tag = ts at hm
    induction ts generalizing ls with
    | nil =>
      simp only [List.mapM_nil, pure, Except.pure, Except.ok.injEq] at hm
      subst hm; simp
    | cons t ts ih =>
      rw [mapM_cons_ok] at hm
      obtain ⟨items, ls', h1, h2, rfl⟩ := hm
      intro e he
      rw [List.flatten_cons, List.mem_append] at he
      rcases he with he | he
      · cases hl : s.lookup t with
        | none => simp [tagItems, hl] at h1
        | some l =>
          rw [tagItems_none hl] at h1
          simp only [Except.ok.injEq] at h1
          subst h1
          obtain ⟨i, id⟩ := e
          rw [mem_visit] at he
          exact hi.lt hl (List.mem_of_getElem? he.1)
      · exact ih ls' h2 e he

/-! ### In place -/

/-- The body of `mapCmd` without an output tag. -/
def inplaceBody (f : GData F → Except Err (GData F)) (s : Space F) (id : Nat) : Except Err (Space F) :=
  match s.heap[id]? with
  | none => .ok s
  | some d => match f d with
    | .error e => .error e
    | .ok r => .ok (s.update id fun d => { r with tag := d.tag, status := d.status })

theorem mapCmd_inplace (f : GData F → Except Err (GData F)) (use : Option Tag) (s : Space F) :
    mapCmd f use none s =
      iterate id use false true .none (fun s _ id => inplaceBody f s id) s := rfl

theorem update_active (s : Space F) (i : Nat) (r : GData F) (j : Nat) :
    (s.update i fun d => { r with tag := d.tag, status := d.status }).active j = s.active j := by
  simp only [active, update_heap?]
  by_cases h : i = j
  · rw [if_pos h]; cases s.heap[j]? <;> rfl
  · rw [if_neg h]

theorem foldlM_inplace (f : GData F → Except Err (GData F)) :
    ∀ (l : List (Nat × Nat)) (s : Space F), (l.map Prod.snd).Nodup →
      (∀ e ∈ l, ∃ d r, s.heap[e.2]? = some d ∧ f d = .ok r) →
      ∃ s', l.foldlM (fun s e => inplaceBody f s e.2) s = .ok s' ∧ s'.dict = s.dict ∧
        s'.heap.length = s.heap.length ∧
        (∀ e ∈ l, ∀ d r, s.heap[e.2]? = some d → f d = .ok r →
          s'.heap[e.2]? = some { r with tag := d.tag, status := d.status }) ∧
        ∀ j, j ∉ l.map Prod.snd → s'.heap[j]? = s.heap[j]?
  | [], s, _, _ => ⟨s, rfl, rfl, rfl, by simp, by simp⟩
  | e :: l, s, hnd, hex => by
    rw [List.map_cons, List.nodup_cons] at hnd
    obtain ⟨d, r, hd, hr⟩ := hex e (by simp)
    set s₁ := s.update e.2 fun d => { r with tag := d.tag, status := d.status } with hs₁
    have hb : inplaceBody f s e.2 = .ok s₁ := by simp only [inplaceBody, hd, hr, hs₁]
    have hne : ∀ e' ∈ l, e.2 ≠ e'.2 := fun e' he' h =>
      hnd.1 (h ▸ List.mem_map.2 ⟨e', he', rfl⟩)
    have hsame : ∀ e' ∈ l, s₁.heap[e'.2]? = s.heap[e'.2]? := fun e' he' => by
      rw [hs₁, update_heap?, if_neg (hne e' he')]
    obtain ⟨s', g1, g2, g3, g4, g5⟩ := foldlM_inplace f l s₁ hnd.2 (fun e' he' => by
      obtain ⟨d', r', h1, h2⟩ := hex e' (by simp [he'])
      exact ⟨d', r', by rw [hsame e' he']; exact h1, h2⟩)
    refine ⟨s', ?_, by rw [g2]; rfl, by rw [g3, hs₁]; simp, ?_, ?_⟩
    · rw [foldlM_ok_cons, hb]; exact g1
    · intro e' he' d' r' h1 h2
      rcases List.mem_cons.1 he' with rfl | he''
      · rw [g5 _ hnd.1, hs₁, update_heap?, if_pos rfl, hd]
        rw [hd] at h1; cases h1
        rw [hr] at h2; cases h2
        rfl
      · exact g4 e' he'' d' r' (by rw [hsame e' he'']; exact h1) h2
    · intro j hj
      rw [List.map_cons, List.mem_cons, not_or] at hj
      rw [g5 j hj.2, hs₁, update_heap?, if_neg (fun h => hj.1 h.symm)]

/-! ### Reachable stores -/

theorem iterate_preserves {σ : Type} (sp : σ → Space F) {P : σ → Prop} {tag : Option Tag}
    {enum oa : Bool} {sel : Sel} {body : σ → Nat → Nat → Except Err σ}
    (hstep : ∀ st i id st', P st → body st i id = .ok st' → P st') {st st' : σ} (hst : P st)
    (h : iterate sp tag enum oa sel body st = .ok st') : P st' := by
  unfold iterate at h
  split at h
  · cases h
  · split at h
    · cases h
    · rename_i ix _
      refine foldlM_preserves ?_ _ _ _ hst h
      intro st t st' hP hv
      unfold visitTag at hv
      split at hv
      · cases hv
      · split at hv
        · cases hv
        · refine foldlM_preserves ?_ _ _ _ hP hv
          rintro st ⟨i, k⟩ st' hP hb
          simp only at hb
          split at hb
          · exact hstep _ _ _ _ hP hb
          · cases hb; exact hP

theorem inv_updateAll {s s' : Space F} (hi : s.Inv) (f : GData F → GData F) {tag : Option Tag} {sel : Sel}
    (h : iterate id tag false false sel (fun s _ i => .ok (s.update i f)) s = .ok s') : s'.Inv :=
  iterate_preserves id (P := Space.Inv) (fun st i j st' hP hb => by
    simp only [Except.ok.injEq] at hb
    subst hb; exact hP.update _ _) hi h

theorem reachable_inv {s : Space F} (h : Reachable s) : s.Inv := by
  induction h with
  | empty => exact inv_empty
  | add _ g ih => exact ih.addNew g
  | clean _ _ => exact inv_clean _
  | @activate s s' _ tag index focused hs ih =>
    cases focused with
    | true => exact inv_updateAll ih _ hs
    | false =>
      simp only [activateCmd, Bool.false_eq_true, if_false, bind, Except.bind] at hs
      split at hs
      · cases hs
      · rename_i s₁ h1
        exact inv_updateAll (inv_updateAll ih _ h1) _ hs
  | @deactivate s s' _ tag index focused hs ih =>
    cases focused with
    | false => exact inv_updateAll ih _ hs
    | true =>
      simp only [deactivateCmd, if_true, bind, Except.bind] at hs
      split at hs
      · cases hs
      · rename_i s₁ h1
        exact inv_updateAll (inv_updateAll ih _ h1) _ hs
  | @command s s' _ f use tag hs ih =>
    refine iterate_preserves id (P := Space.Inv) ?_ ih hs
    intro st i j st' hP hb
    split at hb
    · cases hb; exact hP
    · split at hb
      · cases hb
      · split at hb
        · cases hb; exact hP.addNew _
        · cases hb; exact hP.update _ _
  | change _ i f ih => exact ih.update i f

/-- Stores with the same lists, of which one is reachable. -/
theorem reachable_same_lists {s s' : Space F} (hs : Reachable s) (hd : s'.dict = s.dict)
    (hl : s'.heap.length = s.heap.length) : Reachable s' := by
  have key : ∀ n, n ≤ s.heap.length → Reachable ({ s with heap := s'.heap.take n ++ s.heap.drop n } : Space F) := by
    intro n
    induction n with
    | zero => intro _; simpa using hs
    | succ n ih =>
      intro hn
      have h := (ih (by omega)).change n fun _ => s'.heap[n]'(by omega)
      have e : Space.update ({ s with heap := s'.heap.take n ++ s.heap.drop n } : Space F) n (fun _ => s'.heap[n]'(by omega)) =
          ({ s with heap := s'.heap.take (n + 1) ++ s.heap.drop (n + 1) } : Space F) := by
        simp only [Space.update]
        congr 1
        apply List.ext_getElem?
        intro j
        rw [List.getElem?_modify]
        rcases lt_trichotomy j n with hj | rfl | hj
        · rw [List.getElem?_append_left (by simp; omega), List.getElem?_append_left (by simp; omega),
            List.getElem?_take_of_lt hj, List.getElem?_take_of_lt (by omega)]
          have hne : n ≠ j := by omega
          simp [hne]
        · rw [List.getElem?_append_right (by simp), List.getElem?_append_left (by simp; omega),
            List.getElem?_take_of_lt (by omega), List.getElem?_drop, List.getElem?_eq_getElem (by simp; omega),
            List.getElem?_eq_getElem (by omega)]
          simp
        · rw [List.getElem?_append_right (by simp; omega), List.getElem?_append_right (by simp; omega)]
          simp only [List.getElem?_drop, List.length_take]
          rw [Nat.min_eq_left (by omega), Nat.min_eq_left (by omega), show n + (j - n) = n + 1 + (j - (n + 1)) by omega]
          have hne : n ≠ j := by omega
          simp [hne]
      rwa [e] at h
  have := key s.heap.length le_rfl
  rw [← hl, List.take_length, List.drop_eq_nil_of_le (by omega), List.append_nil, ← hd] at this
  exact this

theorem reachable_perform (ops : List (StoreOp F)) : Reachable (perform ops) := by
  unfold perform
  suffices ∀ (s : Space F), Reachable s → Reachable (ops.foldl (fun s op => match op with
      | .add g => s.addNew g
      | .clean => s.clean) s) from this _ .empty
  induction ops with
  | nil => intro s hs; exact hs
  | cons op ops ih =>
    intro s hs
    rw [List.foldl_cons]
    apply ih
    cases op with
    | add g => exact hs.add g
    | clean => exact hs.clean

end Space
end Pgkyl
