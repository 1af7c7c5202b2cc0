import Verif.Lemmas.EvLinear
import Verif.Props.EvKeep
import Verif.Lemmas.PairCommands
/-! # Linear expressions of `ev` commute with commands that act linearly on every dataset -/

namespace Pgkyl
open Ev Spec Cmd

section
variable {F : Type}

/-- Fields are determined by the array. -/
theorem field_ext {a b : NArr F} {cells : List Nat} {m : Nat} {f g : List Nat → Nat → F} (ha : IsField a cells m f)
    (hb : IsField b cells m g) (h : ∀ i, inRange cells i = true → ∀ j < m, f i j = g i j) : a = b := by
  refine NArr.ext_get? ha.wf hb.wf (by rw [ha.shape, hb.shape]) fun idx hi => ?_
  rw [ha.shape] at hi
  obtain ⟨i, j, rfl, h1, h2⟩ := inRange_snoc' hi
  rw [ha.get i h1 j h2, hb.get i h1 j h2, h i h1 j h2]

theorem inv_foldl_addStep [LinearOrder F] {T lab : List Char} : ∀ (top : List (Item F)) {s s' : Space F}, s.Inv →
    top.foldlM (addStep T lab) s = .ok s' → s'.Inv
  | [], s, s', hi, h => by
    simp only [List.foldlM_nil, pure, Except.pure, Except.ok.injEq] at h
    exact h ▸ hi
  | i :: top, s, s', hi, h => by
    rw [Space.foldlM_ok_cons] at h
    cases hp : pushItem (GData.new T lab i.ctx) i with
    | error e => simp [addStep, hp, bind, Except.bind] at h
    | ok d =>
      simp only [addStep, hp, bind, Except.bind, pure, Except.pure] at h
      exact inv_foldl_addStep top (hi.addNew d) h

/-- A dataset with the field `X` on the grid `G`, with given numbers of axes and components and given entries in the
metadata. -/
structure Like (G : List (NArr F)) (cells : List Nat) (m : Nat) (req : List (String × String)) (X : List Nat → Nat → F)
    (d : GData F) : Prop where
  grid : d.grid = some G
  values : ∃ v, d.values = some v ∧ IsField v cells m X
  dims : d.numDims = cells.length
  comps : d.numComps = m
  entries : ∀ e ∈ req, Dict.get? d.ctx.other e.1 = some e.2

end

section
variable {F : Type} [_root_.Field F] [LinearOrder F]

theorem ev_inv {lib : Lib F} {chain : List Char} {T : Tag} (hT : T ≠ []) {label : Option (List Char)} {all : Bool}
    {s s' : Space F} (hi : s.Inv) (h : ev lib chain (some T) label all s = .ok s') :
    s'.Inv := by
  obtain ⟨c, cs, rfl⟩ : ∃ c cs, T = c :: cs := by
    cases T with
    | nil => exact absurd rfl hT
    | cons c cs => exact ⟨c, cs, rfl⟩
  simp only [ev, bind, Except.bind] at h
  cases h1 : s.tagIterator none (!all) with
  | error e => simp [h1] at h
  | ok tags =>
    simp only [h1] at h
    cases h2 : (tokens chain).foldlM (token lib s tags (!all)) {} with
    | error e => simp [h2] at h
    | ok st =>
      simp only [h2] at h
      cases h3 : st.stack with
      | nil => simp [h3] at h
      | cons top rest =>
        simp only [h3] at h
        cases h4 : st.id with
        | none => simp [h4] at h
        | some id =>
          simp only [h4] at h
          have hnum : ¬ (st.num = 1 ∧ (some (c :: cs) : Option (List Char)) = none) := by simp
          simp only [if_neg hnum] at h
          exact inv_foldl_addStep top hi h

variable {lib : Lib F} {s : Space F} {all : Bool} {tags : List Tag} {Φ : (List Nat → Nat → F) → List Nat → Nat → F}
  {G : List (NArr F)} {cells cells' : List Nat} {m m' : Nat} {req : List (String × String)} {axes' : List (List F)}
  {f : GData F → Except Err (List (NArr F) × NArr F)}

/-- Evaluating an expression and applying a command that acts on the fields can be exchanged, if this holds for the
values (`hexp`). -/
theorem ev_commutes (hi : s.Inv)
    (hdata : ∀ id ∈ s.dict.flatMap Prod.snd, ∃ d X, s.heap[id]? = some d ∧ d.status = true ∧ ProperMeta d.ctx ∧
      Like G cells m req X d)
    (haxes : cells'.length = axes'.length ∧ axes' ≠ [] ∧ ∀ a ∈ axes', a ≠ [])
    (hf : ∀ d X, Like G cells m req X d → ∃ w, f d = .ok (axes'.map NArr.ofList, w) ∧ IsField w cells' m' (Φ X))
    (htags : s.tagIterator none (!all) = .ok tags) (hops : ∀ t ∈ opNames, t ∉ tags ∧ lib.pf t = none)
    (hmin : ∀ x y, lib.fn.fmin x y = lib.fn.fmin y x)
    (hmax : ∀ x y, lib.fn.fmax x y = lib.fn.fmax y x) (hcmp : ∀ a b, lib.cmp a b = true ↔ a = b)
    (e : Expr F) (hpow : e.powOK) (hhas : e.hasData = true) (he : e.All (Leaf.OK lib s all tags (cells ++ [m])))
    (hexp : ∀ sA, Applied Φ cells m cells' m' s sA → ∃ e' : Expr F, e'.All (Leaf.OK lib sA all tags (cells' ++ [m'])) ∧
      e'.tokens = e.tokens ∧ e'.count = e.count ∧ e'.powOK ∧ e'.hasData = true ∧ ∀ k, ∃ X : List Nat → Nat → F,
        (∀ i, inRange cells i = true → ∀ j < m, e.valueAt lib.fn k (i ++ [j]) = some (X i j)) ∧
        ∀ i, inRange cells' i = true → ∀ j < m', e'.valueAt lib.fn k (i ++ [j]) = some (Φ X i j))
    {T : Tag} (hT : T ≠ []) (hcomma : ',' ∉ T) (hnew : T ∉ s.dict.map Prod.fst) (label lab1 : List Char)
    (lab2 lab3 : Option (List Char)) :
    0 < e.count ∧
    ∃ sA sAE sE sEA, pushCmd f none none label s = .ok sA ∧
      ev lib (joinWith ' ' e.tokens) (some T) lab2 all sA = .ok sAE ∧
      ev lib (joinWith ' ' e.tokens) (some T) lab3 all s = .ok sE ∧
      pushCmd f (some T) none lab1 sE = .ok sEA ∧
      ∀ k < e.count, ∃ d d' v, sAE.heap[s.heap.length + k]? = some d ∧ sEA.heap[s.heap.length + k]? = some d' ∧
        d.grid = some (axes'.map NArr.ofList) ∧ d'.grid = some (axes'.map NArr.ofList) ∧
        d.values = some v ∧ d'.values = some v := by
  have hcomm : Comm lib.fn := ⟨add_comm, hmin, hmax⟩
  obtain ⟨_, _, -, -, hden, -⟩ := run_expr hcomm hops e he hpow {}
  have hcount : 0 < e.count := hden.1
  have hpush : ∀ w : NArr F, ∀ X, IsField w cells' m' X → ∀ d : GData F, ∃ r, d.push (axes'.map NArr.ofList) w = .ok r ∧
      Rectilinear r axes' w ∧ r.ctx.other = d.ctx.other := by
    intro w X hw d
    obtain ⟨r, hr, h1, h2, h3, v, h4, h5⟩ := push_field (g := axes'.map NArr.ofList) (cells := cells')
      (by rw [List.length_map]; omega) (by
        intro a ha
        obtain ⟨b, hb, rfl⟩ := List.mem_map.1 ha
        exact haxes.2.2 b hb) hw d
    obtain ⟨nc, l, u, g1, -, -, rfl⟩ := GData.push_eq_ok hr
    refine ⟨_, hr, ⟨rfl, rfl, hw.wf, ?_, ?_, haxes.2.1, haxes.2.2⟩, rfl⟩
    · simp [GData.numDims, GData.numCells, hw.shape, haxes.1]
    · simp [hw.shape, haxes.1]
  -- first the command
  have hlisted : ∀ id ∈ visited s (s.tagsOf none), id ∈ s.dict.flatMap Prod.snd := by
    intro id hid
    simp only [visited, List.mem_flatMap, List.mem_filter] at hid
    obtain ⟨t, ht, hid, -⟩ := hid
    have := Space.tagsOf_none_lookup s t ht
    exact List.mem_flatMap.2 ⟨_, Space.mem_of_lookup this, hid⟩
  have hvisited : ∀ id ∈ s.dict.flatMap Prod.snd, id ∈ visited s (s.tagsOf none) := by
    intro id hid
    obtain ⟨d, X, h1, h2, -⟩ := hdata id hid
    obtain ⟨⟨t, l⟩, ht, hid⟩ := List.mem_flatMap.1 hid
    simp only [visited, List.mem_flatMap, List.mem_filter]
    refine ⟨t, List.mem_map.2 ⟨_, ht, rfl⟩, ?_, by simp [Space.active, h1, h2]⟩
    rw [Space.lookup_of_mem hi.keys_nodup ht]
    exact hid
  obtain ⟨sA, a1, a2⟩ := pushCmd_replaces' (f := f) hi (use := none) (fun t ht => ht) hi.keys_nodup label
    (R := fun d r => ∃ X v, Like G cells m req X d ∧ Rectilinear r axes' v ∧ IsField v cells' m' (Φ X) ∧
      r.ctx.other = d.ctx.other) (by
    intro id hid d hd
    obtain ⟨d', X, h1, -, -, h4⟩ := hdata id (hlisted id hid)
    rw [hd] at h1
    obtain rfl := Option.some.inj h1
    obtain ⟨w, w1, w2⟩ := hf d X h4
    refine ⟨_, w, w1, fun e' he' => ?_⟩
    obtain ⟨r, r1, r2, r3⟩ := hpush w _ w2 e'
    exact ⟨r, r1, X, w, h4, r2, w2, by rw [r3, he']⟩)
  have hactive : ∀ id, sA.active id = s.active id := by
    intro id
    by_cases hid : id ∈ visited s (s.tagsOf none)
    · obtain ⟨d, r, h1, h2, -, h3, -⟩ := a2.results id hid
      simp only [Space.active, h1, h2, h3]
    · simp only [Space.active, a2.others id hid]
  have happ : Applied Φ cells m cells' m' s sA := by
    refine ⟨a2.lists, hactive, fun id hid => ?_⟩
    obtain ⟨d, r, h1, h2, -, -, X, v, h3, h4, h5, -⟩ := a2.results id (hvisited id hid)
    obtain ⟨w, w1, w2⟩ := h3.values
    exact ⟨d, r, X, w, axes', v, h1, h2, w1, w2, h4, h5⟩
  obtain ⟨e', e1, e2, e3, e4, e5, e6⟩ := hexp sA happ
  have htagsA : sA.tagIterator none (!all) = .ok tags := by
    rw [Space.tagIterator_same a2.lists hactive]; exact htags
  have huse : ∀ k d, e'.Uses sA all k d → d.grid = some (axes'.map NArr.ofList) ∧ ProperMeta d.ctx := by
    intro k d hd
    obtain ⟨id, hid, hd⟩ := uses_listed e' hd
    rw [a2.lists] at hid
    obtain ⟨d₀, r, h1, h2, -, -, X, v, -, h4, -, h6⟩ := a2.results id (hvisited id hid)
    rw [hd] at h2
    obtain rfl := Option.some.inj h2
    obtain ⟨d₁, -, h7, -, h8, -⟩ := hdata id hid
    rw [h1] at h7
    obtain rfl := Option.some.inj h7
    exact ⟨h4.grid, by simp only [ProperMeta, h6]; exact h8⟩
  obtain ⟨sAE, newA, b1, b2, b3, b4, -⟩ := C26_expression_value lib sA all tags htagsA hops add_comm hmin hmax [] (by simp)
    e' _ e1 e4 e5 T hT lab2
  have c1 := C134_grid_and_metadata_partial lib sA sAE all tags htagsA hops add_comm hmin hmax hcmp [] (by simp)
    e' _ e1 e4 e5 (fun k d hd => (huse k d hd).2) T hT lab2 b1
  -- first the expression
  have huse0 : ∀ k d, e.Uses s all k d → ProperMeta d.ctx ∧ ∃ X, Like G cells m req X d := by
    intro k d hd
    obtain ⟨id, hid, hd⟩ := uses_listed e hd
    obtain ⟨d₁, X, h7, -, h8, h9⟩ := hdata id hid
    rw [hd] at h7
    obtain rfl := Option.some.inj h7
    exact ⟨h8, X, h9⟩
  obtain ⟨sE, new, p1, p2, p3, p4, p5, p6⟩ := C26_expression_value lib s all tags htags hops add_comm hmin hmax [] (by simp)
    e _ he hpow hhas T hT lab3
  have q1 := C134_grid_and_metadata_partial lib s sE all tags htags hops add_comm hmin hmax hcmp [] (by simp)
    e _ he hpow hhas (fun k d hd => (huse0 k d hd).1) T hT lab3 p1
  have hiE : sE.Inv := ev_inv hT hi p1
  have hlT : sE.lookup T = some (List.range' s.heap.length e.count) := by
    rw [(Space.lookup_eq_none_iff s T).2 hnew, Option.getD_none, List.nil_append] at p6
    cases hl : sE.lookup T with
    | some l => rw [hl] at p6; exact congrArg some p6
    | none =>
      rw [hl] at p6
      have := congrArg List.length p6
      simp only [Option.getD_none, List.length_nil, List.length_range'] at this
      omega
  have hmade : ∀ k < e.count, ∃ d X, sE.heap[s.heap.length + k]? = some d ∧ d.status = true ∧ Like G cells m req X d ∧
      ∀ i, inRange cells' i = true → ∀ j < m', e'.valueAt lib.fn k (i ++ [j]) = some (Φ X i j) := by
    intro k hk
    obtain ⟨d, a, h1, h2, h3, h4, h5, -, h6⟩ := p4 k hk
    obtain ⟨d', g1, ⟨d₀, hd₀⟩, -, g2, g3, g4, g5, -⟩ := q1 k hk
    have hd : sE.heap[s.heap.length + k]? = some d := by
      rw [p2, List.getElem?_append_right (by omega), Nat.add_sub_cancel_left]; exact h1
    rw [hd] at g1
    obtain rfl := Option.some.inj g1
    obtain ⟨X, x1, x2⟩ := e6 k
    have hfield : IsField a cells m X := ⟨h3, h4, fun i hi j hj => by
      rw [h5 _ (inRange_snoc_iff.2 ⟨hi, hj⟩)]; exact x1 i hi j hj⟩
    refine ⟨d, X, hd, h6, ⟨g4 G fun d₁ hd₁ => ?_, ⟨a, h2, hfield⟩, ?_, ?_, ?_⟩, x2⟩
    · obtain ⟨-, Y, hY⟩ := huse0 k d₁ hd₁
      exact hY.grid
    · simp [GData.numDims, GData.numCells, g2]
    · simp only [GData.numComps, g3, h2, h4]
      cases m with
      | zero => simp
      | succ m => simp
    · intro en hen
      obtain ⟨-, Y, hY⟩ := huse0 k d₀ hd₀
      refine g5 en.1 en.2 ⟨d₀, hd₀, hY.entries en hen⟩ fun d₁ hd₁ w hw => ?_
      obtain ⟨-, Z, hZ⟩ := huse0 k d₁ hd₁
      rw [hZ.entries en hen] at hw
      exact (Option.some.inj hw).symm
  have hvisE : visited sE (sE.tagsOf (some T)) = List.range' s.heap.length e.count := by
    rw [Space.tagsOf_one sE hcomma hT]
    simp only [visited, List.flatMap_cons, List.flatMap_nil, List.append_nil, hlT, Option.getD_some]
    refine List.filter_eq_self.2 fun id hid => ?_
    obtain ⟨k, hk, rfl⟩ := List.mem_range'.1 hid
    obtain ⟨d, -, h1, h2, -⟩ := hmade k hk
    simp only [Nat.one_mul, Space.active, h1, h2]
  obtain ⟨sEA, r1, r2⟩ := pushCmd_replaces' (f := f) hiE (use := some T) (by
      rw [Space.tagsOf_one sE hcomma hT]
      intro t ht
      obtain rfl := List.mem_singleton.1 ht
      by_contra hc
      rw [(Space.lookup_eq_none_iff sE t).2 hc] at hlT
      cases hlT) (by rw [Space.tagsOf_one sE hcomma hT]; simp) lab1
    (R := fun d r => ∀ X, Like G cells m req X d → r.grid = some (axes'.map NArr.ofList) ∧
      ∃ v, r.values = some v ∧ IsField v cells' m' (Φ X)) (by
    intro id hid d hd
    rw [hvisE] at hid
    obtain ⟨k, hk, rfl⟩ := List.mem_range'.1 hid
    obtain ⟨d', X, h1, -, h4, -⟩ := hmade k hk
    rw [Nat.one_mul, h1] at hd
    obtain rfl := Option.some.inj hd
    obtain ⟨w, w1, w2⟩ := hf d' X h4
    refine ⟨_, w, w1, fun e' _ => ?_⟩
    obtain ⟨r, g1, g2, -⟩ := hpush w _ w2 e'
    refine ⟨r, g1, fun Y hY => ⟨g2.grid, w, g2.values, ?_⟩⟩
    obtain ⟨w', w1', w2'⟩ := hf d' Y hY
    rw [w1] at w1'
    cases w1'
    exact w2')
  refine ⟨hcount, sA, sAE, sE, sEA, a1, by rw [← e2]; exact b1, p1, r1, fun k hk => ?_⟩
  obtain ⟨d, a, h1, h2, h3, h4, h5, -, h6⟩ := b4 k (by rw [e3]; exact hk)
  obtain ⟨d', g1, -, -, -, -, g4, -, -⟩ := c1 k (by rw [e3]; exact hk)
  rw [a2.length] at g1
  have hd : sAE.heap[s.heap.length + k]? = some d := by
    rw [b2, ← a2.length, List.getElem?_append_right (by omega), Nat.add_sub_cancel_left]; exact h1
  rw [hd] at g1
  obtain rfl := Option.some.inj g1
  obtain ⟨dE, X, k1, -, k2, k3⟩ := hmade k hk
  obtain ⟨dE', r, t1, t2, -, -, t3⟩ := r2.results (s.heap.length + k) (by
    rw [hvisE, List.mem_range']
    exact ⟨k, hk, by omega⟩)
  rw [k1] at t1
  obtain rfl := Option.some.inj t1
  obtain ⟨t4, v, t5, t6⟩ := t3 X k2
  have hav : a = v := field_ext (f := Φ X) (g := Φ X) ⟨h3, h4, fun i hi j hj => by
    rw [h5 _ (inRange_snoc_iff.2 ⟨hi, hj⟩)]; exact k3 i hi j hj⟩ t6 fun _ _ _ _ => rfl
  exact ⟨d, r, v, hd, t2, g4 _ fun d₁ hd₁ => (huse k d₁ hd₁).1, t4, by rw [h2, hav], t5⟩

end
end Pgkyl
