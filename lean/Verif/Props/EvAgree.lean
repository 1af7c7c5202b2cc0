import Verif.Props.EvOps
import Verif.Props.PairCommands
import Verif.Lemmas.EvCommute
/-!
# C165: `velocity` and `magsq` against the same formula written for `ev`

`velocity -d n -m p` computes what `ev 'p n /'` computes, and `magsq` what `ev 'v v dot'` computes, as long as all datasets of
the tags are active, there are as many densities as momenta and the vectors have three components.
-/

namespace Pgkyl
open Spec Ev Cmd

section
variable {F : Type} [_root_.Field F] [LinearOrder F]
variable {lib : Lib F} {s : Space F} {tags : List Tag}

/-- The datasets with the tag `t`, all active, hold the given arrays, in this order: `m` components on `cells`, on the axes
`axes`. -/
structure Series (s : Space F) (t : Tag) (axes : List (List F)) (cells : List Nat) (m : Nat) (arrays : List (NArr F)) : Prop where
  name : plain t
  single : ',' ∉ t
  nonempty : t ≠ []
  inhabited : arrays ≠ []
  holds : ∃ ids, s.lookup t = some ids ∧ List.Forall₂ (fun id a => ∃ d, s.heap[id]? = some d ∧ d.status = true ∧
    Rectilinear d axes a ∧ a.shape = cells ++ [m] ∧ ProperMeta d.ctx) ids arrays

/-- The tag `t` as an operand of `ev`. -/
def tagOperand (t : Tag) (arrays : List (NArr F)) : Expr F := .leaf (.data (some t) none none arrays)

omit [_root_.Field F] [LinearOrder F] in
theorem Series.known {t : Tag} {axes : List (List F)} {cells : List Nat} {m : Nat} {arrays : List (NArr F)}
    (h : Series s t axes cells m arrays) : Known s t := by
  obtain ⟨ids, h1, -⟩ := h.holds
  exact ⟨h.single, h.nonempty, (Space.lookup_isSome_iff s t).1 (by rw [h1]; rfl)⟩

omit [_root_.Field F] [LinearOrder F] in
/-- Its datasets are those a command visits. -/
theorem Series.visited {t : Tag} {axes : List (List F)} {cells : List Nat} {m : Nat} {arrays : List (NArr F)}
    (h : Series s t axes cells m arrays) : ∃ ids, s.lookup t = some ids ∧ visited s [t] = ids ∧ ids.length = arrays.length ∧
      ∀ (k id : Nat), ids[k]? = some id → ∃ d a, s.heap[id]? = some d ∧ arrays[k]? = some a ∧ d.status = true ∧ Rectilinear d axes a ∧
        a.shape = cells ++ [m] ∧ ProperMeta d.ctx := by
  obtain ⟨ids, h1, h2⟩ := h.holds
  have hk : ∀ (k id : Nat), ids[k]? = some id → ∃ d a, s.heap[id]? = some d ∧ arrays[k]? = some a ∧ d.status = true ∧ Rectilinear d axes a ∧
        a.shape = cells ++ [m] ∧ ProperMeta d.ctx := by
    intro k id hid
    obtain ⟨hl, hg⟩ := List.forall₂_iff_get.1 h2
    obtain ⟨hk, rfl⟩ := List.getElem?_eq_some_iff.1 hid
    obtain ⟨d, e1, e2⟩ := hg k hk (hl ▸ hk)
    exact ⟨d, _, e1, List.getElem?_eq_getElem (hl ▸ hk), e2⟩
  refine ⟨ids, h1, ?_, h2.length_eq, hk⟩
  simp only [Spec.visited, List.flatMap_cons, List.flatMap_nil, List.append_nil, h1, Option.getD_some]
  refine List.filter_eq_self.2 fun id hid => ?_
  obtain ⟨k, hk'⟩ := List.mem_iff_getElem?.1 hid
  obtain ⟨d, _, e1, -, e2, -⟩ := hk k id hk'
  simp only [Space.active, e1, e2]

omit [_root_.Field F] [LinearOrder F] in
theorem Series.listed {t : Tag} {axes : List (List F)} {cells : List Nat} {m : Nat} {arrays : List (NArr F)}
    (h : Series s t axes cells m arrays) {ids : List Nat} (h1 : s.lookup t = some ids) :
    s.toList (some t) false false .none = .ok (ids.zipIdx.map fun e => (e.2, e.1)) := by
  rw [Space.toList_none (ls := fun _ => ids) (by rw [Space.tagsOf_one s h.single h.nonempty]; simpa using h1),
    Space.tagsOf_one s h.single h.nonempty]
  simp [visit]

theorem Series.uses {t : Tag} {axes : List (List F)} {cells : List Nat} {m : Nat} {arrays : List (NArr F)}
    (h : Series s t axes cells m arrays) (k : Nat) (d : GData F) (hu : (tagOperand t arrays).Uses s false k d) :
    ∃ a, Rectilinear d axes a ∧ ProperMeta d.ctx := by
  obtain ⟨ids, h1, -, -, h2⟩ := h.visited
  obtain ⟨vis, en, e1, e2, e3⟩ := hu
  simp only [Option.isSome_some, if_pos, Space.optSel, h.listed h1] at e1
  cases e1
  rw [List.getElem?_map] at e2
  obtain ⟨e, e4, rfl⟩ := Option.map_eq_some_iff.1 e2
  rw [List.getElem?_zipIdx] at e4
  obtain ⟨id, e5, rfl⟩ := Option.map_eq_some_iff.1 e4
  obtain ⟨d', a, f1, -, -, f2, -, f3⟩ := h2 _ _ e5
  rw [f1] at e3; cases e3
  exact ⟨a, f2, f3⟩

theorem Series.operand {t : Tag} {axes : List (List F)} {cells : List Nat} {m : Nat} {arrays : List (NArr F)}
    (h : Series s t axes cells m arrays) (ht : t ∈ tags) : OperandOK lib s false tags (tagOperand t arrays, cells ++ [m]) := by
  obtain ⟨ids, h1, h2⟩ := h.holds
  refine ⟨⟨⟨ht, h.nonempty, h.name⟩, by simp, by simp, h.inhabited, _, h.listed h1, ?_⟩, trivial, fun k d hu => ?_⟩
  · rw [List.forall₂_map_left_iff]
    refine List.forall₂_iff_get.2 ⟨by simpa using h2.length_eq, fun k hk hk' => ?_⟩
    obtain ⟨-, hg⟩ := List.forall₂_iff_get.1 h2
    obtain ⟨d, e1, -, e2, e3, -⟩ := hg k (by simpa using hk) hk'
    exact ⟨d, axes, _, by simpa using e1, e2, rfl, e3⟩
  · obtain ⟨_, -, h⟩ := h.uses k d hu
    exact h

omit [LinearOrder F] in
theorem tagOperand_num {t : Tag} {arrays : List (NArr F)} {fn : Fns F} {k : Nat} {a : NArr F} (ha : arrays[k]? = some a) (idx : List Nat) :
    (tagOperand t arrays).num fn k idx = (a.get? idx).getD 0 := by
  have : k < arrays.length := (List.getElem?_eq_some_iff.1 ha).1
  simp only [Expr.num, tagOperand, Expr.valueAt, Leaf.valueAt, Nat.min_eq_left (Nat.le_sub_one_of_lt this), ha, Option.bind_some]

omit [LinearOrder F] in
theorem rect_field {d : GData F} {axes : List (List F)} {a : NArr F} {cells : List Nat} {m : Nat} (h : Rectilinear d axes a)
    (hs : a.shape = cells ++ [m]) : HoldsField d (axes.map NArr.ofList) cells m fun i c => (a.get? (i ++ [c])).getD 0 := by
  have hl := h.shape
  rw [hs] at hl
  refine ⟨h.grid, by simp at hl ⊢; omega, ?_, a, h.values, h.wf, hs, fun i hi c hc => ?_⟩
  · intro b hb
    obtain ⟨l, hl, rfl⟩ := List.mem_map.1 hb
    exact h.nodes l hl
  · obtain ⟨x, hx⟩ := Option.isSome_iff_exists.1 (NArr.get?_isSome h.wf (by rw [hs]; exact inRange_snoc_iff.2 ⟨hi, hc⟩))
    rw [hx]; rfl

/-- The two stores hold, behind the first `base` datasets, `n` datasets each with the tag `T`, and the `k`-th ones have the same
values on the same grid. -/
def SameResults (base n : Nat) (T : Tag) (s₁ s₂ : Space F) : Prop :=
  s₁.heap.length = base + n ∧ s₂.heap.length = base + n ∧ ∀ k < n, ∃ r₁ r₂ v g,
    s₁.heap[base + k]? = some r₁ ∧ s₂.heap[base + k]? = some r₂ ∧ r₁.tag = T ∧ r₂.tag = T ∧
    r₁.values = some v ∧ r₂.values = some v ∧ r₁.grid = some g ∧ r₂.grid = some g

omit [LinearOrder F] in
theorem field_array {r₁ r₂ : GData F} {g : List (NArr F)} {cells : List Nat} {m : Nat} {f : List Nat → Nat → F}
    {f' : List Nat → F} (h : HoldsField r₁ g cells m f) (h' : HoldsArray r₂ (cells ++ [m]) f')
    (he : ∀ i, inRange cells i = true → ∀ c < m, f' (i ++ [c]) = f i c) :
    ∃ v, r₁.values = some v ∧ r₂.values = some v := by
  obtain ⟨-, -, -, v, h1, h2⟩ := h
  obtain ⟨w, k1, k2, k3, k4⟩ := h'
  refine ⟨v, h1, ?_⟩
  have : IsField w cells m f := ⟨k2, k3, fun i hi c hc => by rw [k4 _ (inRange_snoc_iff.2 ⟨hi, hc⟩), he i hi c hc]⟩
  rw [k1, field_ext this h2 fun i hi c hc => rfl]

omit [_root_.Field F] [LinearOrder F] in
theorem switched_length {s s' : Space F} {ts : List Tag} (h : SwitchedOff s ts s') : s'.heap.length = s.heap.length := by
  have key : ∀ n : Nat, s'.heap[n]? = none ↔ s.heap[n]? = none := by
    intro n
    by_cases hn : ∃ t ∈ ts, n ∈ (s.lookup t).getD []
    · obtain ⟨t, ht, hn⟩ := hn
      rw [h.off t ht n hn, Option.map_eq_none_iff]
    · push Not at hn
      rw [h.others n hn]
  simp only [List.getElem?_eq_none_iff] at key
  exact Nat.le_antisymm ((key _).2 le_rfl) ((key _).1 le_rfl)

/-- **C165** for `velocity`: densities with the tag `den` and as many momenta with the tag `mom`, all active and on one grid.
`velocity` and `ev 'mom den /'` add the same values on the same grid, dataset by dataset (also where the density is zero).
After `velocity` the inputs are switched off, after `ev` they are active. -/
theorem C165_velocity (hr : Reachable s) (he : EvReady lib s false tags) {den mom T : Tag} {axes : List (List F)}
    {cells : List Nat} {m : Nat} {ds ms : List (NArr F)} (hd : Series s den axes cells 1 ds) (hm : Series s mom axes cells m ms)
    (hlen : ds.length = ms.length) (htd : den ∈ tags) (htm : mom ∈ tags) (hT : T ≠ []) (hTd : T ≠ den) (hTm : T ≠ mom)
    (label : List Char) (label' : Option (List Char)) :
    ∃ s₁ s₂, velocityCmd den mom T label s = .ok s₁ ∧
      ev lib (mom ++ " ".toList ++ den ++ " /".toList) (some T) label' false s = .ok s₂ ∧
      SameResults s.heap.length ds.length T s₁ s₂ ∧
      ∀ id ∈ Spec.visited s [den, mom], s₁.active id = false ∧ s₂.active id = true := by
  obtain ⟨idd, d1, d2, d3, d4⟩ := hd.visited
  obtain ⟨idm, m1, m2, m3, m4⟩ := hm.visited
  have hp : pairs s den mom = List.zip idd idm := by rw [pairs, d2, m2]
  have hpl : (pairs s den mom).length = ds.length := by rw [hp, List.length_zip]; omega
  have hpk : ∀ k < ds.length, ∃ i j, idd[k]? = some i ∧ idm[k]? = some j ∧ (pairs s den mom)[k]? = some (i, j) := by
    intro k hk
    have h1 : k < idd.length := by omega
    have h2 : k < idm.length := by omega
    refine ⟨_, _, List.getElem?_eq_getElem h1, List.getElem?_eq_getElem h2, ?_⟩
    rw [hp, List.getElem?_zip_eq_some]
    exact ⟨List.getElem?_eq_getElem h1, List.getElem?_eq_getElem h2⟩
  -- `velocity`
  obtain ⟨s1, h1, h2, h3⟩ := zipLoop_adds (T := T) (f := ofPair fun m0 m1 => Tools.div m1 m0)
    (R := fun x y r => ∀ a b, Rectilinear x axes a → Rectilinear y axes b → a.shape = cells ++ [1] → b.shape = cells ++ [m] →
      Derived cells m (fun i c => (b.get? (i ++ [c])).getD 0 / (a.get? (i ++ [0])).getD 0) x r) hr hd.known.single
    hd.known.nonempty hd.known.stored hm.known.single hm.known.nonempty hm.known.stored label (fun p hp' x y hx hy => by
      obtain ⟨k, hk⟩ := List.mem_iff_getElem?.1 hp'
      obtain ⟨i, j, e1, e2, e3⟩ := hpk k (by have := (List.getElem?_eq_some_iff.1 hk).1; omega)
      rw [e3] at hk; cases hk
      obtain ⟨x', a, f1, -, -, f2, f3, -⟩ := d4 k i e1
      obtain ⟨y', b, g1, -, -, g2, g3, -⟩ := m4 k j e2
      rw [f1] at hx; cases hx
      rw [g1] at hy; cases hy
      obtain ⟨g, o, q1, q2⟩ := ofPair_derived (f := fun m0 m1 => Tools.div m1 m0) (x := x) (y := y)
        (D := fun cs n p => cs = cells ∧ n = m ∧ p = fun i c => (b.get? (i ++ [c])).getD 0 / (a.get? (i ++ [0])).getD 0) (by
          rintro _ _ _ ⟨rfl, rfl, rfl⟩
          obtain ⟨u1, u2, u3, v, u4, u5⟩ := rect_field f2 f3
          obtain ⟨-, -, -, w, w4, w5⟩ := rect_field g2 g3
          exact ⟨_, v, w, u1, u2, u3, u4, w4, gives_zip_one (· / ·) w5 u5⟩) ⟨_, _, _, rfl, rfl, rfl⟩
      refine ⟨g, o, q1, fun e he => ?_⟩
      obtain ⟨r, r1, r2⟩ := q2 e he
      refine ⟨r, r1, fun a' b' ha' hb' _ _ => ?_⟩
      obtain rfl : a' = a := Option.some.inj (ha'.values.symm.trans f2.values)
      obtain rfl : b' = b := Option.some.inj (hb'.values.symm.trans g2.values)
      exact r2 _ _ _ ⟨rfl, rfl, rfl⟩)
  obtain ⟨s2, s₁, k1, k2, k3⟩ := off_two hd.known hm.known h2
  -- `ev`
  obtain ⟨⟨s₂, q1, new, q2, q3, q4, q5, q6⟩, -⟩ := C147_components he .div (tagOperand mom ms) (tagOperand den ds) cells m
    (hm.operand htm) (hd.operand htd) rfl rfl T hT label'
  have hmax : max (tagOperand mom ms).count (tagOperand den ds).count = ds.length := by
    simp [tagOperand, Expr.count, Leaf.count, hlen]
  rw [hmax] at q3 q4 q6
  have htext : joinWith ' ' ((tagOperand mom ms).tokens ++ (tagOperand den ds).tokens ++ [BinOp.div.text]) =
      mom ++ " ".toList ++ den ++ " /".toList := by
    simp [tagOperand, Expr.tokens, Leaf.text, joinWith, BinOp.text]
  rw [htext] at q1
  have hlt : ∀ {t : Tag} {ids : List Nat}, s.lookup t = some ids → ∀ id ∈ ids, id < s.heap.length := by
    intro t ids ht id hid
    exact (Space.reachable_inv hr).lt ht hid
  have hnew : ∀ t ∈ [den, mom], ∀ k, s.heap.length + k ∉ (s1.lookup t).getD [] := by
    intro t ht k hmem
    rw [h3.lists, if_neg (by rintro rfl; simp at ht; tauto), List.append_nil] at hmem
    simp only [List.mem_cons, List.not_mem_nil, or_false] at ht
    rcases ht with rfl | rfl
    · rw [d1] at hmem; have := hlt d1 _ hmem; omega
    · rw [m1] at hmem; have := hlt m1 _ hmem; omega
  refine ⟨s₁, s₂, by simp only [velocityCmd, h1, k1, k2, bind, Except.bind], q1, ⟨?_, ?_, fun k hk => ?_⟩, fun id hid => ?_⟩
  · rw [switched_length k3, h3.length, hpl]
  · rw [q2, List.length_append, q3]
  · obtain ⟨i, j, e1, e2, e3⟩ := hpk k hk
    obtain ⟨x, a, f1, f2, -, f3, f4, -⟩ := d4 k i e1
    obtain ⟨y, b, g1, g2, -, g3, g4, -⟩ := m4 k j e2
    obtain ⟨r₁, u1, u2, u3, x', y', u4, u5, u6⟩ := h3.results k (i, j) e3
    rw [f1] at u4; cases u4
    rw [g1] at u5; cases u5
    obtain ⟨⟨g, v1, v2⟩, -⟩ := u6 a b f3 g3 f4 g4
    obtain ⟨r₂, w1, ⟨w2, w3⟩, w4, w5⟩ := q4 k hk
    obtain ⟨v, z1, z2⟩ := field_array v2 w2 fun i hi c hc => by
      simp only [BinOp.app, tagOperand_num g2, tagOperand_num f2, List.dropLast_concat]
    refine ⟨r₁, r₂, v, g, ?_, ?_, u2, w4, z1, z2, v2.1, w3 g ?_⟩
    · rw [k3.others _ fun t ht => hnew t ht k]; exact u1
    · rw [q2, List.getElem?_append_right (by omega)]; simpa using w1
    · have hg : g = axes.map NArr.ofList := Option.some.inj (v1.symm.trans f3.grid)
      rintro d' (hu | hu)
      · obtain ⟨_, hu, -⟩ := hm.uses k d' hu
        rw [hu.grid, hg]
      · obtain ⟨_, hu, -⟩ := hd.uses k d' hu
        rw [hu.grid, hg]
  · have hcase : ∃ t ∈ [den, mom], ∃ (ids : List Nat) (k : Nat), s.lookup t = some ids ∧ ids[k]? = some id ∧ ∃ d, s.heap[id]? = some d ∧ d.status = true := by
      rw [Spec.visited, List.flatMap_cons] at hid
      rcases List.mem_append.1 hid with hid | hid
      · have : id ∈ idd := by rw [← d2]; simpa [Spec.visited] using hid
        obtain ⟨k, hk⟩ := List.mem_iff_getElem?.1 this
        obtain ⟨d, _, e1, -, e2, -⟩ := d4 k id hk
        exact ⟨den, by simp, idd, k, d1, hk, d, e1, e2⟩
      · have : id ∈ idm := by rw [← m2]; simpa [Spec.visited] using hid
        obtain ⟨k, hk⟩ := List.mem_iff_getElem?.1 this
        obtain ⟨d, _, e1, -, e2, -⟩ := m4 k id hk
        exact ⟨mom, by simp, idm, k, m1, hk, d, e1, e2⟩
    obtain ⟨t, ht, ids, k, e1, e2, d, e3, e4⟩ := hcase
    have hlt' := (List.getElem?_eq_some_iff.1 e3).1
    refine ⟨?_, ?_⟩
    · have := k3.off t ht id (by rw [h3.lists, e1]; exact List.mem_append_left _ (List.mem_of_getElem? e2))
      rw [h3.old id hlt', e3] at this
      simp only [Space.active, this, Option.map_some]
    · simp only [Space.active, q2, List.getElem?_append_left hlt', e3, e4]

/-- **C165** for `magsq`: vectors of three components with the tag `vec`, all active and on one grid.  `magsq --tag` and
`ev 'vec vec dot'` add the same values on the same grid. -/
theorem C165_magsq (hr : Reachable s) (he : EvReady lib s false tags) {vec T : Tag} {axes : List (List F)}
    {cells : List Nat} {vs : List (NArr F)} (hv : Series s vec axes cells 3 vs) (htv : vec ∈ tags) (hT : T ≠ [])
    (label : List Char) (label' : Option (List Char)) :
    ∃ s₁ s₂, magsqCmd (some vec) (some T) label s = .ok s₁ ∧
      ev lib (vec ++ " ".toList ++ vec ++ " dot".toList) (some T) label' false s = .ok s₂ ∧
      SameResults s.heap.length vs.length T s₁ s₂ := by
  obtain ⟨ids, d1, d2, d3, d4⟩ := hv.visited
  obtain ⟨⟨s₁, h1, h2⟩, -⟩ := C90_magsq hr (Space.requests_one s hv.single hv.nonempty) (by simpa using hv.known.stored) hT (by simp)
    label (fun id hid d hd => by
      rw [d2] at hid
      obtain ⟨k, hk⟩ := List.mem_iff_getElem?.1 hid
      obtain ⟨d', a, f1, -, -, f2, f3, -⟩ := d4 k id hk
      rw [f1] at hd; cases hd
      exact ⟨_, _, _, _, rect_field f2 f3, le_rfl⟩)
  obtain ⟨s₂, q1, new, q2, q3, q4, q5, q6⟩ := C146_dot he (tagOperand vec vs) (tagOperand vec vs) cells 3
    (hv.operand htv) (hv.operand htv) (.inl rfl) T hT label'
  have hmax : max (tagOperand vec vs).count (tagOperand vec vs).count = vs.length := by
    simp [tagOperand, Expr.count, Leaf.count]
  rw [hmax] at q3 q4 q6
  have htext : joinWith ' ' ((tagOperand vec vs).tokens ++ (tagOperand vec vs).tokens ++ ["dot".toList]) =
      vec ++ " ".toList ++ vec ++ " dot".toList := by
    simp [tagOperand, Expr.tokens, Leaf.text, joinWith]
  rw [htext] at q1
  rw [d2] at h2
  refine ⟨s₁, s₂, h1, q1, by rw [h2.length, d3], by rw [q2, List.length_append, q3], fun k hk => ?_⟩
  have hk' : k < ids.length := by omega
  obtain ⟨d, r₁, u1, u2, u3, u4, u5⟩ := h2.results k _ (List.getElem?_eq_getElem hk')
  obtain ⟨d', a, f1, f2, -, f3, f4, -⟩ := d4 k _ (List.getElem?_eq_getElem hk')
  rw [f1] at u1; cases u1
  obtain ⟨⟨g, v1, v2⟩, -⟩ := u5 _ _ _ _ (rect_field f3 f4) le_rfl
  obtain ⟨r₂, w1, ⟨w2, w3⟩, w4, w5⟩ := q4 k hk
  obtain ⟨v, z1, z2⟩ := field_array v2 w2 fun i hi c hc => by
    simp only [tagOperand_num f2, List.dropLast_concat, dot, List.range_succ, List.range_zero, List.map_append, List.map_nil,
      List.map_cons, List.nil_append, List.sum_append, List.sum_cons, List.sum_nil]
    ring
  refine ⟨r₁, r₂, v, g, u2, ?_, u3, w4, z1, z2, v2.1, w3 g ?_⟩
  · rw [q2, List.getElem?_append_right (by omega)]; simpa using w1
  · have hg : g = axes.map NArr.ofList := Option.some.inj (v1.symm.trans f3.grid)
    rintro d' (hu | hu)
    all_goals
      obtain ⟨_, hu, -⟩ := hv.uses k d' hu
      rw [hu.grid, hg]

end

namespace EvAgreeEx
open EvLinEx (lib)
open EvOpsEx (onCells)

/-- Two densities, two momenta, a vector of three and one of four components. -/
def store : Space ℚ := perform [.add (onCells "n" 1 [2, 4]), .add (onCells "n" 1 [1, 0]), .add (onCells "p" 2 [1, 2, 3, 4]),
  .add (onCells "p" 2 [5, 6, 7, 8]), .add (onCells "v" 3 [1, 2, 2, 0, 3, 4]), .add (onCells "w" 4 [1, 2, 2, 1, 0, 3, 4, 1])]

def tags : List Tag := ["n".toList, "p".toList, "v".toList, "w".toList]

theorem reachable : Reachable store := Space.reachable_perform _

theorem ready : EvReady lib store false tags := ⟨rfl, by decide +kernel, min_comm, max_comm, by simp [lib]⟩

theorem n : Series store "n".toList [[0, 1, 2]] [2] 1 [⟨[2, 1], [2, 4]⟩, ⟨[2, 1], [1, 0]⟩] :=
  ⟨by decide, by decide, by decide, by simp, [0, 1], rfl,
    .cons ⟨_, rfl, rfl, ⟨rfl, rfl, rfl, rfl, rfl, by simp, by simp⟩, rfl, by simp [ProperMeta, onCells]⟩
    (.cons ⟨_, rfl, rfl, ⟨rfl, rfl, rfl, rfl, rfl, by simp, by simp⟩, rfl, by simp [ProperMeta, onCells]⟩ .nil)⟩

theorem p : Series store "p".toList [[0, 1, 2]] [2] 2 [⟨[2, 2], [1, 2, 3, 4]⟩, ⟨[2, 2], [5, 6, 7, 8]⟩] :=
  ⟨by decide, by decide, by decide, by simp, [2, 3], rfl,
    .cons ⟨_, rfl, rfl, ⟨rfl, rfl, rfl, rfl, rfl, by simp, by simp⟩, rfl, by simp [ProperMeta, onCells]⟩
    (.cons ⟨_, rfl, rfl, ⟨rfl, rfl, rfl, rfl, rfl, by simp, by simp⟩, rfl, by simp [ProperMeta, onCells]⟩ .nil)⟩

theorem v : Series store "v".toList [[0, 1, 2]] [2] 3 [⟨[2, 3], [1, 2, 2, 0, 3, 4]⟩] :=
  ⟨by decide, by decide, by decide, by simp, [4], rfl,
    .cons ⟨_, rfl, rfl, ⟨rfl, rfl, rfl, rfl, rfl, by simp, by simp⟩, rfl, by simp [ProperMeta, onCells]⟩ .nil⟩

/-- C165: the hypotheses are met; the second velocity has a cell with density zero. -/
example : (∃ s₁ s₂, velocityCmd "n".toList "p".toList "u".toList [] store = .ok s₁ ∧
      ev lib "p n /".toList (some "u".toList) none false store = .ok s₂ ∧ SameResults 6 2 "u".toList s₁ s₂) ∧
    ∃ s₁ s₂, magsqCmd (some "v".toList) (some "u".toList) [] store = .ok s₁ ∧
      ev lib "v v dot".toList (some "u".toList) none false store = .ok s₂ ∧ SameResults 6 1 "u".toList s₁ s₂ := by
  refine ⟨?_, C165_magsq reachable ready v (by decide) (by decide) [] none⟩
  obtain ⟨s₁, s₂, h1, h2, h3, -⟩ := C165_velocity reachable ready n p rfl (by decide) (by decide) (T := "u".toList) (by decide)
    (by decide) (by decide) [] none
  exact ⟨s₁, s₂, h1, h2, h3⟩

end EvAgreeEx

open EvAgreeEx EvLinEx in
/-- C165 fails for datasets that are switched off: `velocity` leaves them out, `ev` takes them when their tag is named.  With
the first density and the first momentum off there is one velocity, that of the second pair, but there are two quotients. -/
theorem C165_inactive_fails : ∃ st s₁ s₂ r₁ r₂, Reachable st ∧ st.active 0 = false ∧ st.active 2 = false ∧
    velocityCmd "n".toList "p".toList "u".toList [] st = .ok s₁ ∧
    ev lib "p n /".toList (some "u".toList) none false st = .ok s₂ ∧ s₁.heap.length = 7 ∧ s₂.heap.length = 8 ∧
    s₁.heap[6]? = some r₁ ∧ s₂.heap[6]? = some r₂ ∧ r₁.values = some ⟨[2, 2], [5, 6, 0, 0]⟩ ∧
    r₂.values = some ⟨[2, 2], [1 / 2, 1, 3 / 4, 1]⟩ := by
  refine ⟨(EvAgreeEx.store.update 0 fun d => { d with status := false }).update 2 fun d => { d with status := false },
    _, _, _, _, (reachable.change 0 _).change 2 _, rfl, rfl, rfl, rfl, rfl, rfl, rfl, rfl, by decide +kernel, by decide +kernel⟩

open EvAgreeEx EvLinEx in
/-- C165 fails for vectors with more than three components: `magsq` drops what follows the third, `dot` does not. -/
theorem C165_components_fails : ∃ s₁ s₂ r₁ r₂, magsqCmd (some "w".toList) (some "u".toList) [] EvAgreeEx.store = .ok s₁ ∧
    ev lib "w w dot".toList (some "u".toList) none false EvAgreeEx.store = .ok s₂ ∧
    s₁.heap[6]? = some r₁ ∧ s₂.heap[6]? = some r₂ ∧ r₁.values = some ⟨[2, 1], [9, 25]⟩ ∧
    r₂.values = some ⟨[2, 1], [10, 26]⟩ :=
  ⟨_, _, _, _, rfl, rfl, rfl, rfl, by decide +kernel, by decide +kernel⟩

end Pgkyl
