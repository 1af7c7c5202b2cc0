import Verif.Props.EvCommand
import Verif.Lemmas.InterpIntegral
/-!
# C148, C149: numbers computed from data; C58 as a property of the command
-/

namespace Pgkyl
open Spec Ev Integ

section
variable {F : Type} [_root_.Field F] [LinearOrder F]
variable {lib : Lib F} {s : Space F} {all : Bool} {tags : List Tag}
variable {A B : Expr F} {sh shB : List Nat} {axes axesB : Nat → List (List F)}

/-! ## C148 -/

/-- `B max`, `B min` and `B mean` put one number per dataset on the stack. -/
theorem pushes_summary (hr : EvReady lib s all tags) (r : Summary) (hB : OperandOK lib s all tags (B, shB)) (h0 : 0 ∉ shB)
    (hd : B.hasData = true) :
    Pushes lib s all tags (B.tokens ++ [r.text]) B.count true fun k i =>
      ∃ x, NumItem x i ∧ r.Is shB (fun idx => B.num lib.fn (min k (B.count - 1)) idx) x := by
  have hp : Pushes lib s all tags B.tokens B.count true fun k i => ∃ a, i.val = .arr a ∧
      a.data = (indices shB).map fun idx => B.num lib.fn k idx := by
    have h := pushes_expr hr add_comm hB
    rw [show ((B, shB) : Expr F × List Nat).1.hasData = true from hd] at h
    refine h.mono fun k i ⟨D, K⟩ => ?_
    obtain ⟨a, e, t, -⟩ := id D
    obtain ⟨t1, t2, t3, -⟩ := t hd
    exact ⟨a, e, data_of_get? t2 t1 fun idx hi => by rw [t3 idx hi]; exact den_num D hi⟩
  have hne : ∀ k, (indices shB).map (fun idx => B.num lib.fn k idx) ≠ [] := fun k => by simpa using indices_ne_nil h0
  have key : ∀ {f : List F → Option F}, cmds lib.fn r.text = some (1, EvCmd.reduce f) →
      (∀ k, ∃ x, f ((indices shB).map fun idx => B.num lib.fn k idx) = some x ∧ r.Is shB (fun idx => B.num lib.fn k idx) x) →
      Pushes lib s all tags (B.tokens ++ [r.text]) B.count true fun k i =>
        ∃ x, NumItem x i ∧ r.Is shB (fun idx => B.num lib.fn (min k (B.count - 1)) idx) x := by
    intro f hop hf
    refine pushes_op1 hr hop hp (R := fun k i => ∃ x, NumItem x i ∧ r.Is shB (fun idx => B.num lib.fn k idx) x)
      fun k i ⟨a, e1, e2⟩ => ?_
    obtain ⟨x, hx, hxr⟩ := hf k
    exact ⟨some [], .arr (NArr.ofList [x]), by rw [e1]; simp only [EvCmd.reduce, e2, hx],
      fun c => ⟨x, ⟨rfl, _, rfl, .inr rfl, rfl⟩, hxr⟩⟩
  cases r with
  | max =>
    refine key (f := List.max?) rfl fun k => ?_
    obtain ⟨x, hx⟩ := Option.isSome_iff_exists.1 ((List.isSome_max?_iff).2 (hne k))
    refine ⟨x, hx, ?_, fun idx hi => ?_⟩
    · obtain ⟨idx, hi, rfl⟩ := List.mem_map.1 (List.max?_mem hx)
      exact ⟨idx, mem_indices.1 hi, rfl⟩
    · exact (List.max?_eq_some_iff.1 hx).2 _ (List.mem_map.2 ⟨idx, mem_indices.2 hi, rfl⟩)
  | min =>
    refine key (f := List.min?) rfl fun k => ?_
    obtain ⟨x, hx⟩ := Option.isSome_iff_exists.1 ((List.isSome_min?_iff).2 (hne k))
    refine ⟨x, hx, ?_, fun idx hi => ?_⟩
    · obtain ⟨idx, hi, rfl⟩ := List.mem_map.1 (List.min?_mem hx)
      exact ⟨idx, mem_indices.1 hi, rfl⟩
    · exact (List.min?_eq_some_iff.1 hx).2 _ (List.mem_map.2 ⟨idx, mem_indices.2 hi, rfl⟩)
  | mean =>
    refine key (f := EvCmd.meanOf) rfl fun k => ⟨_, by rw [EvCmd.meanOf, if_neg (hne k)], ?_⟩
    rw [← List.sum_eq_foldl, List.length_map, length_indices, Int.cast_natCast]
    rfl

/-- `B axis len` puts the length of the axis on the stack. -/
theorem pushes_len (hr : EvReady lib s all tags) (hB : OperandOK lib s all tags (B, shB)) (hd : B.hasData = true)
    (hG : OnGrid s all B axesB) (hg : ∀ k, FitsAll (axesB k) shB) {t : List Char} {y : F}
    (ht : Literal lib tags t (.arr (NArr.scalar y))) {a : Nat} (ha : lib.fn.toInt y = some (a : Int)) (hlt : a + 1 < shB.length) :
    Pushes lib s all tags (B.tokens ++ [t, "len".toList]) B.count true fun k i =>
      (fun k i => i.grid = some [] ∧ i.val = .arr (NArr.scalar (codeLength ((axesB k).getD a []) (shB.getD a 0))))
        (min k (B.count - 1)) i := by
  refine pushes_op2 hr (op := "len".toList) (f := EvCmd.length lib.fn) rfl (pushes_array hr add_comm hB hd hG) ht
    (R := fun k i => i.grid = some [] ∧ i.val = .arr (NArr.scalar (codeLength ((axesB k).getD a []) (shB.getD a 0))))
    fun k i ⟨h1, v, h2, h3, h4, h5⟩ => ?_
  have hl1 : a < (axesB k).length := by have := (hg k).1; omega
  have hl2 : a < shB.length := by omega
  have e1 : (axesB k)[a]? = some (axesB k)[a] := List.getElem?_eq_getElem hl1
  have e2 : shB[a]? = some shB[a] := List.getElem?_eq_getElem hl2
  have e3 : (axesB k).getD a [] = (axesB k)[a] := by rw [List.getD_eq_getElem?_getD, e1]; rfl
  have e4 : shB.getD a 0 = shB[a] := by rw [List.getD_eq_getElem?_getD, e2]; rfl
  have e5 := axisLength_ok ((hg k).2 a _ _ e1 e2)
  refine ⟨some [], .arr (NArr.scalar (codeLength (axesB k)[a] shB[a])), ?_, fun c => ⟨rfl, by rw [e3, e4]⟩⟩
  have h6 : EvCmd.toInt lib.fn (.arr (NArr.scalar y)) = .ok (a : Int) := by
    simp [EvCmd.toInt, NArr.scalar, ha]
  rw [h1, h2]
  simp only [EvCmd.length, h6, Integ.pyGet_nat, List.getElem?_map, e1, h4, e2, Option.map_some, bind, Except.bind, NArr.ofList, e5, pure,
    Except.pure]

/-- A number put on the stack by `us` after an expression: the operation uses it for every entry. -/
theorem ev_array_number (hr : EvReady lib s all tags) (o : BinOp) (hA : OperandOK lib s all tags (A, sh)) (hd : A.hasData = true)
    (hG : OnGrid s all A axes) (hg : ∀ k, FitsAll (axes k) sh) {us : List (List Char)} {m : Nat} {h2 : Bool} {X : Nat → F → Prop}
    (hu : Pushes lib s all tags us m h2 fun k i => ∃ x, NumItem x i ∧ X (min k (m - 1)) x) (T : Tag) (hT : T ≠ [])
    (label : Option (List Char)) :
    ∃ s', ev lib (joinWith ' ' (A.tokens ++ us ++ [o.text])) (some T) label all s = .ok s' ∧
      AddsUnder s s' T (max A.count m) fun k d => ∃ x, X (min k (m - 1)) x ∧ d.grid = some ((axes k).map NArr.ofList) ∧
        HoldsArray d sh fun idx => o.app lib.fn (A.num lib.fn k idx) x := by
  have hs : sh ≠ [] := by intro e; have := (hg 0).1; rw [e] at this; simp at this
  obtain ⟨F0, hF⟩ : ∃ F0, cmds lib.fn o.text = some (2, F0) := by cases o <;> exact ⟨_, rfl⟩
  have hp := pushes_pair hr hF (pushes_array hr add_comm hA hd hG) hu
    (R := fun k i => ∃ x, X (min k (m - 1)) x ∧ ArrItem (axes k) sh (fun idx => o.app lib.fn (A.num lib.fn k idx) x) i)
    fun k i j hi ⟨x, hx, hX⟩ => by
      obtain ⟨F1, e1, gr, v, e2, e3⟩ := op_num_right (lib := lib) add_comm hr.min hr.max o hs hi hx
      rw [hF] at e1
      obtain rfl := (Prod.mk.inj (Option.some.inj e1)).2
      exact ⟨gr, v, e2, fun c => ⟨x, hX, e3 c⟩⟩
  rw [Bool.true_or] at hp
  refine ev_of_op hr (P := fun k i => ∃ x, X (min k (m - 1)) x ∧ ArrItem (axes k) sh (fun idx => o.app lib.fn (A.num lib.fn k idx) x) i)
    hp _ (fun k i ⟨x, hX, hi⟩ d => ?_) T hT label
  obtain ⟨d', p1, p2, p3⟩ := push_array hi (hg k).1 (fits_nonempty (hg k)) d
  exact ⟨d', p1, ⟨x, hX, p2⟩, p3⟩

/-- The same with the number first. -/
theorem ev_number_array (hr : EvReady lib s all tags) (o : BinOp) (ho : o ≠ .pow) (hA : OperandOK lib s all tags (A, sh))
    (hd : A.hasData = true) (hG : OnGrid s all A axes) (hg : ∀ k, FitsAll (axes k) sh) {us : List (List Char)} {m : Nat} {h2 : Bool}
    {X : Nat → F → Prop}
    (hu : Pushes lib s all tags us m h2 fun k i => ∃ x, NumItem x i ∧ X (min k (m - 1)) x) (T : Tag) (hT : T ≠ [])
    (label : Option (List Char)) :
    ∃ s', ev lib (joinWith ' ' (us ++ A.tokens ++ [o.text])) (some T) label all s = .ok s' ∧
      AddsUnder s s' T (max m A.count) fun k d => ∃ x, X (min k (m - 1)) x ∧ d.grid = some ((axes k).map NArr.ofList) ∧
        HoldsArray d sh fun idx => o.app lib.fn x (A.num lib.fn k idx) := by
  have hs : sh ≠ [] := by intro e; have := (hg 0).1; rw [e] at this; simp at this
  obtain ⟨F0, hF⟩ : ∃ F0, cmds lib.fn o.text = some (2, F0) := by cases o <;> exact ⟨_, rfl⟩
  have hp := pushes_pair hr hF hu (pushes_array hr add_comm hA hd hG)
    (R := fun k i => ∃ x, X (min k (m - 1)) x ∧ ArrItem (axes k) sh (fun idx => o.app lib.fn x (A.num lib.fn k idx)) i)
    fun k i j ⟨x, hx, hX⟩ hj => by
      obtain ⟨F1, e1, gr, v, e2, e3⟩ := op_num_left (lib := lib) add_comm hr.min hr.max o ho hs hj hx
      rw [hF] at e1
      obtain rfl := (Prod.mk.inj (Option.some.inj e1)).2
      exact ⟨gr, v, e2, fun c => ⟨x, hX, e3 c⟩⟩
  rw [Bool.or_true] at hp
  refine ev_of_op hr (P := fun k i => ∃ x, X (min k (m - 1)) x ∧ ArrItem (axes k) sh (fun idx => o.app lib.fn x (A.num lib.fn k idx)) i)
    hp _ (fun k i ⟨x, hX, hi⟩ d => ?_) T hT label
  obtain ⟨d', p1, p2, p3⟩ := push_array hi (hg k).1 (fits_nonempty (hg k)) d
  exact ⟨d', p1, ⟨x, hX, p2⟩, p3⟩

/-- C148: `A B max o`, `A B min o` and `A B mean o` apply the operation to every entry of `A` and the largest, smallest or mean value
of `B`, on the grid of `A`. -/
theorem C148_summary (hr : EvReady lib s all tags) (o : BinOp) (r : Summary) (hA : OperandOK lib s all tags (A, sh))
    (hdA : A.hasData = true) (hG : OnGrid s all A axes) (hg : ∀ k, FitsAll (axes k) sh) (hB : OperandOK lib s all tags (B, shB))
    (h0 : 0 ∉ shB) (hdB : B.hasData = true) (T : Tag) (hT : T ≠ []) (label : Option (List Char)) :
    ∃ s', ev lib (joinWith ' ' (A.tokens ++ (B.tokens ++ [r.text]) ++ [o.text])) (some T) label all s = .ok s' ∧
      AddsUnder s s' T (max A.count B.count) fun k d => ∃ x,
        r.Is shB (fun idx => B.num lib.fn (min k (B.count - 1)) idx) x ∧ d.grid = some ((axes k).map NArr.ofList) ∧
        HoldsArray d sh fun idx => o.app lib.fn (A.num lib.fn k idx) x :=
  ev_array_number hr o hA hdA hG hg (X := fun k x => r.Is shB (fun idx => B.num lib.fn k idx) x)
    (pushes_summary hr r hB h0 hdB) T hT label

/-- C148: the same with the number as first operand, for all operations but powers.

Full statement (false, see `C148_power_fails`): for all operations. -/
theorem C148_summary_first_partial (hr : EvReady lib s all tags) (o : BinOp) (ho : o ≠ .pow) (r : Summary)
    (hA : OperandOK lib s all tags (A, sh)) (hdA : A.hasData = true) (hG : OnGrid s all A axes) (hg : ∀ k, FitsAll (axes k) sh)
    (hB : OperandOK lib s all tags (B, shB)) (h0 : 0 ∉ shB) (hdB : B.hasData = true) (T : Tag) (hT : T ≠ [])
    (label : Option (List Char)) :
    ∃ s', ev lib (joinWith ' ' (B.tokens ++ [r.text] ++ A.tokens ++ [o.text])) (some T) label all s = .ok s' ∧
      AddsUnder s s' T (max B.count A.count) fun k d => ∃ x,
        r.Is shB (fun idx => B.num lib.fn (min k (B.count - 1)) idx) x ∧ d.grid = some ((axes k).map NArr.ofList) ∧
        HoldsArray d sh fun idx => o.app lib.fn x (A.num lib.fn k idx) :=
  ev_number_array hr o ho hA hdA hG hg (X := fun k x => r.Is shB (fun idx => B.num lib.fn k idx) x)
    (pushes_summary hr r hB h0 hdB) T hT label

/-- C148 fails for a power of such a number: the result has values on axes but no coordinates, and is refused. -/
theorem C148_power_fails (hr : EvReady lib s all tags) (r : Summary) (hA : OperandOK lib s all tags (A, sh))
    (hdA : A.hasData = true) (hG : OnGrid s all A axes) (hax : 2 ≤ sh.length)
    (hB : OperandOK lib s all tags (B, shB)) (h0 : 0 ∉ shB) (hdB : B.hasData = true) (T : Tag) (hT : T ≠ [])
    (label : Option (List Char)) :
    ∃ e, ev lib (joinWith ' ' (B.tokens ++ [r.text] ++ A.tokens ++ ["pow".toList])) (some T) label all s = .error e := by
  have hs : sh ≠ [] := by intro e; rw [e] at hax; simp at hax
  have hp := pushes_pair hr (op := "pow".toList) (f := EvCmd.power lib.fn.pow) rfl (pushes_summary hr r hB h0 hdB)
    (pushes_array hr add_comm hA hdA hG)
    (R := fun _ i => i.grid = some [] ∧ ∃ a, i.val = .arr a ∧ 2 ≤ a.shape.length) fun k i j ⟨x, ⟨k1, c, k2, k3, k4⟩, _⟩ hj => by
      obtain ⟨h1, a, h2, h3, h4, h5⟩ := hj
      obtain ⟨q, q1, q2, q3, -⟩ := (zip2_num lib.fn.pow hs h3 h4 h5 k3 k4).2
      exact ⟨some [], .arr q, by rw [k1, h1, k2, h2]; simp only [EvCmd.power, q1, bind, Except.bind, pure, Except.pure],
        fun c => ⟨rfl, q, rfl, by rw [q3]; exact hax⟩⟩
  rw [Bool.true_or] at hp
  refine ev_unstorable hr hp (fun k i ⟨h1, a, h2, h3⟩ d => ?_) T hT label
  obtain ⟨g, v, c⟩ := i
  obtain rfl : g = _ := h1
  obtain rfl : v = _ := h2
  have hne : a.shape ≠ [] := by intro e; rw [e] at h3; simp at h3
  obtain ⟨nc, hnc⟩ : ∃ nc, a.shape.getLast? = some nc := ⟨_, List.getLast?_eq_some_getLast hne⟩
  refine ⟨.indexError, ?_⟩
  simp only [pushItem, GData.push, GData.setValues, hnc, bind, Except.bind, GData.setGrid]
  have hn : ∀ (d' : GData F), d'.ctx.cells = some a.shape.dropLast → d'.numDims = (a.shape.length - 2) + 1 := by
    intro d' hd'
    simp [GData.numDims, GData.numCells, hd']; omega
  rw [hn _ (by
    by_cases hc : d.ctx.cells = some a.shape.dropLast <;> by_cases hm : d.ctx.numComps = some nc <;> simp [hc, hm])]
  rfl

/-- C148: `A B axis len o` applies the operation to every entry of `A` and the length that the cells of `B` cover along the axis (on nodal
grids where the first and the last spacing agree).

Full statement (false, as `C31_nodal_fails`): on every grid. -/
theorem C148_length_partial (hr : EvReady lib s all tags) (o : BinOp) (hA : OperandOK lib s all tags (A, sh))
    (hdA : A.hasData = true) (hG : OnGrid s all A axes) (hg : ∀ k, FitsAll (axes k) sh) (hB : OperandOK lib s all tags (B, shB))
    (hdB : B.hasData = true) (hGB : OnGrid s all B axesB) (hgB : ∀ k, FitsAll (axesB k) shB) {t : List Char} {y : F}
    (ht : Literal lib tags t (.arr (NArr.scalar y))) {a : Nat} (ha : lib.fn.toInt y = some (a : Int)) (hlt : a + 1 < shB.length)
    (hlen : ∀ k, ∀ (x : List F) (n : Nat), (axesB k)[a]? = some x → shB[a]? = some n →
      x.length = n → x.getD (n - 1) 0 - x.getD (n - 2) 0 = x.getD 1 0 - x.getD 0 0)
    (T : Tag) (hT : T ≠ []) (label : Option (List Char)) :
    ∃ s', ev lib (joinWith ' ' (A.tokens ++ (B.tokens ++ [t, "len".toList]) ++ [o.text])) (some T) label all s = .ok s' ∧
      AddsUnder s s' T (max A.count B.count) fun k d => d.grid = some ((axes k).map NArr.ofList) ∧
        HoldsArray d sh fun idx => o.app lib.fn (A.num lib.fn k idx)
          (covered ((axesB (min k (B.count - 1))).getD a []) (shB.getD a 0)) := by
  have hL : ∀ k, codeLength ((axesB k).getD a []) (shB.getD a 0) = covered ((axesB k).getD a []) (shB.getD a 0) := by
    intro k
    have hl1 : a < (axesB k).length := by have := (hgB k).1; omega
    have hl2 : a < shB.length := by omega
    have e1 : (axesB k)[a]? = some (axesB k)[a] := List.getElem?_eq_getElem hl1
    have e2 : shB[a]? = some shB[a] := List.getElem?_eq_getElem hl2
    have e3 : (axesB k).getD a [] = (axesB k)[a] := by rw [List.getD_eq_getElem?_getD, e1]; rfl
    have e4 : shB.getD a 0 = shB[a] := by rw [List.getD_eq_getElem?_getD, e2]; rfl
    rw [e3, e4]
    unfold codeLength covered
    by_cases hx : (axesB k)[a].length = shB[a]
    · rw [if_pos hx, if_pos hx, hlen k _ _ e1 e2 hx, hx]
    · rw [if_neg hx, if_neg hx]
      rcases (hgB k).2 a _ _ e1 e2 with h | h
      · rw [h]; simp
      · exact absurd h.1 hx
  obtain ⟨s', r1, new, q1, q2, q3, q4⟩ := ev_array_number hr o hA hdA hG hg
    (X := fun k x => x = covered ((axesB k).getD a []) (shB.getD a 0))
    ((pushes_len hr hB hdB hGB hgB ht ha hlt).mono fun k i ⟨h1, h2⟩ => ⟨_, ⟨h1, _, h2, .inl rfl, rfl⟩, hL _⟩) T hT label
  refine ⟨s', r1, new, q1, q2, fun k hk => ?_, q4⟩
  obtain ⟨d, a1, ⟨x, rfl, a2⟩, a3⟩ := q3 k hk
  exact ⟨d, a1, a2, a3⟩

/-- C148 fails for `A axis len` alone: the length has no axis for components and cannot be stored; the command ends with an error. -/
theorem C148_length_alone_fails (hr : EvReady lib s all tags) (hB : OperandOK lib s all tags (B, shB)) (hd : B.hasData = true)
    (hG : OnGrid s all B axesB) (hg : ∀ k, FitsAll (axesB k) shB) {t : List Char} {y : F}
    (ht : Literal lib tags t (.arr (NArr.scalar y))) {a : Nat} (ha : lib.fn.toInt y = some (a : Int)) (hlt : a + 1 < shB.length)
    (T : Tag) (hT : T ≠ []) (label : Option (List Char)) :
    ∃ e, ev lib (joinWith ' ' (B.tokens ++ [t, "len".toList])) (some T) label all s = .error e := by
  refine ev_unstorable hr (pushes_len hr hB hd hG hg ht ha hlt) (fun k i ⟨h1, h2⟩ d => ?_) T hT label
  obtain ⟨g, v, c⟩ := i
  obtain rfl : g = _ := h1
  obtain rfl : v = _ := h2
  exact ⟨.indexError, rfl⟩

/-! ## C149 -/

omit [_root_.Field F] [LinearOrder F] in
theorem holdsArray_values {d e : GData F} {sh : List Nat} {f : List Nat → F} (hd : HoldsArray d sh f) (he : HoldsArray e sh f) :
    d.values = e.values := by
  obtain ⟨a, a1, a2, a3, a4⟩ := hd
  obtain ⟨b, b1, b2, b3, b4⟩ := he
  rw [a1, b1]
  congr 1
  exact NArr.ext_get? a2 b2 (by rw [a3, b3]) fun idx hi => by rw [a3] at hi; rw [a4 idx hi, b4 idx hi]

/-- C149: `A axis int A axis len /` adds the same datasets as `A axis avg`. -/
theorem C149_average (hr : EvReady lib s all tags) (hA : OperandOK lib s all tags (A, sh)) (hd : A.hasData = true)
    (hG : OnGrid s all A axes) (hg : ∀ k, FitsAll (axes k) sh) {t : List Char} {y : F}
    (ht : Literal lib tags t (.arr (NArr.scalar y))) {a : Nat} (ha : lib.fn.toInt y = some (a : Int)) (hlt : a + 1 < sh.length)
    (T : Tag) (hT : T ≠ []) (label label' : Option (List Char)) :
    ∃ s1 s2, ev lib (joinWith ' ' (A.tokens ++ [t, "int".toList] ++ (A.tokens ++ [t, "len".toList]) ++ ["/".toList])) (some T) label all s
        = .ok s1 ∧
      ev lib (joinWith ' ' (A.tokens ++ [t, "avg".toList])) (some T) label' all s = .ok s2 ∧
      AddsUnder s s1 T A.count (fun _ _ => True) ∧
      AddsUnder s s2 T A.count (fun k d => ∃ e, s1.heap[s.heap.length + k]? = some e ∧ SameField d e) := by
  have hAx : EvNames lib.fn (sh.length - 1) (.arr (NArr.scalar y)) [a] := .number ha
  have hlt' : ∀ b ∈ [a], b + 1 < sh.length := by simpa using hlt
  obtain ⟨s2, r1, new2, q1, q2, q3, q4⟩ := ev_integral hr true (op := "avg".toList) rfl hA hd hG hg ht hAx (by simp) hlt'
    (f := fun k idx => cellSum sh (fun i => A.num lib.fn k i) (gridWidth (axes k) sh) [a] idx /
      codeLength ((axes k).getD a []) (sh.getD a 0)) (fun k idx _ => by simp [EvCmd.sortDesc]) T hT label'
  have hs : collapsed [a] sh ≠ [] := by
    intro e
    have := collapsed_length [a] sh
    rw [e] at this; simp at this; omega
  have hp := pushes_pair hr (op := "/".toList) (f := EvCmd.multLike (· / ·)) rfl
    (pushes_integral hr false (op := "int".toList) rfl hA hd hG hg ht hAx (by simp) hlt'
      (f := fun k => cellSum sh (fun i => A.num lib.fn k i) (gridWidth (axes k) sh) [a]) (fun k idx _ => by simp [EvCmd.sortDesc]))
    (pushes_len hr hA hd hG hg ht ha hlt)
    (R := fun k i => ArrItem (zeroAxes [a] (axes (min k (A.count - 1)))) (collapsed [a] sh)
      (fun idx => cellSum sh (fun i => A.num lib.fn (min k (A.count - 1)) i) (gridWidth (axes (min k (A.count - 1))) sh) [a] idx /
        codeLength ((axes (min k (A.count - 1))).getD a []) (sh.getD a 0)) i)
    fun k i j hi ⟨h1, h2⟩ => by
      obtain ⟨F1, e1, gr, v, e2, e3⟩ := op_num_right (lib := lib) add_comm hr.min hr.max .div hs hi
        (show NumItem _ j from ⟨h1, _, h2, .inl rfl, rfl⟩)
      obtain rfl : EvCmd.multLike (· / ·) = F1 := (Prod.mk.inj (Option.some.inj e1)).2
      exact ⟨gr, v, e2, e3⟩
  rw [Bool.true_or, max_self] at hp
  obtain ⟨s1, p1, new1, w1, w2, w3, w4⟩ := ev_of_op hr
    (P := fun k i => ArrItem (zeroAxes [a] (axes (min k (A.count - 1)))) (collapsed [a] sh)
      (fun idx => cellSum sh (fun i => A.num lib.fn (min k (A.count - 1)) i) (gridWidth (axes (min k (A.count - 1))) sh) [a] idx /
        codeLength ((axes (min k (A.count - 1))).getD a []) (sh.getD a 0)) i) hp _
    (fun k i hi d => push_array hi (by rw [collapsed_length, zeroAxes, List.length_mapIdx]; exact (hg _).1)
      (zeroAxes_nonempty (fits_nonempty (hg _)) [a]) d) T hT label
  refine ⟨s1, s2, p1, r1, ⟨new1, w1, w2, fun k hk => ?_, w4⟩, new2, q1, q2, fun k hk => ?_, q4⟩
  · obtain ⟨d, a1, -, a3⟩ := w3 k hk
    exact ⟨d, a1, trivial, a3⟩
  · obtain ⟨d, a1, ⟨a2, a3⟩, a4⟩ := q3 k hk
    obtain ⟨e, b1, ⟨b2, b3⟩, b4⟩ := w3 k hk
    rw [show min k (A.count - 1) = k by omega] at b2 b3
    refine ⟨d, a1, ⟨e, ?_, by rw [a2, b2], holdsArray_values a3 b3⟩, a4⟩
    rw [w1, List.getElem?_append_right (by omega), Nat.add_sub_cancel_left, b1]

omit [LinearOrder F] in
/-- With equal cells along every axis, the integral over all axes is the sum of the values times the volume of a cell. -/
theorem cellSum_equal {cells : List Nat} {m c : Nat} (hc : c < m) {Ax : List Nat} (hp : Ax.Perm (List.range cells.length))
    {axes : List (List F)} {h : Nat → F}
    (hw : ∀ a ∈ Ax, ∀ (i n : Nat), cells[a]? = some n → i < n → gridWidth axes (cells ++ [m]) a i = h a) (v : List Nat → F) :
    cellSum (cells ++ [m]) v (gridWidth axes (cells ++ [m])) Ax (List.replicate cells.length 0 ++ [c]) =
      ((indices cells).map fun i => v (i ++ [c])).sum * ((List.range cells.length).map h).prod := by
  have hlt : ∀ a ∈ Ax, a < cells.length := fun a ha => List.mem_range.1 (hp.mem_iff.1 ha)
  rw [cellSum_weights (w' := fun a _ => h a) (fun a ha i n hn hi => by
      rw [List.getElem?_append_left (hlt a ha)] at hn
      exact hw a ha i n hn hi) (fun a ha => by have := hlt a ha; simp; omega),
    cellSum_perm hp, Dg.cellSum_all cells hc, List.sum_map_mul_right]

omit [_root_.Field F] [LinearOrder F] in
theorem collapsed_all {cells : List Nat} {m : Nat} {Ax : List Nat} (hp : Ax.Perm (List.range cells.length)) :
    collapsed Ax (cells ++ [m]) = List.replicate cells.length 1 ++ [m] := by
  refine List.ext_getElem? fun d => ?_
  rw [collapsed_get]
  have hm : d ∈ Ax ↔ d < cells.length := by rw [hp.mem_iff, List.mem_range]
  rcases lt_trichotomy d cells.length with h | h | h
  · rw [List.getElem?_append_left h, List.getElem?_append_left (by simpa using h), List.getElem?_eq_getElem h,
      List.getElem?_replicate]
    simp [hm, h]
  · subst h
    simp [hm]
  · rw [List.getElem?_eq_none (by simp; omega), List.getElem?_eq_none (by simp; omega)]; rfl

/-- C149: on a grid of equal cells, `A axes avg` over all axes gives for each component the mean of its values: the sum over all cells over
their number (for data with one component this is the number that `A mean` gives, `C146_mean`). -/
theorem C149_mean [CharZero F] {cells : List Nat} {m : Nat} (hr : EvReady lib s all tags)
    (hA : OperandOK lib s all tags (A, cells ++ [m])) (hd : A.hasData = true) (hG : OnGrid s all A axes)
    (hg : ∀ k, FitsAll (axes k) (cells ++ [m])) {t : List Char} {v : EvVal F} (ht : Literal lib tags t v) {Ax : List Nat}
    (hAx : EvNames lib.fn cells.length v Ax) (hp : Ax.Perm (List.range cells.length)) (h0 : 0 ∉ cells) (hm : 0 < m) {h : Nat → Nat → F}
    (hh : ∀ k a, h k a ≠ 0) (hw : ∀ k, ∀ a ∈ Ax, ∀ (i n : Nat), cells[a]? = some n → i < n →
      gridWidth (axes k) (cells ++ [m]) a i = h k a) (T : Tag) (hT : T ≠ []) (label : Option (List Char)) :
    ∃ s', ev lib (joinWith ' ' (A.tokens ++ [t, "avg".toList])) (some T) label all s = .ok s' ∧
      AddsUnder s s' T A.count fun k d => d.grid = some ((zeroAxes Ax (axes k)).map NArr.ofList) ∧
        HoldsArray d (List.replicate cells.length 1 ++ [m]) fun idx =>
          ((indices cells).map fun i => A.num lib.fn k (i ++ [idx.getLastD 0])).sum / (cells.prod : F) := by
  have hlt : ∀ a ∈ Ax, a < cells.length := fun a ha => List.mem_range.1 (hp.mem_iff.1 ha)
  have hnd : Ax.Nodup := hp.nodup_iff.2 List.nodup_range
  have hprod : (cells.prod : F) ≠ 0 := by
    rw [Nat.cast_ne_zero]
    intro e
    exact h0 (List.prod_eq_zero_iff.1 e)
  have hhp : ∀ k, ((List.range cells.length).map (h k)).prod ≠ 0 := by
    intro k e
    obtain ⟨a, -, ha⟩ := List.mem_map.1 (List.prod_eq_zero_iff.1 e)
    exact hh k a ha
  have hcov : ∀ k c, c < m → (Ax.map fun a => covered ((axes k).getD a []) ((cells ++ [m]).getD a 0)).prod =
      (cells.prod : F) * ((List.range cells.length).map (h k)).prod := by
    intro k c hc
    have e1 := cellSum_equal hc hp (hw k) (fun _ => (1 : F))
    have hin : inRange (collapsed Ax (cells ++ [m])) (List.replicate cells.length 0 ++ [c]) = true := by
      rw [collapsed_all hp]
      refine inRange_snoc_iff.2 ⟨?_, hc⟩
      rw [inRange_get]
      simp only [List.length_replicate, true_and]
      intro a i n hi hn
      rw [List.getElem?_replicate] at hi hn
      split at hi
      · rename_i hac
        rw [if_pos hac] at hn
        cases hi; cases hn; omega
      · cases hi
    rw [cellSum_const_covered hnd (hg k) (fun a ha => by have := (hg k).1; have := hlt a ha; simp at *; omega) hin] at e1
    rw [one_mul] at e1
    rw [e1]
    simp [length_indices]
  have hnz : ∀ k, ∀ a ∈ Ax, covered ((axes k).getD a []) ((cells ++ [m]).getD a 0) ≠ 0 := by
    intro k a ha e
    have := hcov k 0 hm
    rw [List.prod_eq_zero (List.mem_map.2 ⟨a, ha, e⟩)] at this
    exact mul_ne_zero hprod (hhp k) this.symm
  obtain ⟨s', r1, new, q1, q2, q3, q4⟩ := C31_ev_command_partial hr hA hd hG hg ht (by simpa using hAx) hnd
    (fun a ha => by have := hlt a ha; simp; omega) (fun k a ha x n hx hn => by
      have e3 : (axes k).getD a [] = x := by rw [List.getD_eq_getElem?_getD, hx]; rfl
      have e4 : (cells ++ [m]).getD a 0 = n := by rw [List.getD_eq_getElem?_getD, hn]; rfl
      refine ⟨by have := hnz k a ha; rwa [e3, e4] at this, fun hxn => ?_⟩
      have hn' : cells[a]? = some n := by rwa [List.getElem?_append_left (hlt a ha)] at hn
      have h2 : 2 ≤ n := by
        rcases (hg k).2 a x n hx hn with h | h
        · omega
        · exact h.2
      have w0 := hw k a ha 0 n hn' (by omega)
      have w1 := hw k a ha (n - 1) n hn' (by omega)
      simp only [gridWidth, e3, e4, width] at w0 w1
      rw [if_neg (by omega)] at w0
      rw [if_pos ⟨hxn, by omega⟩] at w1
      rw [show n - 2 = n - 1 - 1 by omega, w1, ← w0]) T hT label
  refine ⟨s', r1, new, q1, q2, fun k hk => ?_, q4⟩
  obtain ⟨d, a1, ⟨a2, ⟨w, b1, b2, b3, b4⟩, -⟩, a4⟩ := q3 k hk
  refine ⟨d, a1, ⟨a2, w, b1, b2, by rw [b3, collapsed_all hp], fun idx hi => ?_⟩, a4⟩
  obtain ⟨i, c, rfl, hi1, hc⟩ := inRange_snoc' hi
  obtain rfl : i = List.replicate cells.length 0 := by
    rw [inRange_get] at hi1
    refine List.ext_getElem? fun j => ?_
    have hl := hi1.1
    simp only [List.length_replicate] at hl
    by_cases hj : j < cells.length
    · have hji : j < i.length := by omega
      have := hi1.2 j i[j] 1 (List.getElem?_eq_getElem hji) (by rw [List.getElem?_replicate, if_pos hj])
      rw [List.getElem?_replicate, if_pos hj, List.getElem?_eq_getElem hji]
      congr 1; omega
    · rw [List.getElem?_eq_none (by omega), List.getElem?_eq_none (by simp; omega)]
  rw [b4 _ (by rw [collapsed_all hp]; exact hi)]
  simp only [List.getLastD_concat]
  rw [cellSum_equal hc hp (hw k), hcov k c hc, mul_div_mul_right _ _ (hhp k)]

/-! ## C58 -/

/-- C58 is false of the command: after `int` or `avg` over some axis, a further `int` or `avg` ends with an error, whatever its axes and
whatever follows. -/
theorem C58_command_fails (hr : EvReady lib s all tags) (hA : OperandOK lib s all tags (A, sh)) (hd : A.hasData = true)
    (hG : OnGrid s all A axes) (hg : ∀ k, FitsAll (axes k) sh) {t u : List Char} {v w : EvVal F} (ht : Literal lib tags t v)
    (hu : Literal lib tags u w) {Ax : List Nat} (hAx : EvNames lib.fn (sh.length - 1) v Ax) (hne : Ax ≠ []) (hnd : Ax.Nodup)
    (hlt : ∀ a ∈ Ax, a + 1 < sh.length) {op op' : List Char} (hop : op = "int".toList ∨ op = "avg".toList)
    (hop' : op' = "int".toList ∨ op' = "avg".toList) {rest : List (List Char)} (hrest : ∀ p ∈ rest, p ≠ [] ∧ ' ' ∉ p)
    (T label : Option (List Char)) :
    ∃ e, ev lib (joinWith ' ' (A.tokens ++ [t, op] ++ [u, op'] ++ rest)) T label all s = .error e := by
  have key : ∀ avg avg' : Bool, cmds lib.fn op = some (2, EvCmd.integrate lib.fn avg) →
      cmds lib.fn op' = some (2, EvCmd.integrate lib.fn avg') →
      ∃ e, ev lib (joinWith ' ' (A.tokens ++ [t, op] ++ [u, op'] ++ rest)) T label all s = .error e := by
    intro avg avg' h1 h2
    have hp := pushes_op2 hr h1 (pushes_array hr add_comm hA hd hG) ht
      (R := fun k i => ∃ e, EvCmd.integrate lib.fn avg' [none, i.grid] [w, i.val] = .error e) fun k i ⟨e1, a, e2, e3, e4, e5⟩ => by
        have hlen : (axes k).length = sh.length - 1 := by have := (hg k).1; omega
        obtain ⟨g, r, q1, q2⟩ := C58_ev_second_integration_fails lib.fn avg avg' none none e3 (by rw [e4]; exact hg k) hne hnd
          (fun b hb => by have := hlt b hb; omega) (by rw [hlen]; exact hAx) w
        exact ⟨g, r, by rw [e1, e2]; exact q1, fun _ => q2⟩
    exact ev_of_fails hr (fails_op2 hr h2 hp hu fun k i h => h) hrest T label
  rcases hop with rfl | rfl <;> rcases hop' with rfl | rfl
  · exact key false false rfl rfl
  · exact key false true rfl rfl
  · exact key true false rfl rfl
  · exact key true true rfl rfl

end

/-! ## The hypotheses are met -/

namespace EvCommandEx

/-- A dataset on two by two equal cells. -/
def square : GData ℚ where
  grid := some ([[0, 2, 4], [0, 3, 6]].map NArr.ofList)
  values := some ⟨[2, 2, 1], [1, 2, 3, 6]⟩
  tag := "q".toList

def store2 : Space ℚ := perform [.add square]

def q : Expr ℚ := .leaf (.data (some "q".toList) none none [⟨[2, 2, 1], [1, 2, 3, 6]⟩])

theorem q_uses {k : Nat} {d : GData ℚ} (h : q.Uses store2 false k d) : d = square := by
  obtain ⟨_, _, _, _, h⟩ := h
  have := List.mem_of_getElem? h
  simpa [show store2.heap = [square] from rfl] using this

theorem okQ : OperandOK lib store2 false ["q".toList] (q, [2, 2, 1]) :=
  ⟨⟨⟨by decide, by decide, by decide⟩, by simp, by simp, by simp, [(0, 0)], rfl,
    .cons ⟨_, [[0, 2, 4], [0, 3, 6]], _, rfl, ⟨rfl, rfl, rfl, rfl, rfl, by simp, by simp⟩, rfl, rfl⟩ .nil⟩, trivial,
    fun k d h => by rw [q_uses h]; simp [ProperMeta, square]⟩

end EvCommandEx

open EvCommandEx in
/-- C149: on equal cells `q 0,1 avg` gives the mean 3. -/
example : ∃ s' d, ev EvCommandEx.lib "q 0,1 avg".toList (some "r".toList) none false store2 = .ok s' ∧ s'.heap[1]? = some d ∧
    HoldsArray d [1, 1, 1] fun _ => 3 := by
  obtain ⟨s', h, new, h1, h2, h3, -⟩ := C149_mean (lib := EvCommandEx.lib) (s := store2) (all := false) (tags := ["q".toList]) (A := q)
    (axes := fun _ => [[0, 2, 4], [0, 3, 6]]) (cells := [2, 2]) (m := 1)
    ⟨rfl, by decide +kernel, min_comm, max_comm, by simp [EvCommandEx.lib, EvLinEx.lib]⟩ okQ rfl
    (fun k d h => by rw [q_uses h]; rfl)
    (fun _ => ⟨rfl, fun d x n h1 h2 => by rcases d with - | - | d <;> simp at h1 h2 <;> subst h1 h2 <;> exact .inl rfl⟩)
    (t := "0,1".toList) (.text (by decide) (by decide) (by decide) (by decide)) (EvNames.list (A := [0, 1]) (by decide))
    (by decide) (by decide) (by decide) (h := fun _ a => if a = 0 then 2 else 3) (fun k a => by split <;> simp)
    (fun k a ha i n hn hi => by
      simp only [List.mem_cons, List.not_mem_nil, or_false] at ha
      rcases ha with rfl | rfl <;> simp at hn <;> subst hn <;>
        (have : i = 0 ∨ i = 1 := by omega) <;> rcases this with rfl | rfl <;> decide +kernel) "r".toList (by simp) none
  obtain ⟨d, e1, ⟨e2, a, b1, b2, b3, b4⟩, -⟩ := h3 0 (by decide)
  refine ⟨s', d, h, ?_, a, b1, b2, b3, fun idx hi => ?_⟩
  · rw [h1, show store2.heap = [square] from rfl]; simpa using e1
  · rw [b4 idx hi]
    obtain ⟨i, c, rfl, -, hc⟩ := inRange_snoc' (cells := [1, 1]) (m := 1) hi
    obtain rfl : c = 0 := by omega
    simp only [List.getLastD_concat]
    decide +kernel

open EvCommandEx in
/-- C148, C149, C58: hypotheses met by `p p p * mean -`, `p p p * max /`, `p max p -`, `p max p pow`, `p p 0 len *`, `p 0 len`,
`p 0 int p 0 len /` and `p 0 int 0 avg`. -/
example : (∃ s', ev EvCommandEx.lib "p p p * mean -".toList (some "r".toList) none false EvCommandEx.store = .ok s') ∧
    (∃ s', ev EvCommandEx.lib "p p p * max /".toList (some "r".toList) none false EvCommandEx.store = .ok s') ∧
    (∃ s', ev EvCommandEx.lib "p max p -".toList (some "r".toList) none false EvCommandEx.store = .ok s') ∧
    (∃ e, ev EvCommandEx.lib "p max p pow".toList (some "r".toList) none false EvCommandEx.store = .error e) ∧
    (∃ s', ev EvCommandEx.lib "p p 0 len *".toList (some "r".toList) none false EvCommandEx.store = .ok s') ∧
    (∃ e, ev EvCommandEx.lib "p 0 len".toList (some "r".toList) none false EvCommandEx.store = .error e) ∧
    (∃ s', ev EvCommandEx.lib "p 0 int p 0 len /".toList (some "r".toList) none false EvCommandEx.store = .ok s') ∧
    (∃ e, ev EvCommandEx.lib "p 0 int 0 avg".toList (some "r".toList) none false EvCommandEx.store = .error e) ∧
    covered x 3 = 4 := by
  refine ⟨?_, ?_, ?_, ?_, ?_, ?_, ?_, ?_, by decide +kernel⟩
  · obtain ⟨s', h, -⟩ := C148_summary ready .sub .mean okP rfl (onGrid _) (fun _ => fits 1) okPP (by decide) rfl "r".toList (by simp) none
    exact ⟨s', h⟩
  · obtain ⟨s', h, -⟩ := C148_summary ready .div .max okP rfl (onGrid _) (fun _ => fits 1) okPP (by decide) rfl "r".toList (by simp) none
    exact ⟨s', h⟩
  · obtain ⟨s', h, -⟩ := C148_summary_first_partial ready .sub (by simp) .max okP rfl (onGrid _) (fun _ => fits 1) okP (by decide) rfl
      "r".toList (by simp) none
    exact ⟨s', h⟩
  · exact C148_power_fails ready .max okP rfl (onGrid _) (by decide) okP (by decide) rfl "r".toList (by simp) none
  · obtain ⟨s', h, -⟩ := C148_length_partial ready .mul okP rfl (onGrid _) (fun _ => fits 1) okP rfl (onGrid _) (fun _ => fits 1) zero
      (a := 0) (by decide +kernel) (by decide) (fun _ z n h1 h2 h3 => by simp [EvCommandEx.x] at h1 h2; subst h1 h2; simp at h3)
      "r".toList (by simp) none
    exact ⟨s', h⟩
  · exact C148_length_alone_fails ready okP rfl (onGrid _) (fun _ => fits 1) zero (a := 0) (by decide +kernel) (by decide) "r".toList
      (by simp) none
  · obtain ⟨s1, s2, h, -⟩ := C149_average ready okP rfl (onGrid _) (fun _ => fits 1) zero (a := 0) (by decide +kernel) (by decide)
      "r".toList (by simp) none none
    exact ⟨s1, h⟩
  · exact C58_command_fails ready okP rfl (onGrid _) (fun _ => fits 1) zero zero (EvNames.number (a := 0) (by decide +kernel)) (by simp)
      (by decide) (by decide) (.inl rfl) (.inr rfl) (rest := []) (by simp) (some "r".toList) none

end Pgkyl
