import Verif.Lemmas.EvOps
import Verif.Props.EvLinear
import Mathlib.Algebra.Order.Ring.Rat
import Mathlib.Algebra.Field.Rat
import Mathlib.Algebra.BigOperators.Ring.List
/-!
# C146, C147: operators of `ev` that are not elementwise

C146: `dot`, `max`, `min` and `mean` of any expressions.  C147: arithmetic between data with different numbers of components or
of axes.  The values of the operands are those of Spec/Ev.
-/

namespace Pgkyl
open Spec Ev

section
variable {F : Type} [_root_.Field F] [LinearOrder F]
variable {lib : Lib F} {s : Space F} {all : Bool} {tags : List Tag}

/-- C146: `A B dot` is, in every cell, the sum over the components of the products; on the common grid of the datasets used. -/
theorem C146_dot (hr : EvReady lib s all tags) (A B : Expr F) (cells : List Nat) (m : Nat)
    (hA : OperandOK lib s all tags (A, cells ++ [m])) (hB : OperandOK lib s all tags (B, cells ++ [m]))
    (hdata : A.hasData = true ∨ B.hasData = true) (T : Tag) (hT : T ≠ []) (label : Option (List Char)) :
    ∃ s', ev lib (joinWith ' ' (A.tokens ++ B.tokens ++ ["dot".toList])) (some T) label all s = .ok s' ∧
      AddsUnder s s' T (max A.count B.count) fun k d =>
        HoldsArray d (cells ++ [1]) (fun idx => ((List.range m).map fun c =>
          A.num lib.fn k (idx.dropLast ++ [c]) * B.num lib.fn k (idx.dropLast ++ [c])).sum) ∧
        ∀ G, (∀ d', A.Uses s all k d' ∨ B.Uses s all k d' → d'.grid = some G) → d.grid = some G := by
  have := ev_operator hr add_comm (op := "dot".toList) (f := EvCmd.dot) (os := [(A, cells ++ [m]), (B, cells ++ [m])]) rfl
    (by simp [hA, hB]) (by rcases hdata with h | h <;> simp [h]) (fun k d =>
        HoldsArray d (cells ++ [1]) (fun idx => ((List.range m).map fun c =>
          A.num lib.fn k (idx.dropLast ++ [c]) * B.num lib.fn k (idx.dropLast ++ [c])).sum) ∧
        ∀ G, (∀ d', A.Uses s all k d' ∨ B.Uses s all k d' → d'.grid = some G) → d.grid = some G) ?_ T hT label
  · simpa using this
  · intro k ins hins
    obtain ⟨i1, _, ⟨D1, K1⟩, h2, rfl⟩ := List.forall₂_cons_left_iff.1 hins
    obtain ⟨i0, _, ⟨D0, K0⟩, h3, rfl⟩ := List.forall₂_cons_left_iff.1 h2
    obtain rfl := List.forall₂_nil_left_iff.1 h3
    have hd : (A.hasData || B.hasData) = true := by rcases hdata with h | h <;> simp [h]
    obtain ⟨a1, e1, t1, n1⟩ := id D1
    obtain ⟨a0, e0, t0, n0⟩ := id D0
    obtain ⟨⟨gr, hgr, hgood⟩, -⟩ := (getGrid_good (sh := cells ++ [m]) (g0 := i0.grid) (g1 := i1.grid)
      (fun h => (t0 h).2.2.2) (fun h => (n0 h).2.2) (fun h => (t1 h).2.2.2) (fun h => (n1 h).2.2)).imp_left (· hd)
    obtain ⟨c, hc, ht, -⟩ := zip2_den (f := (· * ·)) D1 D0 e1 e0
    obtain ⟨c1, c2, c3⟩ := ht (by rw [Bool.or_comm]; exact hd)
    have hfield : IsField c cells m fun i j => A.num lib.fn k (i ++ [j]) * B.num lib.fn k (i ++ [j]) := by
      refine ⟨c2, c1, fun i hi j hj => ?_⟩
      have hij := inRange_snoc_iff.2 ⟨hi, hj⟩
      rw [c3 _ hij]
      simp only
      rw [den_num D1 hij, den_num D0 hij]
      rfl
    obtain ⟨r, hr', hrf⟩ := gives_sumLast hfield
    refine ⟨some gr, .arr r, ?_, fun d c' => ?_⟩
    · simp only [List.reverse_cons, List.reverse_nil, List.nil_append, List.singleton_append, List.map_cons, List.map_nil, EvCmd.dot,
        e0, e1, hc, hr', hgr, bind, Except.bind, pure, Except.pure]
    · obtain ⟨d', p1, ⟨p2, p3⟩, p4, p5⟩ := pushItem_good (sh := cells ++ [m]) (gr := gr) (a := r)
        (by rw [hrf.shape]; simp) hgood d c'
      refine ⟨d', p1, ⟨⟨r, p2, hrf.wf, hrf.shape, fun idx hi => ?_⟩, fun G hG => ?_⟩, p4, p5⟩
      · obtain ⟨i, j, rfl, hi', hj⟩ := inRange_snoc' hi
        rw [hrf.get i hi' j hj]
        simp only [List.dropLast_concat]
      · rw [p3, ← hgr]
        refine getGrid_common (h0 := B.hasData) (h1 := A.hasData) (fun h => ?_) (fun h => (n0 h).2.2) (fun h => ?_) (fun h => (n1 h).2.2) hd
        · exact K0.grid G (uses_exists k B hB.leaves h) fun d hd => hG d (.inr hd)
        · exact K1.grid G (uses_exists k A hA.leaves h) fun d hd => hG d (.inl hd)

/-- The reducing operators. -/
theorem ev_reduce (hr : EvReady lib s all tags) {op : List Char} {f : List F → Option F}
    (hop : cmds lib.fn op = some (1, EvCmd.reduce f)) (A : Expr F) (sh : List Nat)
    (hA : OperandOK lib s all tags (A, sh)) (hdata : A.hasData = true) (R : Nat → F → Prop)
    (hR : ∀ k, ∃ x, f ((indices sh).map fun idx => A.num lib.fn k idx) = some x ∧ R k x)
    (T : Tag) (hT : T ≠ []) (label : Option (List Char)) :
    ∃ s', ev lib (joinWith ' ' (A.tokens ++ [op])) (some T) label all s = .ok s' ∧
      AddsUnder s s' T A.count fun k d => ∃ x, HoldsNumber d x ∧ R k x := by
  have := ev_operator hr add_comm (op := op) (f := EvCmd.reduce f) (os := [(A, sh)]) hop
    (by simp [hA]) (by simp [hdata]) (fun k d => ∃ x, HoldsNumber d x ∧ R k x) ?_ T hT label
  · simpa using this
  · intro k ins hins
    obtain ⟨i, _, ⟨D, K⟩, h2, rfl⟩ := List.forall₂_cons_left_iff.1 hins
    obtain rfl := List.forall₂_nil_left_iff.1 h2
    obtain ⟨a, e, t, -⟩ := id D
    obtain ⟨t1, t2, t3, -⟩ := t hdata
    have hdat := data_of_get? t2 t1 (f := fun idx => A.num lib.fn k idx) fun idx hi => by
      rw [t3 idx hi]; exact den_num D hi
    obtain ⟨x, hx, hRx⟩ := hR k
    refine ⟨some [], .arr (NArr.ofList [x]), ?_, fun d c => ?_⟩
    · simp only [List.reverse_cons, List.reverse_nil, List.nil_append, List.map_cons, List.map_nil, EvCmd.reduce, e, hdat, hx]
    · obtain ⟨d', p1, p2, p3, p4⟩ := pushItem_number x d c
      exact ⟨d', p1, ⟨x, p2, hRx⟩, p3, p4⟩

/-- The indices of a shape without an empty axis. -/
theorem indices_ne_nil {sh : List Nat} (h0 : 0 ∉ sh) : indices sh ≠ [] := by
  intro h
  have := length_indices sh
  rw [h, List.length_nil] at this
  exact h0 (List.prod_eq_zero_iff.1 this.symm)

/-- C146: `A max` is one number: a value of `A` that no value of `A` exceeds. -/
theorem C146_max (hr : EvReady lib s all tags) (A : Expr F) (sh : List Nat) (h0 : 0 ∉ sh)
    (hA : OperandOK lib s all tags (A, sh)) (hdata : A.hasData = true) (T : Tag) (hT : T ≠ []) (label : Option (List Char)) :
    ∃ s', ev lib (joinWith ' ' (A.tokens ++ ["max".toList])) (some T) label all s = .ok s' ∧
      AddsUnder s s' T A.count fun k d => ∃ x, HoldsNumber d x ∧
        (∃ idx, inRange sh idx = true ∧ A.num lib.fn k idx = x) ∧
        ∀ idx, inRange sh idx = true → A.num lib.fn k idx ≤ x := by
  refine ev_reduce hr (f := List.max?) rfl A sh hA hdata (fun k x => (∃ idx, inRange sh idx = true ∧ A.num lib.fn k idx = x) ∧
    ∀ idx, inRange sh idx = true → A.num lib.fn k idx ≤ x) (fun k => ?_) T hT label
  have hne : (indices sh).map (fun idx => A.num lib.fn k idx) ≠ [] := by simpa using indices_ne_nil h0
  obtain ⟨x, hx⟩ := Option.isSome_iff_exists.1 ((List.isSome_max?_iff).2 hne)
  refine ⟨x, hx, ?_, fun idx hi => ?_⟩
  · obtain ⟨idx, hi, rfl⟩ := List.mem_map.1 (List.max?_mem hx)
    exact ⟨idx, mem_indices.1 hi, rfl⟩
  · exact (List.max?_eq_some_iff.1 hx).2 _ (List.mem_map.2 ⟨idx, mem_indices.2 hi, rfl⟩)

/-- C146: `A min` is one number: a value of `A` that no value of `A` is below. -/
theorem C146_min (hr : EvReady lib s all tags) (A : Expr F) (sh : List Nat) (h0 : 0 ∉ sh)
    (hA : OperandOK lib s all tags (A, sh)) (hdata : A.hasData = true) (T : Tag) (hT : T ≠ []) (label : Option (List Char)) :
    ∃ s', ev lib (joinWith ' ' (A.tokens ++ ["min".toList])) (some T) label all s = .ok s' ∧
      AddsUnder s s' T A.count fun k d => ∃ x, HoldsNumber d x ∧
        (∃ idx, inRange sh idx = true ∧ A.num lib.fn k idx = x) ∧
        ∀ idx, inRange sh idx = true → x ≤ A.num lib.fn k idx := by
  refine ev_reduce hr (f := List.min?) rfl A sh hA hdata (fun k x => (∃ idx, inRange sh idx = true ∧ A.num lib.fn k idx = x) ∧
    ∀ idx, inRange sh idx = true → x ≤ A.num lib.fn k idx) (fun k => ?_) T hT label
  have hne : (indices sh).map (fun idx => A.num lib.fn k idx) ≠ [] := by simpa using indices_ne_nil h0
  obtain ⟨x, hx⟩ := Option.isSome_iff_exists.1 ((List.isSome_min?_iff).2 hne)
  refine ⟨x, hx, ?_, fun idx hi => ?_⟩
  · obtain ⟨idx, hi, rfl⟩ := List.mem_map.1 (List.min?_mem hx)
    exact ⟨idx, mem_indices.1 hi, rfl⟩
  · exact (List.min?_eq_some_iff.1 hx).2 _ (List.mem_map.2 ⟨idx, mem_indices.2 hi, rfl⟩)

/-- C146: `A mean` is one number: the sum of all values of `A` over their number. -/
theorem C146_mean (hr : EvReady lib s all tags) (A : Expr F) (sh : List Nat) (h0 : 0 ∉ sh)
    (hA : OperandOK lib s all tags (A, sh)) (hdata : A.hasData = true) (T : Tag) (hT : T ≠ []) (label : Option (List Char)) :
    ∃ s', ev lib (joinWith ' ' (A.tokens ++ ["mean".toList])) (some T) label all s = .ok s' ∧
      AddsUnder s s' T A.count fun k d =>
        HoldsNumber d (((indices sh).map fun idx => A.num lib.fn k idx).sum / (sh.prod : F)) := by
  have hm : ∀ k, ∃ x, EvCmd.meanOf ((indices sh).map fun idx => A.num lib.fn k idx) = some x ∧
      x = ((indices sh).map fun idx => A.num lib.fn k idx).sum / (sh.prod : F) := by
    intro k
    have hne : (indices sh).map (fun idx => A.num lib.fn k idx) ≠ [] := by simpa using indices_ne_nil h0
    refine ⟨_, by rw [EvCmd.meanOf, if_neg hne], ?_⟩
    rw [← List.sum_eq_foldl, List.length_map, length_indices]
    rw [Int.cast_natCast]
  obtain ⟨s', h1, new, q1, q2, q3, q4⟩ := ev_reduce hr (op := "mean".toList) (f := EvCmd.meanOf) rfl A sh hA hdata
    (fun k x => x = ((indices sh).map fun idx => A.num lib.fn k idx).sum / (sh.prod : F)) hm T hT label
  refine ⟨s', h1, new, q1, q2, fun k hk => ?_, q4⟩
  obtain ⟨d, r1, ⟨x, r2, rfl⟩, r3⟩ := q3 k hk
  exact ⟨d, r1, r2, r3⟩

/-! ## C147 -/

/-- C147: the product or quotient of data on more axes (phase space) with a one-component field on the first of these axes
(configuration space), in either order: the field is used at all points over the cell; on the grid of the former. -/
theorem C147_phase_space (hr : EvReady lib s all tags) (o : BinOp) (ho : o = .mul ∨ o = .div) (A B : Expr F)
    (cells vel : List Nat) (m : Nat) (hvel : vel ≠ [])
    (hA : OperandOK lib s all tags (A, cells ++ vel ++ [m])) (hB : OperandOK lib s all tags (B, cells ++ [1]))
    (hdA : A.hasData = true) (hdB : B.hasData = true) (T : Tag) (hT : T ≠ []) (label : Option (List Char)) :
    (∃ s', ev lib (joinWith ' ' (A.tokens ++ B.tokens ++ [o.text])) (some T) label all s = .ok s' ∧
      AddsUnder s s' T (max A.count B.count) fun k d =>
        HoldsArray d (cells ++ vel ++ [m]) (fun idx =>
          o.app lib.fn (A.num lib.fn k idx) (B.num lib.fn k (idx.take cells.length ++ [0]))) ∧
        ∀ G, (∀ d', A.Uses s all k d' → d'.grid = some G) → d.grid = some G) ∧
    (∃ s', ev lib (joinWith ' ' (B.tokens ++ A.tokens ++ [o.text])) (some T) label all s = .ok s' ∧
      AddsUnder s s' T (max B.count A.count) fun k d =>
        HoldsArray d (cells ++ vel ++ [m]) (fun idx =>
          o.app lib.fn (B.num lib.fn k (idx.take cells.length ++ [0])) (A.num lib.fn k idx)) ∧
        ∀ G, (∀ d', A.Uses s all k d' → d'.grid = some G) → d.grid = some G) := by
  have hf : binFunc lib.fn o = EvCmd.multLike (o.app lib.fn) := by
    rcases ho with rfl | rfl
    · rfl
    · rfl
  have hcm := cmds_bin lib.fn o
  rw [hf] at hcm
  have hr0 : vel ++ [m] ≠ [] := by simp
  -- the operands, dataset by dataset
  have key : ∀ k (iA iB : Item F), Stands lib s all k (A, cells ++ vel ++ [m]) iA → Stands lib s all k (B, cells ++ [1]) iB →
      ∃ a b gA gB, iA.val = .arr a ∧ iB.val = .arr b ∧ a.WF ∧ b.WF ∧ a.shape = cells ++ (vel ++ [m]) ∧ b.shape = cells ++ [1] ∧
        iA.grid = some gA ∧ iB.grid = some gB ∧ gB.length < gA.length ∧ GoodGrid (cells ++ vel ++ [m]) gA ∧
        (∀ idx, inRange (cells ++ (vel ++ [m])) idx = true → a.get? idx = some (A.num lib.fn k idx)) ∧
        (∀ idx, inRange (cells ++ [1]) idx = true → b.get? idx = some (B.num lib.fn k idx)) ∧
        (∀ G, (∀ d', A.Uses s all k d' → d'.grid = some G) → gA = G) := by
    intro k iA iB ⟨DA, KA⟩ ⟨DB, KB⟩
    obtain ⟨a, ea, ta, -⟩ := id DA
    obtain ⟨b, eb, tb, -⟩ := id DB
    obtain ⟨a1, a2, a3, gA, a4, a5⟩ := ta hdA
    obtain ⟨b1, b2, b3, gB, b4, b5⟩ := tb hdB
    have hl1 := a5.1
    have hl2 := b5.1
    simp only [List.length_append, List.length_cons, List.length_nil] at hl1 hl2
    have hv := List.length_pos_iff.2 hvel
    refine ⟨a, b, gA, gB, ea, eb, a2, b2, by rw [a1, List.append_assoc], b1, a4, b4, by omega, a5, fun idx hi => ?_, fun idx hi => ?_,
      fun G hG => ?_⟩
    · rw [← List.append_assoc] at hi
      rw [a3 idx hi]; exact den_num DA hi
    · rw [b3 idx hi]; exact den_num DB hi
    · have := KA.grid G (uses_exists k A hA.leaves hdA) hG
      rw [a4] at this; exact Option.some.inj this
  constructor
  · have := ev_operator hr add_comm (os := [(A, cells ++ vel ++ [m]), (B, cells ++ [1])]) hcm
      (by simp only [List.mem_cons, List.not_mem_nil, or_false]; rintro o (rfl | rfl) <;> assumption) (by simp [hdA]) (fun k d =>
        HoldsArray d (cells ++ vel ++ [m]) (fun idx =>
          o.app lib.fn (A.num lib.fn k idx) (B.num lib.fn k (idx.take cells.length ++ [0]))) ∧
        ∀ G, (∀ d', A.Uses s all k d' → d'.grid = some G) → d.grid = some G) ?_ T hT label
    · simpa using this
    · intro k ins hins
      obtain ⟨i1, _, S1, h2, rfl⟩ := List.forall₂_cons_left_iff.1 hins
      obtain ⟨i0, _, S0, h3, rfl⟩ := List.forall₂_cons_left_iff.1 h2
      obtain rfl := List.forall₂_nil_left_iff.1 h3
      obtain ⟨a, b, gA, gB, ea, eb, wa, wb, sa, sb, ga, gb, hlt, hgood, va, vb, hG⟩ := key k i1 i0 S1 S0
      obtain ⟨⟨c, c1, c2, c3, c4⟩, -⟩ := transposed_low hr0 wa wb sa sb (o.app lib.fn)
      refine ⟨some gA, .arr c, ?_, fun d c' => ?_⟩
      · simp only [List.reverse_cons, List.reverse_nil, List.nil_append, List.singleton_append, List.map_cons, List.map_nil,
          EvCmd.multLike, ea, eb, c1, ga, gb, EvCmd.getGrid, if_neg (Nat.lt_asymm hlt), bind, Except.bind, pure, Except.pure]
      · obtain ⟨d', p1, ⟨p2, p3⟩, p4, p5⟩ := pushItem_good (gr := gA) (a := c) (by rw [c2, ← List.append_assoc]) hgood d c'
        refine ⟨d', p1, ⟨⟨c, p2, c3, by rw [c2, List.append_assoc], fun idx hi => ?_⟩, fun G h => by rw [p3, hG G h]⟩, p4, p5⟩
        rw [List.append_assoc] at hi
        rw [c4 idx hi, va idx hi, vb _ (inRange_snoc_iff.2 ⟨(bcastIdxRev_low hr0 hi).2, by omega⟩)]
        rfl
  · have := ev_operator hr add_comm (os := [(B, cells ++ [1]), (A, cells ++ vel ++ [m])]) hcm
      (by simp only [List.mem_cons, List.not_mem_nil, or_false]; rintro o (rfl | rfl) <;> assumption) (by simp [hdA]) (fun k d =>
        HoldsArray d (cells ++ vel ++ [m]) (fun idx =>
          o.app lib.fn (B.num lib.fn k (idx.take cells.length ++ [0])) (A.num lib.fn k idx)) ∧
        ∀ G, (∀ d', A.Uses s all k d' → d'.grid = some G) → d.grid = some G) ?_ T hT label
    · simpa using this
    · intro k ins hins
      obtain ⟨i1, _, S1, h2, rfl⟩ := List.forall₂_cons_left_iff.1 hins
      obtain ⟨i0, _, S0, h3, rfl⟩ := List.forall₂_cons_left_iff.1 h2
      obtain rfl := List.forall₂_nil_left_iff.1 h3
      obtain ⟨a, b, gA, gB, ea, eb, wa, wb, sa, sb, ga, gb, hlt, hgood, va, vb, hG⟩ := key k i0 i1 S0 S1
      obtain ⟨-, ⟨c, c1, c2, c3, c4⟩⟩ := transposed_low hr0 wa wb sa sb (o.app lib.fn)
      refine ⟨some gA, .arr c, ?_, fun d c' => ?_⟩
      · simp only [List.reverse_cons, List.reverse_nil, List.nil_append, List.singleton_append, List.map_cons, List.map_nil,
          EvCmd.multLike, ea, eb, c1, ga, gb, EvCmd.getGrid, if_pos hlt, bind, Except.bind, pure, Except.pure]
      · obtain ⟨d', p1, ⟨p2, p3⟩, p4, p5⟩ := pushItem_good (gr := gA) (a := c) (by rw [c2, ← List.append_assoc]) hgood d c'
        refine ⟨d', p1, ⟨⟨c, p2, c3, by rw [c2, List.append_assoc], fun idx hi => ?_⟩, fun G h => by rw [p3, hG G h]⟩, p4, p5⟩
        rw [List.append_assoc] at hi
        rw [c4 idx hi, va idx hi, vb _ (inRange_snoc_iff.2 ⟨(bcastIdxRev_low hr0 hi).2, by omega⟩)]
        rfl

/-- C147: any elementwise operation between data with several components and a one-component field on the same cells, in either
order: the field is used for all components; on the common grid. -/
theorem C147_components (hr : EvReady lib s all tags) (o : BinOp) (A B : Expr F) (cells : List Nat) (m : Nat)
    (hA : OperandOK lib s all tags (A, cells ++ [m])) (hB : OperandOK lib s all tags (B, cells ++ [1]))
    (hdA : A.hasData = true) (hdB : B.hasData = true) (T : Tag) (hT : T ≠ []) (label : Option (List Char)) :
    (∃ s', ev lib (joinWith ' ' (A.tokens ++ B.tokens ++ [o.text])) (some T) label all s = .ok s' ∧
      AddsUnder s s' T (max A.count B.count) fun k d =>
        HoldsArray d (cells ++ [m]) (fun idx => o.app lib.fn (A.num lib.fn k idx) (B.num lib.fn k (idx.dropLast ++ [0]))) ∧
        ∀ G, (∀ d', A.Uses s all k d' ∨ B.Uses s all k d' → d'.grid = some G) → d.grid = some G) ∧
    (∃ s', ev lib (joinWith ' ' (B.tokens ++ A.tokens ++ [o.text])) (some T) label all s = .ok s' ∧
      AddsUnder s s' T (max B.count A.count) fun k d =>
        HoldsArray d (cells ++ [m]) (fun idx => o.app lib.fn (B.num lib.fn k (idx.dropLast ++ [0])) (A.num lib.fn k idx)) ∧
        ∀ G, (∀ d', A.Uses s all k d' ∨ B.Uses s all k d' → d'.grid = some G) → d.grid = some G) := by
  have hc : Comm lib.fn := ⟨add_comm, hr.min, hr.max⟩
  have hcm := cmds_bin lib.fn o
  have key : ∀ k (iA iB : Item F), Stands lib s all k (A, cells ++ [m]) iA → Stands lib s all k (B, cells ++ [1]) iB →
      ∃ a b gA gB, iA.val = .arr a ∧ iB.val = .arr b ∧ IsField a cells m (fun i c => A.num lib.fn k (i ++ [c])) ∧
        IsField b cells 1 (fun i c => B.num lib.fn k (i ++ [c])) ∧
        iA.grid = some gA ∧ iB.grid = some gB ∧ GoodGrid (cells ++ [m]) gA ∧ GoodGrid (cells ++ [m]) gB ∧
        (∀ G, (∀ d', A.Uses s all k d' ∨ B.Uses s all k d' → d'.grid = some G) → gA = G ∧ gB = G) := by
    intro k iA iB ⟨DA, KA⟩ ⟨DB, KB⟩
    obtain ⟨a, ea, ta, -⟩ := id DA
    obtain ⟨b, eb, tb, -⟩ := id DB
    obtain ⟨a1, a2, a3, gA, a4, a5⟩ := ta hdA
    obtain ⟨b1, b2, b3, gB, b4, b5⟩ := tb hdB
    refine ⟨a, b, gA, gB, ea, eb, ⟨a2, a1, fun i hi c hc => ?_⟩, ⟨b2, b1, fun i hi c hc => ?_⟩, a4, b4, a5, ?_, fun G hG => ⟨?_, ?_⟩⟩
    · have hi' := inRange_snoc_iff.2 ⟨hi, hc⟩
      rw [a3 _ hi']; exact den_num DA hi'
    · have hi' := inRange_snoc_iff.2 ⟨hi, hc⟩
      rw [b3 _ hi']; exact den_num DB hi'
    · simpa [GoodGrid] using b5
    · have := KA.grid G (uses_exists k A hA.leaves hdA) fun d hd => hG d (.inl hd)
      rw [a4] at this; exact Option.some.inj this
    · have := KB.grid G (uses_exists k B hB.leaves hdB) fun d hd => hG d (.inr hd)
      rw [b4] at this; exact Option.some.inj this
  constructor
  · have := ev_operator hr add_comm (os := [(A, cells ++ [m]), (B, cells ++ [1])]) hcm
      (by simp only [List.mem_cons, List.not_mem_nil, or_false]; rintro o (rfl | rfl) <;> assumption) (by simp [hdA]) (fun k d =>
        HoldsArray d (cells ++ [m]) (fun idx => o.app lib.fn (A.num lib.fn k idx) (B.num lib.fn k (idx.dropLast ++ [0]))) ∧
        ∀ G, (∀ d', A.Uses s all k d' ∨ B.Uses s all k d' → d'.grid = some G) → d.grid = some G) ?_ T hT label
    · simpa using this
    · intro k ins hins
      obtain ⟨i1, _, S1, h2, rfl⟩ := List.forall₂_cons_left_iff.1 hins
      obtain ⟨i0, _, S0, h3, rfl⟩ := List.forall₂_cons_left_iff.1 h2
      obtain rfl := List.forall₂_nil_left_iff.1 h3
      obtain ⟨a, b, gA, gB, ea, eb, fa, fb, ga, gb, goodA, goodB, hG⟩ := key k i1 i0 S1 S0
      obtain ⟨r, gr, e1, hgr, hf⟩ := bin_wide_left hc o fa fb gA gB
      refine ⟨some gr, .arr r, ?_, fun d c' => ?_⟩
      · simpa only [List.reverse_cons, List.reverse_nil, List.nil_append, List.singleton_append, List.map_cons, List.map_nil,
          ea, eb, ga, gb] using e1
      · obtain ⟨d', p1, ⟨p2, p3⟩, p4, p5⟩ := pushItem_good (gr := gr) (a := r) (sh := cells ++ [m]) (by rw [hf.shape])
          (by rcases hgr with rfl | rfl <;> assumption) d c'
        refine ⟨d', p1, ⟨⟨r, p2, hf.wf, hf.shape, fun idx hi => ?_⟩, fun G h => ?_⟩, p4, p5⟩
        · obtain ⟨i, c, rfl, hi', hc'⟩ := inRange_snoc' hi
          rw [hf.get i hi' c hc']; simp only [List.dropLast_concat]
        · rw [p3]; rcases hgr with rfl | rfl
          · rw [(hG G h).1]
          · rw [(hG G h).2]
  · have := ev_operator hr add_comm (os := [(B, cells ++ [1]), (A, cells ++ [m])]) hcm
      (by simp only [List.mem_cons, List.not_mem_nil, or_false]; rintro o (rfl | rfl) <;> assumption) (by simp [hdA]) (fun k d =>
        HoldsArray d (cells ++ [m]) (fun idx => o.app lib.fn (B.num lib.fn k (idx.dropLast ++ [0])) (A.num lib.fn k idx)) ∧
        ∀ G, (∀ d', A.Uses s all k d' ∨ B.Uses s all k d' → d'.grid = some G) → d.grid = some G) ?_ T hT label
    · simpa using this
    · intro k ins hins
      obtain ⟨i1, _, S1, h2, rfl⟩ := List.forall₂_cons_left_iff.1 hins
      obtain ⟨i0, _, S0, h3, rfl⟩ := List.forall₂_cons_left_iff.1 h2
      obtain rfl := List.forall₂_nil_left_iff.1 h3
      obtain ⟨a, b, gA, gB, ea, eb, fa, fb, ga, gb, goodA, goodB, hG⟩ := key k i0 i1 S0 S1
      obtain ⟨r, gr, e1, hgr, hf⟩ := bin_wide_right hc o fa fb gA gB
      refine ⟨some gr, .arr r, ?_, fun d c' => ?_⟩
      · simpa only [List.reverse_cons, List.reverse_nil, List.nil_append, List.singleton_append, List.map_cons, List.map_nil,
          ea, eb, ga, gb] using e1
      · obtain ⟨d', p1, ⟨p2, p3⟩, p4, p5⟩ := pushItem_good (gr := gr) (a := r) (sh := cells ++ [m]) (by rw [hf.shape])
          (by rcases hgr with rfl | rfl <;> assumption) d c'
        refine ⟨d', p1, ⟨⟨r, p2, hf.wf, hf.shape, fun idx hi => ?_⟩, fun G h => ?_⟩, p4, p5⟩
        · obtain ⟨i, c, rfl, hi', hc'⟩ := inRange_snoc' hi
          rw [hf.get i hi' c hc']; simp only [List.dropLast_concat]
        · rw [p3]; rcases hgr with rfl | rfl
          · rw [(hG G h).1]
          · rw [(hG G h).2]

end

/-! ## Where it goes wrong, and concrete cases -/

namespace EvOpsEx
open EvLinEx (lib)

/-- A dataset on two cells. -/
def onCells (tag : String) (m : Nat) (vals : List ℚ) : GData ℚ where
  grid := some ([[0, 1, 2]].map NArr.ofList)
  values := some ⟨[2, m], vals⟩
  tag := tag.toList

/-- A distribution on two cells and `nv` velocities. -/
def onPhase (tag : String) (vs vals : List ℚ) : GData ℚ where
  grid := some ([[0, 1, 2], vs].map NArr.ofList)
  values := some ⟨[2, vs.length - 1, 1], vals⟩
  tag := tag.toList

/-- A distribution `g`, a density `n`, a vector field `v`, a distribution `h` with as many velocities as cells. -/
def store : Space ℚ := perform [.add (onPhase "g" [0, 1, 2, 3] [1, 2, 3, 4, 5, 6]), .add (onCells "n" 1 [10, 20]),
  .add (onCells "v" 2 [1, 2, 3, 4]), .add (onPhase "h" [0, 1, 2] [1, 2, 3, 4])]

def tags : List Tag := ["g".toList, "n".toList, "v".toList, "h".toList]

def g : Expr ℚ := .leaf (.data (some "g".toList) none none [⟨[2, 3, 1], [1, 2, 3, 4, 5, 6]⟩])
def n : Expr ℚ := .leaf (.data (some "n".toList) none none [⟨[2, 1], [10, 20]⟩])
def v : Expr ℚ := .leaf (.data (some "v".toList) none none [⟨[2, 2], [1, 2, 3, 4]⟩])

theorem ready : EvReady lib store false tags :=
  ⟨rfl, by decide +kernel, min_comm, max_comm, by simp [lib]⟩

theorem heap : ∀ d ∈ store.heap, d.ctx.other = [] := by
  intro d hd
  have : store.heap = [onPhase "g" [0, 1, 2, 3] [1, 2, 3, 4, 5, 6], onCells "n" 1 [10, 20], onCells "v" 2 [1, 2, 3, 4],
    onPhase "h" [0, 1, 2] [1, 2, 3, 4]] := rfl
  rw [this] at hd
  simp only [List.mem_cons, List.not_mem_nil, or_false] at hd
  rcases hd with rfl | rfl | rfl | rfl <;> rfl

theorem uses_heap {k : Nat} {d : GData ℚ} : ∀ (e : Expr ℚ), e.Uses store false k d → d ∈ store.heap
  | .leaf (.const _ _), h => h.elim
  | .leaf (.data _ _ _ _), ⟨_, _, _, _, h⟩ => List.mem_of_getElem? h
  | .un _ e, h => uses_heap e h
  | .bin _ a b, h => h.elim (uses_heap a) (uses_heap b)

theorem proper (e : Expr ℚ) : ∀ k d, e.Uses store false k d → ProperMeta d.ctx := fun k d h => by
  simp [ProperMeta, heap d (uses_heap e h)]

theorem okG : OperandOK lib store false tags (g, [2, 3, 1]) :=
  ⟨⟨⟨by decide, by decide, by decide⟩, by simp, by simp, by simp, [(0, 0)], rfl,
    .cons ⟨_, [[0, 1, 2], [0, 1, 2, 3]], _, rfl, ⟨rfl, rfl, rfl, rfl, rfl, by simp, by simp⟩, rfl, rfl⟩ .nil⟩, trivial, proper g⟩

theorem okN : OperandOK lib store false tags (n, [2, 1]) :=
  ⟨⟨⟨by decide, by decide, by decide⟩, by simp, by simp, by simp, [(0, 1)], rfl,
    .cons ⟨_, [[0, 1, 2]], _, rfl, ⟨rfl, rfl, rfl, rfl, rfl, by simp, by simp⟩, rfl, rfl⟩ .nil⟩, trivial, proper n⟩

theorem okV : OperandOK lib store false tags (v, [2, 2]) :=
  ⟨⟨⟨by decide, by decide, by decide⟩, by simp, by simp, by simp, [(0, 2)], rfl,
    .cons ⟨_, [[0, 1, 2]], _, rfl, ⟨rfl, rfl, rfl, rfl, rfl, by simp, by simp⟩, rfl, rfl⟩ .nil⟩, trivial, proper v⟩

end EvOpsEx

open EvOpsEx EvLinEx in
/-- C147: what the products do is particular to `*` and `/`.  `g n +` is an error; `h n +`, with as many velocities as cells,
takes `n` at the velocity index: 1 + 10, 2 + 20, 3 + 10, 4 + 20. -/
theorem C147_sum_fails :
    (∃ e, ev lib "g n +".toList (some "r".toList) none false EvOpsEx.store = .error e) ∧
    ∃ s' d, ev lib "h n +".toList (some "r".toList) none false EvOpsEx.store = .ok s' ∧ s'.heap[4]? = some d ∧
      d.values = some ⟨[2, 2, 1], [11, 22, 13, 24]⟩ :=
  ⟨⟨_, rfl⟩, _, _, rfl, rfl, by decide +kernel⟩

open EvOpsEx EvLinEx in
/-- C147: nor do the products work with a field of several components: `g v *` is an error, and `h v *` takes the velocity index for
the component of `v`: 1·1, 2·2, 3·3, 4·4. -/
theorem C147_vector_fails :
    (∃ e, ev lib "g v *".toList (some "r".toList) none false EvOpsEx.store = .error e) ∧
    ∃ s' d, ev lib "h v *".toList (some "r".toList) none false EvOpsEx.store = .ok s' ∧ s'.heap[4]? = some d ∧
      d.values = some ⟨[2, 2, 1], [1, 4, 9, 16]⟩ :=
  ⟨⟨_, rfl⟩, _, _, rfl, rfl, by decide +kernel⟩

open EvOpsEx EvLinEx in
/-- C146: hypotheses met by `v v dot`, `g max`, `g min` and `g mean`. -/
example : (∃ s', ev lib "v v dot".toList (some "r".toList) none false EvOpsEx.store = .ok s') ∧
    (∃ s', ev lib "g max".toList (some "r".toList) none false EvOpsEx.store = .ok s') ∧
    (∃ s', ev lib "g min".toList (some "r".toList) none false EvOpsEx.store = .ok s') ∧
    (∃ s' d, ev lib "g mean".toList (some "r".toList) none false EvOpsEx.store = .ok s' ∧ s'.heap[4]? = some d ∧
      HoldsNumber d (7 / 2)) := by
  refine ⟨?_, ?_, ?_, ?_⟩
  · obtain ⟨s', h, -⟩ := C146_dot ready v v [2] 2 okV okV (.inl rfl) "r".toList (by simp) none
    exact ⟨s', h⟩
  · obtain ⟨s', h, -⟩ := C146_max ready g [2, 3, 1] (by simp) okG rfl "r".toList (by simp) none
    exact ⟨s', h⟩
  · obtain ⟨s', h, -⟩ := C146_min ready g [2, 3, 1] (by simp) okG rfl "r".toList (by simp) none
    exact ⟨s', h⟩
  · obtain ⟨s', h, new, h1, h2, h3, -⟩ := C146_mean ready g [2, 3, 1] (by simp) okG rfl "r".toList (by simp) none
    obtain ⟨d, e1, e2, -⟩ := h3 0 (by decide)
    refine ⟨s', d, h, ?_, ?_⟩
    · rw [h1, List.getElem?_append_right (by decide)]; exact e1
    · have : ((indices [2, 3, 1]).map fun idx => g.num lib.fn 0 idx).sum / (([2, 3, 1].prod : Nat) : ℚ) = 7 / 2 := by
        decide +kernel
      rw [← this]; exact e2

open EvOpsEx EvLinEx in
/-- C147: hypotheses met by `g n *` and `n g *`; `v n +` and `n v pow`. -/
example : (∃ s', ev lib "g n *".toList (some "r".toList) none false EvOpsEx.store = .ok s') ∧
    (∃ s', ev lib "n g /".toList (some "r".toList) none false EvOpsEx.store = .ok s') ∧
    (∃ s', ev lib "v n +".toList (some "r".toList) none false EvOpsEx.store = .ok s') ∧
    (∃ s', ev lib "n v pow".toList (some "r".toList) none false EvOpsEx.store = .ok s') ∧
    [g.num lib.fn 0 [1, 2, 0], n.num lib.fn 0 ([1, 2, 0].take 1 ++ [0])] = [6, 20] := by
  refine ⟨?_, ?_, ?_, ?_, by decide +kernel⟩
  · obtain ⟨⟨s', h, -⟩, -⟩ := C147_phase_space ready .mul (.inl rfl) g n [2] [3] 1 (by simp) okG okN rfl rfl "r".toList (by simp) none
    exact ⟨s', h⟩
  · obtain ⟨-, ⟨s', h, -⟩⟩ := C147_phase_space ready .div (.inr rfl) g n [2] [3] 1 (by simp) okG okN rfl rfl "r".toList (by simp) none
    exact ⟨s', h⟩
  · obtain ⟨⟨s', h, -⟩, -⟩ := C147_components ready .add v n [2] 2 okV okN rfl rfl "r".toList (by simp) none
    exact ⟨s', h⟩
  · obtain ⟨-, ⟨s', h, -⟩⟩ := C147_components ready .pow v n [2] 2 okV okN rfl rfl "r".toList (by simp) none
    exact ⟨s', h⟩

end Pgkyl
