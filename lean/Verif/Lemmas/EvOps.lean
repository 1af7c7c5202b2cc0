import Verif.Lemmas.EvKeep
import Verif.Lemmas.CompOps
import Verif.Spec.EvOps
/-! # The last operator of an `ev` chain -/

namespace Pgkyl
namespace Ev
open Spec

section
variable {F : Type} [LinearOrder F] [Add F] [Sub F] [Mul F] [Div F] [Zero F] [IntCast F]
variable {lib : Lib F} {s : Space F} {tags : List Tag} {all : Bool}

/-- The item stands for the operand, in the `k`-th result. -/
def Stands (lib : Lib F) (s : Space F) (all : Bool) (k : Nat) (o : Expr F × List Nat) (i : Item F) : Prop :=
  Den o.2 i o.1.hasData (fun idx => o.1.valueAt lib.fn k idx) ∧ Keep (fun d => o.1.Uses s all k d) i

theorem run_many (hcmp : ∀ a b, lib.cmp a b = true ↔ a = b) (hc : Comm lib.fn)
    (hops : ∀ t ∈ opNames, t ∉ tags ∧ lib.pf t = none) : ∀ (os : List (Expr F × List Nat)),
    (∀ o ∈ os, OperandOK lib s all tags o) → ∀ st : St F,
    ∃ st' L, (os.flatMap fun o => o.1.tokens).foldlM (token lib s tags (!all)) st = .ok st' ∧
      st'.stack = L.reverse ++ st.stack ∧
      List.Forall₂ (fun o items => DenL lib.fn o.2 o.1 items ∧ KeepL s all o.1 items) os L ∧
      (st.id.isSome ∨ (∃ o ∈ os, o.1.hasData = true) → st'.id.isSome)
  | [], _, st => ⟨st, [], rfl, rfl, .nil, by simp⟩
  | o :: os, h, st => by
    obtain ⟨h1, h2, h3⟩ := h o (by simp)
    obtain ⟨st1, items, a1, a2, a3, a4⟩ := run_expr hc hops o.1 h1 h2 st
    obtain ⟨st1', items', b1, b2, -, b4⟩ := run_keep hcmp hc hops o.1 h1 h2 h3 st
    rw [a1] at b1
    obtain rfl := Except.ok.inj b1
    rw [a2] at b2
    obtain rfl := (List.cons.inj b2).1
    obtain ⟨st2, L, c1, c2, c3, c4⟩ := run_many hcmp hc hops os (fun o ho => h o (by simp [ho])) st1
    refine ⟨st2, items :: L, ?_, by rw [c2, a2]; simp, .cons ⟨a3, b4⟩ c3, ?_⟩
    · rw [List.flatMap_cons, Space.foldlM_append_ok, a1]
      exact c1
    · rintro (hi | ⟨p, hp, hd⟩)
      · exact c4 (.inl (a4 (.inl hi)))
      · rcases List.mem_cons.1 hp with rfl | hp
        · exact c4 (.inl (a4 (.inr hd)))
        · exact c4 (.inr ⟨p, hp, hd⟩)

omit [Zero F] [IntCast F] in
theorem pick_many (k : Nat) : ∀ {os : List (Expr F × List Nat)} {L : List (List (Item F))},
    List.Forall₂ (fun o items => DenL lib.fn o.2 o.1 items ∧ KeepL s all o.1 items) os L →
    ∃ ins, L.mapM (pickItem k) = .ok ins ∧ List.Forall₂ (Stands lib s all k) os ins
  | _, _, .nil => ⟨[], rfl, .nil⟩
  | _, _, .cons (a := o) (b := items) h hs => by
    obtain ⟨ins, e1, e2⟩ := pick_many k hs
    obtain ⟨i, hi, hd⟩ := pick_den h.1 k
    refine ⟨i :: ins, ?_, .cons ⟨hd, ?_⟩ e2⟩
    · rw [Space.mapM_cons_ok]; exact ⟨i, ins, hi, e1, rfl⟩
    · have hg : items[min k (items.length - 1)]? = some i := by
        simp only [pickItem] at hi
        split at hi
        · cases hi; assumption
        · cases hi
      have hpos : 0 < items.length := by rw [h.1.2.1]; exact h.1.1
      refine keep_pick h.2 h.1.2.1 (fun hk => ?_) (fun hk => ?_)
      · rw [show min k (items.length - 1) = k by omega] at hg; exact hg
      · rw [show min k (items.length - 1) = items.length - 1 by omega, ← List.getLast?_eq_getElem?] at hg
        exact hg

theorem foldl_max_reverse (l : List Nat) (a : Nat) : l.reverse.foldl max a = l.foldl max a := by
  rw [List.foldl_reverse]
  induction l generalizing a with
  | nil => rfl
  | cons x xs ih =>
    rw [List.foldr_cons, List.foldl_cons, ← ih]
    clear ih
    induction xs with
    | nil => simp [max_comm]
    | cons y ys ih2 =>
      simp only [List.foldr_cons] at ih2 ⊢
      rw [← ih2]; omega

/-- An operator as the last word of a chain: it is applied to the operands, dataset by dataset, and the results are added. -/
theorem ev_operator (hr : EvReady lib s all tags) (hadd : ∀ x y : F, x + y = y + x)
    {op : List Char} {f : EvCmd.Func F} {os : List (Expr F × List Nat)} (hop : cmds lib.fn op = some (os.length, f))
    (hos : ∀ o ∈ os, OperandOK lib s all tags o) (hdata : ∃ o ∈ os, o.1.hasData = true) (R : Nat → GData F → Prop)
    (hR : ∀ k ins, List.Forall₂ (Stands lib s all k) os ins →
      ∃ gr v, f (ins.reverse.map (·.grid)) (ins.reverse.map (·.val)) = .ok (gr, v) ∧
        ∀ (d : GData F) (c : Ctx F), ∃ d', pushItem d ⟨gr, v, c⟩ = .ok d' ∧ R k d' ∧ d'.tag = d.tag ∧ d'.status = d.status)
    (T : Tag) (hT : T ≠ []) (label : Option (List Char)) :
    ∃ s', ev lib (joinWith ' ' ((os.flatMap fun o => o.1.tokens) ++ [op])) (some T) label all s = .ok s' ∧
      AddsUnder s s' T ((os.map fun o => o.1.count).foldl max 0) R := by
  have hmem : op ∈ arities.map Prod.fst := List.mem_map.2 ⟨_, mem_of_lookup' (cmds_arity lib.fn hop), rfl⟩
  have hnames : ∀ t ∈ opNames, t ∉ tags ∧ lib.pf t = none := fun t ht => hr.names t (by
    have : ∀ t ∈ opNames, t ∈ arities.map Prod.fst := by decide
    exact this t ht)
  have hc : Comm lib.fn := ⟨hadd, hr.min, hr.max⟩
  have hopn : OpName lib tags op := by
    refine ⟨(hr.names op hmem).1, (hr.names op hmem).2, ?_⟩
    have hall : ∀ t ∈ arities.map Prod.fst, t.head? ≠ some 'f' ∧ '(' ∉ t ∧ '[' ∉ t ∧ ':' ∉ t ∧ ',' ∉ t := by decide
    exact hall op hmem
  have hopt : op ≠ [] ∧ ' ' ∉ op := by
    have hall : ∀ t ∈ arities.map Prod.fst, t ≠ [] ∧ ' ' ∉ t := by decide
    exact hall op hmem
  obtain ⟨st, L, h1, h2, h3, h4⟩ := run_many hr.cmp hc hnames os hos {}
  have hlen : L.length = os.length := h3.length_eq.symm
  rw [List.append_nil] at h2
  have hmax : (L.reverse.map List.length).foldl max 0 = (os.map fun o => o.1.count).foldl max 0 := by
    rw [List.map_reverse, foldl_max_reverse]
    congr 1
    clear * - h3
    induction h3 with
    | nil => rfl
    | cons h _ ih => simp [ih, h.1.2.1]
  have hstep : ∀ k, k < (os.map fun o => o.1.count).foldl max 0 → ∃ b, applyAt lib f L.reverse k = .ok b ∧
      ∀ d : GData F, ∃ d', pushItem d b = .ok d' ∧ R k d' ∧ d'.tag = d.tag ∧ d'.status = d.status := by
    intro k _
    obtain ⟨ins, e1, e2⟩ := pick_many k (List.forall₂_reverse_iff.2 h3)
    have e3 : List.Forall₂ (Stands lib s all k) os ins.reverse := by
      have := List.forall₂_reverse_iff.2 e2
      rwa [List.reverse_reverse] at this
    obtain ⟨gr, v, e4, e5⟩ := hR k ins.reverse e3
    rw [List.reverse_reverse] at e4
    obtain ⟨m, hm, -⟩ := mergeMeta_ok lib.cmp (ins.map fun i => ctxDict i.ctx)
    refine ⟨⟨gr, v, ofDict m⟩, ?_, fun d => e5 d (ofDict m)⟩
    simp only [applyAt, e1, bind, Except.bind, e4, hm, pure, Except.pure]
  obtain ⟨r, r1, r2, r3⟩ := mapM_range _ hstep
  have hcmd : command lib op st.stack = .ok (some [r]) := by
    simp only [command, hop, h2]
    rw [if_neg (by simp [hlen]), List.take_of_length_le (by simp [hlen]), List.drop_of_length_le (by simp [hlen]), hmax]
    simp only [r1, bind, Except.bind, pure, Except.pure]
  have htok : tokens (joinWith ' ' ((os.flatMap fun o => o.1.tokens) ++ [op])) = (os.flatMap fun o => o.1.tokens) ++ [op] := by
    refine tokens_joinWith fun p hp => ?_
    rcases List.mem_append.1 hp with hp | hp
    · obtain ⟨o, ho, hpo⟩ := List.mem_flatMap.1 hp
      exact expr_tokens_ok (hos o ho).leaves p hpo
    · rw [List.mem_singleton.1 hp]; exact hopt
  have hrun : ((os.flatMap fun o => o.1.tokens) ++ [op]).foldlM (token lib s tags (!all)) {} =
      .ok { st with stack := [r] } := by
    rw [Space.foldlM_append_ok, h1]
    simp only [List.foldlM_cons, List.foldlM_nil, token, data_op hopn, hcmd, bind, Except.bind, pure, Except.pure]
  obtain ⟨⟨nm, ix⟩, hid⟩ := Option.isSome_iff_exists.1 (h4 (.inr hdata))
  obtain ⟨c, cs, rfl⟩ : ∃ c cs, T = c :: cs := by
    cases T with
    | nil => exact absurd rfl hT
    | cons c cs => exact ⟨c, cs, rfl⟩
  have hall : ∀ i ∈ r, ∃ d, pushItem (GData.new (c :: cs)
      (label.getD (joinWith ' ' ((os.flatMap fun o => o.1.tokens) ++ [op]))) i.ctx) i = .ok d := by
    intro i hi
    obtain ⟨k, hk⟩ := List.getElem?_of_mem hi
    have hkl := (List.getElem?_eq_some_iff.1 hk).1
    obtain ⟨j, hj, hj2⟩ := r3 k (by rw [← r2]; exact hkl)
    rw [hk] at hj
    obtain rfl := Option.some.inj hj
    obtain ⟨d', hp, -⟩ := hj2 (GData.new (c :: cs) (label.getD (joinWith ' ' ((os.flatMap fun o => o.1.tokens) ++ [op]))) i.ctx)
    exact ⟨d', hp⟩
  obtain ⟨s', hs'⟩ := foldlM_addStep_ok r s hall
  obtain ⟨new, q1, q2, q3, q4, q5⟩ := foldlM_addStep r hs'
  refine ⟨s', ?_, new, q1, by rw [q2, r2], fun k hk => ?_, q4, by rw [q5, r2]⟩
  · have hnum : ¬ (st.num = 1 ∧ (some (c :: cs) : Option (List Char)) = none) := by simp
    simp only [ev, hr.known, htok, hrun, bind, Except.bind, hid, if_neg hnum]
    exact hs'
  · obtain ⟨i, hi, hi2⟩ := r3 k hk
    obtain ⟨d, hd, hpush⟩ := q3 k i hi
    obtain ⟨d', p1, p2, p3, p4⟩ := hi2 (GData.new (c :: cs)
      (label.getD (joinWith ' ' ((os.flatMap fun o => o.1.tokens) ++ [op]))) i.ctx)
    rw [hpush] at p1
    obtain rfl := Except.ok.inj p1
    exact ⟨d, hd, p2, p3, p4⟩

omit [Add F] [Sub F] [Mul F] [Div F] [Zero F] [IntCast F] in
/-- Pushing an array on a grid with as many axes. -/
theorem pushItem_good {sh : List Nat} {gr : List (NArr F)} {a : NArr F} (hs : a.shape.length = sh.length) (hg : GoodGrid sh gr)
    (d : GData F) (c : Ctx F) : ∃ d', pushItem d ⟨some gr, .arr a, c⟩ = .ok d' ∧ (d'.values = some a ∧ d'.grid = some gr) ∧
      d'.tag = d.tag ∧ d'.status = d.status := by
  obtain ⟨hgl, ⟨l, hl⟩, ⟨u, hu⟩⟩ := hg
  have hne : a.shape ≠ [] := by intro e; rw [e] at hs; rw [← hs] at hgl; simp at hgl
  obtain ⟨nc, hnc⟩ : ∃ nc, a.shape.getLast? = some nc := ⟨_, List.getLast?_eq_some_getLast hne⟩
  have hp := GData.push_ok (d := d) hnc (by rw [hs]; exact hl) (by rw [hs]; exact hu)
  exact ⟨_, (show pushItem d ⟨some _, .arr _, c⟩ = _ from hp), ⟨rfl, rfl⟩, rfl, rfl⟩

omit [Add F] [Sub F] [Mul F] [Div F] [Zero F] [IntCast F] in
/-- Pushing a single number. -/
theorem pushItem_number (x : F) (d : GData F) (c : Ctx F) :
    ∃ d', pushItem d ⟨some [], .arr (NArr.ofList [x]), c⟩ = .ok d' ∧ HoldsNumber d' x ∧
      d'.tag = d.tag ∧ d'.status = d.status := by
  have hp := GData.push_ok (d := d) (g := []) (v := NArr.ofList [x]) (nc := 1) (l := []) (u := []) rfl rfl rfl
  exact ⟨_, (show pushItem d ⟨some _, .arr _, c⟩ = _ from hp), ⟨rfl, rfl⟩, rfl, rfl⟩

omit [Add F] [Sub F] [Mul F] [Div F] [IntCast F] in
/-- Every value of an operand is a number. -/
theorem den_num {sh : List Nat} {i : Item F} {hd : Bool} {g : List Nat → Option F} (h : Den sh i hd g)
    {idx : List Nat} (hi : inRange sh idx = true) : g idx = some ((g idx).getD 0) := by
  obtain ⟨a, -, ht, hn⟩ := h
  cases hd with
  | true =>
    obtain ⟨q1, q2, q3, -⟩ := ht rfl
    obtain ⟨x, hx⟩ := Option.isSome_iff_exists.1 (NArr.get?_isSome q2 (by rw [q1]; exact hi))
    rw [q3 idx hi] at hx
    rw [hx]; rfl
  | false =>
    obtain ⟨-, ⟨x, -, q⟩, -⟩ := hn rfl
    rw [q idx]; rfl

omit [LinearOrder F] [Add F] [Sub F] [Mul F] [Div F] [Zero F] [IntCast F] in
/-- The data of an array in the order of its indices. -/
theorem data_of_get? {a : NArr F} (hw : a.WF) {sh : List Nat} (hs : a.shape = sh) {f : List Nat → F}
    (hf : ∀ idx, inRange sh idx = true → a.get? idx = some (f idx)) : a.data = (indices sh).map f := by
  subst hs
  have : a = ⟨a.shape, (indices a.shape).map f⟩ := by
    refine NArr.ext_get? hw ?_ rfl fun idx hi => ?_
    · simp [NArr.WF, length_indices]
    · rw [hf idx hi]
      have hi' : inRange (⟨a.shape, (indices a.shape).map f⟩ : NArr F).shape idx = true := hi
      simp only [NArr.get?, hi, if_true, List.getElem?_map, indices_getElem? hi, Option.map_some]
  exact congrArg NArr.data this

end

/-! ## Values on common grids -/

section
variable {F : Type}

/-- Both operands on the grid `G`, or constants. -/
theorem getGrid_common {h0 h1 : Bool} {g0 g1 : EvGrid F} {G : List (NArr F)} (e0 : h0 = true → g0 = some G)
    (n0 : h0 = false → g0 = none) (e1 : h1 = true → g1 = some G) (n1 : h1 = false → g1 = none) (h : (h1 || h0) = true) :
    EvCmd.getGrid g0 g1 = some G := by
  cases h0 <;> cases h1
  · simp at h
  · rw [n0 rfl, e1 rfl]; rfl
  · rw [e0 rfl, n1 rfl]; rfl
  · rw [e0 rfl, e1 rfl]; simp [EvCmd.getGrid]

end

/-! ## Arrays with different numbers of axes -/

section
variable {α β γ : Type}

theorem transpose_ok {a : NArr α} (ha : a.WF) : a.transpose.WF ∧ a.transpose.shape = a.shape.reverse ∧
    ∀ idx, inRange a.shape idx = true → a.transpose.get? idx.reverse = a.get? idx := by
  have hsome : ∀ idx, inRange a.shape.reverse idx = true → (a.get? idx.reverse).isSome := by
    intro idx hi
    have := inRange_reverse hi
    rw [List.reverse_reverse] at this
    exact NArr.get?_isSome ha this
  refine ⟨NArr.ofFn_WF hsome, rfl, fun idx hi => ?_⟩
  rw [NArr.transpose, NArr.ofFn_get? hsome (inRange_reverse hi), List.reverse_reverse]

theorem bcastRev_left (r : List Nat) (hr : r ≠ []) : ∀ cells : List Nat, bcastRev (cells ++ r) (cells ++ [1]) = some (cells ++ r)
  | [] => by
    obtain ⟨x, xs, rfl⟩ := List.exists_cons_of_ne_nil hr
    have : bcastRev xs [] = some xs := by cases xs <;> simp [bcastRev]
    by_cases hx : x = 1 <;> simp [bcastRev, this, hx]
  | c :: cells => by simp [bcastRev, bcastRev_left r hr cells]

theorem bcastRev_right (r : List Nat) (hr : r ≠ []) : ∀ cells : List Nat, bcastRev (cells ++ [1]) (cells ++ r) = some (cells ++ r)
  | [] => by
    obtain ⟨x, xs, rfl⟩ := List.exists_cons_of_ne_nil hr
    simp only [List.nil_append, bcastRev, Option.map_some]
    split
    · rename_i h; rw [h]
    · rfl
  | c :: cells => by simp [bcastRev, bcastRev_right r hr cells]

theorem bcastIdxRev_low : ∀ {cells r idx : List Nat}, r ≠ [] → inRange (cells ++ r) idx = true →
    bcastIdxRev (cells ++ [1]) idx = idx.take cells.length ++ [0] ∧ inRange cells (idx.take cells.length) = true
  | [], r, idx, hr, h => by
    obtain ⟨x, xs, rfl⟩ := List.exists_cons_of_ne_nil hr
    cases idx with
    | nil => simp [inRange] at h
    | cons i is => simp [bcastIdxRev, inRange]
  | c :: cells, r, [], hr, h => by simp [inRange] at h
  | c :: cells, r, i :: is, hr, h => by
    simp only [List.cons_append, inRange, Bool.and_eq_true, decide_eq_true_eq] at h
    obtain ⟨h1, h2⟩ := bcastIdxRev_low hr h.2
    simp only [List.cons_append, bcastIdxRev, h1, List.length_cons, List.take_succ_cons, inRange, h2, Bool.and_true,
      decide_eq_true_eq]
    refine ⟨?_, h.1⟩
    split
    · rw [show i = 0 by omega]
    · rfl

/-- Products and quotients align the axes from the front: the array with one value per cell is used on all further axes. -/
theorem transposed_low {cells r : List Nat} (hr : r ≠ []) {a b : NArr α} (ha : a.WF) (hb : b.WF) (hsa : a.shape = cells ++ r)
    (hsb : b.shape = cells ++ [1]) (f : α → α → α) :
    (∃ c, EvCmd.transposed f a b = .ok c ∧ c.shape = cells ++ r ∧ c.WF ∧ ∀ idx, inRange (cells ++ r) idx = true →
      c.get? idx = (do let x ← a.get? idx; let y ← b.get? (idx.take cells.length ++ [0]); return f x y)) ∧
    (∃ c, EvCmd.transposed f b a = .ok c ∧ c.shape = cells ++ r ∧ c.WF ∧ ∀ idx, inRange (cells ++ r) idx = true →
      c.get? idx = (do let x ← b.get? (idx.take cells.length ++ [0]); let y ← a.get? idx; return f x y)) := by
  obtain ⟨wa, sa, ga⟩ := transpose_ok ha
  obtain ⟨wb, sb, gb⟩ := transpose_ok hb
  have hlow : ∀ idx, inRange (cells ++ r) idx = true → inRange b.shape (idx.take cells.length ++ [0]) = true := by
    intro idx hi
    rw [hsb]
    exact inRange_snoc_iff.2 ⟨(bcastIdxRev_low hr hi).2, by omega⟩
  have ia : ∀ idx, inRange (cells ++ r).reverse idx = true → bcastIdx a.transpose.shape idx = idx := by
    intro idx hi
    rw [sa, hsa]; exact bcastIdx_self hi
  have ib : ∀ idx, inRange (cells ++ r).reverse idx = true →
      bcastIdx b.transpose.shape idx = (idx.reverse.take cells.length ++ [0]).reverse := by
    intro idx hi
    have h := inRange_reverse hi
    rw [List.reverse_reverse] at h
    rw [bcastIdx, sb, List.reverse_reverse, hsb, (bcastIdxRev_low hr h).1]
  have hra : ∀ idx, inRange (cells ++ r).reverse idx = true → inRange a.transpose.shape (bcastIdx a.transpose.shape idx) = true := by
    intro idx hi; rw [ia idx hi, sa, hsa]; exact hi
  have hrb : ∀ idx, inRange (cells ++ r).reverse idx = true → inRange b.transpose.shape (bcastIdx b.transpose.shape idx) = true := by
    intro idx hi
    have h := inRange_reverse hi
    rw [List.reverse_reverse] at h
    rw [ib idx hi, sb]; exact inRange_reverse (hlow _ h)
  have la : a.shape.length ≠ 0 := by rw [hsa]; simp [hr]
  have lb : b.shape.length ≠ 0 := by rw [hsb]; simp
  by_cases heq : a.shape = b.shape
  · -- the same shape
    have hr1 : r = [1] := by rw [hsa, hsb] at heq; exact List.append_cancel_left heq
    subst hr1
    have hid : ∀ idx, inRange (cells ++ [1]) idx = true → idx.take cells.length ++ [0] = idx := by
      intro idx hi
      obtain ⟨i, c, rfl, h1, h2⟩ := inRange_snoc' hi
      rw [show c = 0 by omega, ← inRange_length h1, List.take_left']
      rfl
    refine ⟨?_, ?_⟩
    · obtain ⟨c, h1, h2, h3, h4⟩ := NArr.zip2_ok (f := f) (a := a) (b := b) (s := cells ++ [1])
        (by rw [hsa, hsb]; exact bcastShape_self _) ha hb
        (fun idx h => by rw [hsa, bcastIdx_self h]; exact h) (fun idx h => by rw [hsb, bcastIdx_self h]; exact h)
      refine ⟨c, by simp only [EvCmd.transposed, heq, true_or, if_true, h1], h2, h3, fun idx hi => ?_⟩
      rw [h4 idx hi, hsa, hsb, bcastIdx_self hi, hid idx hi]
    · obtain ⟨c, h1, h2, h3, h4⟩ := NArr.zip2_ok (f := f) (a := b) (b := a) (s := cells ++ [1])
        (by rw [hsa, hsb]; exact bcastShape_self _) hb ha
        (fun idx h => by rw [hsb, bcastIdx_self h]; exact h) (fun idx h => by rw [hsa, bcastIdx_self h]; exact h)
      refine ⟨c, by simp only [EvCmd.transposed, heq, true_or, if_true, h1], h2, h3, fun idx hi => ?_⟩
      rw [h4 idx hi, hsa, hsb, bcastIdx_self hi, hid idx hi]
  · refine ⟨?_, ?_⟩
    · obtain ⟨c, h1, h2, h3, h4⟩ := NArr.zip2_ok (f := f) (a := a.transpose) (b := b.transpose) (s := (cells ++ r).reverse)
        (by rw [sa, sb, hsa, hsb, bcastShape, List.reverse_reverse, List.reverse_reverse, bcastRev_left r hr]; rfl) wa wb hra hrb
      obtain ⟨wc, sc, gc⟩ := transpose_ok h3
      refine ⟨c.transpose, ?_, by rw [sc, h2, List.reverse_reverse], wc, fun idx hi => ?_⟩
      · rw [EvCmd.transposed, if_neg (by simp only [heq, la, lb, or_self, not_false_iff]), h1]; rfl
      · have hi' := inRange_reverse hi
        have := gc idx.reverse (by rw [h2]; exact hi')
        rw [List.reverse_reverse] at this
        rw [this, h4 _ hi', ia _ hi', ib _ hi', List.reverse_reverse, ga idx (by rw [hsa]; exact hi), gb _ (hlow idx hi)]
    · obtain ⟨c, h1, h2, h3, h4⟩ := NArr.zip2_ok (f := f) (a := b.transpose) (b := a.transpose) (s := (cells ++ r).reverse)
        (by rw [sa, sb, hsa, hsb, bcastShape, List.reverse_reverse, List.reverse_reverse, bcastRev_right r hr]; rfl) wb wa hrb hra
      obtain ⟨wc, sc, gc⟩ := transpose_ok h3
      refine ⟨c.transpose, ?_, by rw [sc, h2, List.reverse_reverse], wc, fun idx hi => ?_⟩
      · rw [EvCmd.transposed, if_neg (by simp only [Ne.symm heq, la, lb, or_self, not_false_iff]), h1]; rfl
      · have hi' := inRange_reverse hi
        have := gc idx.reverse (by rw [h2]; exact hi')
        rw [List.reverse_reverse] at this
        rw [this, h4 _ hi', ia _ hi', ib _ hi', List.reverse_reverse, ga idx (by rw [hsa]; exact hi), gb _ (hlow idx hi)]

end

/-! ## Several components with one -/

section
variable {F : Type} [Add F] [Sub F] [Mul F] [Div F] [Zero F] [IntCast F]
variable {a b : NArr F} {cells : List Nat} {m : Nat} {fa fb : List Nat → Nat → F}

omit [Add F] [Sub F] [Mul F] [Div F] [Zero F] [IntCast F] in
theorem zip2_wide (ha : IsField a cells m fa) (hb : IsField b cells 1 fb) (f : F → F → F) :
    (∃ c, NArr.zip2 f a b = .ok c ∧ IsField c cells m fun i j => f (fa i j) (fb i 0)) ∧
    (∃ c, NArr.zip2 f b a = .ok c ∧ IsField c cells m fun i j => f (fb i 0) (fa i j)) := by
  have ia : ∀ idx, inRange (cells ++ [m]) idx = true → bcastIdx a.shape idx = idx := fun idx hi => by
    rw [ha.shape]; exact bcastIdx_self hi
  have ib : ∀ i c, inRange cells i = true → bcastIdx b.shape (i ++ [c]) = i ++ [0] := fun i c hi => by
    rw [hb.shape, bcastIdx_snoc hi]; simp
  have ra : ∀ idx, inRange (cells ++ [m]) idx = true → inRange a.shape (bcastIdx a.shape idx) = true := fun idx hi => by
    rw [ia idx hi, ha.shape]; exact hi
  have rb : ∀ idx, inRange (cells ++ [m]) idx = true → inRange b.shape (bcastIdx b.shape idx) = true := fun idx hi => by
    obtain ⟨i, c, rfl, h1, h2⟩ := inRange_snoc' hi
    rw [ib i c h1, hb.shape]; exact inRange_snoc_iff.2 ⟨h1, by omega⟩
  constructor
  · obtain ⟨c, h1, h2, h3, h4⟩ := NArr.zip2_ok (f := f) (a := a) (b := b) (s := cells ++ [m])
      (by rw [ha.shape, hb.shape]; exact bcastShape_snoc_one _ _) ha.wf hb.wf ra rb
    refine ⟨c, h1, h3, h2, fun i hi j hj => ?_⟩
    have hij := inRange_snoc_iff.2 ⟨hi, hj⟩
    rw [h4 _ hij, ia _ hij, ib i j hi, ha.get i hi j hj, hb.get i hi 0 (by omega)]; rfl
  · obtain ⟨c, h1, h2, h3, h4⟩ := NArr.zip2_ok (f := f) (a := b) (b := a) (s := cells ++ [m])
      (by rw [ha.shape, hb.shape]; exact bcastShape_one_snoc _ _) hb.wf ha.wf rb ra
    refine ⟨c, h1, h3, h2, fun i hi j hj => ?_⟩
    have hij := inRange_snoc_iff.2 ⟨hi, hj⟩
    rw [h4 _ hij, ia _ hij, ib i j hi, ha.get i hi j hj, hb.get i hi 0 (by omega)]; rfl

omit [Add F] [Sub F] [Mul F] [Div F] [Zero F] [IntCast F] in
theorem transposed_wide (ha : IsField a cells m fa) (hb : IsField b cells 1 fb) (f : F → F → F) :
    (∃ c, EvCmd.transposed f a b = .ok c ∧ IsField c cells m fun i j => f (fa i j) (fb i 0)) ∧
    (∃ c, EvCmd.transposed f b a = .ok c ∧ IsField c cells m fun i j => f (fb i 0) (fa i j)) := by
  obtain ⟨⟨c, h1, h2, h3, h4⟩, ⟨c', h1', h2', h3', h4'⟩⟩ := transposed_low (r := [m]) (by simp) ha.wf hb.wf ha.shape hb.shape f
  have ht : ∀ (i : List Nat) (j : Nat), inRange cells i = true → (i ++ [j]).take cells.length = i := fun i j hi => by
    rw [← inRange_length hi, List.take_left']; rfl
  refine ⟨⟨c, h1, h3, h2, fun i hi j hj => ?_⟩, ⟨c', h1', h3', h2', fun i hi j hj => ?_⟩⟩
  · rw [h4 _ (inRange_snoc_iff.2 ⟨hi, hj⟩), ht i j hi, ha.get i hi j hj, hb.get i hi 0 (by omega)]; rfl
  · rw [h4' _ (inRange_snoc_iff.2 ⟨hi, hj⟩), ht i j hi, ha.get i hi j hj, hb.get i hi 0 (by omega)]; rfl

omit [Add F] [Sub F] [Mul F] [Div F] [Zero F] [IntCast F] in
theorem getGrid_some (gA gB : List (NArr F)) : ∃ gr, EvCmd.getGrid (some gB) (some gA) = some gr ∧ (gr = gA ∨ gr = gB) := by
  simp only [EvCmd.getGrid]
  split
  · exact ⟨_, rfl, .inr rfl⟩
  · exact ⟨_, rfl, .inl rfl⟩

omit [Zero F] [IntCast F] in
/-- The first operand has the components. -/
theorem bin_wide_left {fn : Fns F} (hc : Comm fn) (o : BinOp) (ha : IsField a cells m fa) (hb : IsField b cells 1 fb)
    (gA gB : List (NArr F)) : ∃ r gr, binFunc fn o [some gB, some gA] [.arr b, .arr a] = .ok (some gr, .arr r) ∧
      (gr = gA ∨ gr = gB) ∧ IsField r cells m fun i j => o.app fn (fa i j) (fb i 0) := by
  obtain ⟨gr, hg, hgr⟩ := getGrid_some gA gB
  have hbin : ∀ f : F → F → F, (∀ x y, f y x = o.app fn x y) →
      ∃ r gr, EvCmd.binary f [some gB, some gA] [.arr b, .arr a] = .ok (some gr, .arr r) ∧
        (gr = gA ∨ gr = gB) ∧ IsField r cells m fun i j => o.app fn (fa i j) (fb i 0) := by
    intro f hf
    obtain ⟨-, c, h1, h2⟩ := zip2_wide ha hb f
    refine ⟨c, gr, by simp only [EvCmd.binary, h1, hg, bind, Except.bind, pure, Except.pure], hgr, ?_⟩
    simpa only [hf] using h2
  have hmul : ∀ f : F → F → F, (∀ x y, f x y = o.app fn x y) →
      ∃ r gr, EvCmd.multLike f [some gB, some gA] [.arr b, .arr a] = .ok (some gr, .arr r) ∧
        (gr = gA ∨ gr = gB) ∧ IsField r cells m fun i j => o.app fn (fa i j) (fb i 0) := by
    intro f hf
    obtain ⟨⟨c, h1, h2⟩, -⟩ := transposed_wide ha hb f
    refine ⟨c, gr, by simp only [EvCmd.multLike, h1, hg, bind, Except.bind, pure, Except.pure], hgr, ?_⟩
    simpa only [hf] using h2
  cases o with
  | add => exact hbin _ fun x y => hc.add y x
  | sub => exact hbin _ fun x y => rfl
  | mul => exact hmul _ fun x y => rfl
  | div => exact hmul _ fun x y => rfl
  | min => exact hbin _ fun x y => hc.min y x
  | max => exact hbin _ fun x y => hc.max y x
  | pow =>
    obtain ⟨⟨c, h1, h2⟩, -⟩ := zip2_wide ha hb fn.pow
    exact ⟨c, gA, by simp only [binFunc, EvCmd.power, h1, bind, Except.bind, pure, Except.pure], .inl rfl, h2⟩

omit [Zero F] [IntCast F] in
/-- The second operand has the components. -/
theorem bin_wide_right {fn : Fns F} (hc : Comm fn) (o : BinOp) (ha : IsField a cells m fa) (hb : IsField b cells 1 fb)
    (gA gB : List (NArr F)) : ∃ r gr, binFunc fn o [some gA, some gB] [.arr a, .arr b] = .ok (some gr, .arr r) ∧
      (gr = gA ∨ gr = gB) ∧ IsField r cells m fun i j => o.app fn (fb i 0) (fa i j) := by
  obtain ⟨gr, hg, hgr⟩ := getGrid_some gB gA
  have hgr := hgr.symm
  have hbin : ∀ f : F → F → F, (∀ x y, f y x = o.app fn x y) →
      ∃ r gr, EvCmd.binary f [some gA, some gB] [.arr a, .arr b] = .ok (some gr, .arr r) ∧
        (gr = gA ∨ gr = gB) ∧ IsField r cells m fun i j => o.app fn (fb i 0) (fa i j) := by
    intro f hf
    obtain ⟨⟨c, h1, h2⟩, -⟩ := zip2_wide ha hb f
    refine ⟨c, gr, by simp only [EvCmd.binary, h1, hg, bind, Except.bind, pure, Except.pure], hgr, ?_⟩
    simpa only [hf] using h2
  have hmul : ∀ f : F → F → F, (∀ x y, f x y = o.app fn x y) →
      ∃ r gr, EvCmd.multLike f [some gA, some gB] [.arr a, .arr b] = .ok (some gr, .arr r) ∧
        (gr = gA ∨ gr = gB) ∧ IsField r cells m fun i j => o.app fn (fb i 0) (fa i j) := by
    intro f hf
    obtain ⟨-, c, h1, h2⟩ := transposed_wide ha hb f
    refine ⟨c, gr, by simp only [EvCmd.multLike, h1, hg, bind, Except.bind, pure, Except.pure], hgr, ?_⟩
    simpa only [hf] using h2
  cases o with
  | add => exact hbin _ fun x y => hc.add y x
  | sub => exact hbin _ fun x y => rfl
  | mul => exact hmul _ fun x y => rfl
  | div => exact hmul _ fun x y => rfl
  | min => exact hbin _ fun x y => hc.min y x
  | max => exact hbin _ fun x y => hc.max y x
  | pow =>
    obtain ⟨-, c, h1, h2⟩ := zip2_wide ha hb fn.pow
    exact ⟨c, gB, by simp only [binFunc, EvCmd.power, h1, bind, Except.bind, pure, Except.pure], .inr rfl, h2⟩

end
end Ev
end Pgkyl
