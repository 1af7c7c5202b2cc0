import Verif.Lemmas.EvData
import Verif.Lemmas.EvMeta
/-! # Runs of the `ev` machine on postfix expressions -/

namespace Pgkyl
namespace Ev
open Spec

theorem beforeBracket_append {i r : List Char} (h : ']' ∉ i) : beforeBracket (i ++ ']' :: r) = i := by
  rw [beforeBracket, splitOn_append h]; rfl

theorem dec_notMem (n : Nat) {c : Char} (h : isDig c = false) : c ∉ dec n :=
  isDigitStr_notMem (isDigitStr_toDigits n) h

/-- What the parts of a data token are. -/
structure Parts (tok p0 : List Char) (ix : Option (List Char)) (comp : Option Nat) : Prop where
  head : (splitOn '[' tok).headD [] = p0
  two : (if 2 ≤ (splitOn '[' tok).length then some (beforeBracket ((splitOn '[' tok).getD 1 [])) else none) = ix
  three : (if (splitOn '[' tok).length = 3 then some (beforeBracket ((splitOn '[' tok).getD 2 [])) else none) =
    comp.map dec
  dot : (splitOn '.' tok).length = 1

theorem parts_text {p0 : List Char} {ix : Option (List Char)} {comp : Option Nat}
    (hn : '[' ∉ p0 ∧ '.' ∉ p0) (hi : ∀ i, ix = some i → plain i) (hc : comp.isSome → ix.isSome) :
    Parts (p0 ++ (ix.map bracket).getD [] ++ (comp.map fun c => bracket (dec c)).getD []) p0 ix comp := by
  obtain ⟨hb, hd⟩ := hn
  cases ix with
  | none =>
    cases comp with
    | some c => simp at hc
    | none =>
      simp only [Option.map_none, Option.getD_none, List.append_nil]
      have h1 := splitOn_notMem hb
      have h2 := splitOn_notMem hd
      exact ⟨by rw [h1]; rfl, by rw [h1]; rfl, by rw [h1]; rfl, by rw [h2]; rfl⟩
  | some i =>
    obtain ⟨p1, p2, p3, -⟩ := hi i rfl
    cases comp with
    | none =>
      have e : p0 ++ ((some i).map bracket).getD [] ++ ((none : Option Nat).map fun c => bracket (dec c)).getD [] =
          p0 ++ '[' :: (i ++ [']']) := by simp [bracket]
      rw [e]
      have h1 : splitOn '[' (p0 ++ '[' :: (i ++ [']'])) = [p0, i ++ [']']] := by
        rw [splitOn_append hb, splitOn_notMem]
        simp [p1]
      have h2 : splitOn '.' (p0 ++ '[' :: (i ++ [']'])) = [p0 ++ '[' :: (i ++ [']'])] :=
        splitOn_notMem (by simp [hd, p3])
      refine ⟨by rw [h1]; rfl, ?_, by rw [h1]; rfl, by rw [h2]; rfl⟩
      rw [h1]
      simp only [List.length_cons, List.length_nil, Nat.le_refl, if_true, List.getD_cons_succ,
        List.getD_cons_zero]
      rw [beforeBracket_append p2]
    | some c =>
      have e : p0 ++ ((some i).map bracket).getD [] ++ ((some c).map fun c => bracket (dec c)).getD [] =
          p0 ++ '[' :: ((i ++ [']']) ++ '[' :: (dec c ++ [']'])) := by simp [bracket]
      rw [e]
      have d1 : '[' ∉ dec c := dec_notMem c (by decide)
      have d2 : ']' ∉ dec c := dec_notMem c (by decide)
      have d3 : '.' ∉ dec c := dec_notMem c (by decide)
      have h1 : splitOn '[' (p0 ++ '[' :: ((i ++ [']']) ++ '[' :: (dec c ++ [']']))) =
          [p0, i ++ [']'], dec c ++ [']']] := by
        rw [splitOn_append hb, splitOn_append (by simp [p1]), splitOn_notMem]
        simp [d1]
      have h2 : splitOn '.' (p0 ++ '[' :: ((i ++ [']']) ++ '[' :: (dec c ++ [']']))) =
          [p0 ++ '[' :: ((i ++ [']']) ++ '[' :: (dec c ++ [']']))] :=
        splitOn_notMem (by simp [hd, p3, d3])
      refine ⟨by rw [h1]; rfl, ?_, ?_, by rw [h2]; rfl⟩
      · rw [h1]
        simp only [List.length_cons, List.length_nil, List.getD_cons_succ, List.getD_cons_zero]
        rw [if_pos (by decide), beforeBracket_append p2]
      · rw [h1]
        simp only [List.length_cons, List.length_nil, List.getD_cons_succ, List.getD_cons_zero]
        rw [if_pos (by decide), beforeBracket_append d2]; rfl

/-! ## Lists of datasets on the stack -/

section
variable {F : Type} [LinearOrder F] [Add F] [Sub F] [Mul F] [Div F] [Zero F] [IntCast F]

/-- The operand stands for the expression. -/
def DenL (fn : Fns F) (sh : List Nat) (e : Expr F) (items : List (Item F)) : Prop :=
  0 < e.count ∧ items.length = e.count ∧
    ∀ k, k < e.count → ∃ i, items[k]? = some i ∧ Den sh i e.hasData fun idx => e.valueAt fn k idx

omit [LinearOrder F] [Zero F] [IntCast F] in
theorem valueAt_min (fn : Fns F) (idx : List Nat) (k m : Nat) : ∀ (e : Expr F), e.count ≤ m + 1 →
    e.valueAt fn (min k m) idx = e.valueAt fn k idx
  | .leaf (.const _ _), _ => rfl
  | .leaf (.data _ _ _ arrays), h => by
    simp only [Expr.count, Leaf.count] at h
    simp only [Expr.valueAt, Leaf.valueAt]
    rw [show min (min k m) (arrays.length - 1) = min k (arrays.length - 1) by omega]
  | .un o e, h => by simp only [Expr.valueAt, valueAt_min fn idx k m e h]
  | .bin o a b, h => by
    simp only [Expr.count] at h
    simp only [Expr.valueAt, valueAt_min fn idx k m a (by omega), valueAt_min fn idx k m b (by omega)]

omit [Zero F] [IntCast F] in
/-- The dataset picked for position `k` of the result. -/
theorem pick_den {fn : Fns F} {sh : List Nat} {e : Expr F} {items : List (Item F)}
    (h : DenL fn sh e items) (k : Nat) :
    ∃ i, pickItem k items = .ok i ∧ Den sh i e.hasData fun idx => e.valueAt fn k idx := by
  obtain ⟨h0, hl, hi⟩ := h
  obtain ⟨i, hi1, hi2⟩ := hi (min k (e.count - 1)) (by omega)
  refine ⟨i, by simp only [pickItem, hl, hi1], ?_⟩
  have : (fun idx => e.valueAt fn (min k (e.count - 1)) idx) = fun idx => e.valueAt fn k idx := by
    funext idx; exact valueAt_min fn idx k _ e (by omega)
  rwa [this] at hi2

variable {lib : Lib F} {s : Space F} {tags : List Tag} {sh : List Nat} {all : Bool}

omit [LinearOrder F] [Add F] [Sub F] [Mul F] [Div F] [Zero F] [IntCast F] in
theorem mapM_deref_last : ∀ (vis : List (Nat × Nat)) {objs : List (GData F)} {e : Nat × Nat} {d : GData F},
    vis.mapM (deref s) = .ok objs → vis.getLast? = some e → s.heap[e.2]? = some d → objs.getLast? = some d
  | [], _, _, _, _, he, _ => by simp at he
  | [x], objs, e, d, h, he, hd => by
    rw [Space.mapM_cons_ok] at h
    obtain ⟨b, bs, h1, h2, rfl⟩ := h
    simp only [List.getLast?_singleton, Option.some.injEq] at he
    subst he
    simp only [deref, hd, Except.ok.injEq] at h1
    simp only [List.mapM_nil, pure, Except.pure, Except.ok.injEq] at h2
    subst h1 h2; rfl
  | x :: y :: vis, objs, e, d, h, he, hd => by
    rw [Space.mapM_cons_ok] at h
    obtain ⟨b, bs, h1, h2, rfl⟩ := h
    have := mapM_deref_last (y :: vis) h2 (by simpa using he) hd
    cases bs with
    | nil => simp at this
    | cons c cs => simpa using this

omit [Zero F] in
/-- A data token pushes the arrays it names. -/
theorem data_token {name : Option Tag} {ix : Option (List Char)} {comp : Option Nat} {arrays : List (NArr F)}
    (h : Leaf.OK lib s all tags sh (.data name ix comp arrays)) :
    ∃ items nm, data lib s tags (!all) (Leaf.text (.data name ix comp arrays)) =
        .ok (some (items, some (nm, ix))) ∧
      DenL lib.fn sh (.leaf (.data name ix comp arrays)) items ∧
      (∀ vis e d, s.toList name false (if name.isSome then false else !all) (Space.optSel ix) = .ok vis →
        vis.getLast? = some e → s.heap[e.2]? = some d → nm = some d.tag) ∧
      ∀ k i, items[k]? = some i → ∃ d, Leaf.Dataset s all k d (.data name ix comp arrays) ∧ i.grid = d.grid ∧
        i.ctx = d.ctx := by
  obtain ⟨hname, hix, hci, hne, visited, hvis, hf⟩ := h
  have hp : Parts (Leaf.text (.data name ix comp arrays)) (name.getD ['f']) ix comp := by
    refine parts_text ?_ hix hci
    cases name with
    | none => simp
    | some t => exact ⟨hname.2.2.1, hname.2.2.2.2.1⟩
  -- it is a data token
  have hdata : (Leaf.text (.data name ix comp arrays)).head? = some 'f' ∨
      (splitOn '[' (Leaf.text (.data name ix comp arrays))).headD [] ∈ tags := by
    rw [hp.head]
    cases name with
    | none => left; rfl
    | some t => right; exact hname.1
  have htag : (if name.getD ['f'] ∈ tags then some (name.getD ['f']) else none) = name := by
    cases name with
    | none => exact if_neg hname
    | some t => exact if_pos hname.1
  have hoa : (if name.getD ['f'] ∈ tags then false else !all) = (if name.isSome then false else !all) := by
    cases name with
    | none => rw [if_neg (show (none : Option Tag).getD ['f'] ∉ tags from hname)]; rfl
    | some t => rw [if_pos (show (some t).getD ['f'] ∈ tags from hname.1)]; rfl
  -- the datasets
  have hmain : ∃ objs items, visited.mapM (deref s) = .ok objs ∧
      objs.mapM (item lib (comp.map dec) none) = .ok items ∧
      List.Forall₂ (fun i a => i.val = .arr a ∧ a.shape = sh ∧ a.WF ∧
        ∃ gr, i.grid = some gr ∧ GoodGrid sh gr) items arrays ∧
      List.Forall₂ (fun i e => ∃ d, s.heap[e.2]? = some d ∧ i.grid = d.grid ∧ i.ctx = d.ctx) items visited := by
    clear hvis hne hp hdata
    induction hf with
    | nil => exact ⟨[], [], rfl, rfl, .nil, .nil⟩
    | @cons e a vs as hea _ ih =>
      obtain ⟨d, axes, v, hd, hr, hcomp, hsh⟩ := hea
      obtain ⟨objs, items, q1, q2, q3, q4⟩ := ih
      have hsel := select_plain lib.pf hr hcomp
      have hit : item lib (comp.map dec) none d = .ok ⟨some (axes.map NArr.ofList), .arr a, d.ctx⟩ := by
        have e' : ((comp.map dec).map IdxArg.str : Option (IdxArg F)) = comp.map fun c => .str (dec c) := by
          cases comp <;> rfl
        simp only [item, e', hsel, bind, Except.bind, pure, Except.pure]
      refine ⟨d :: objs, ⟨some (axes.map NArr.ofList), .arr a, d.ctx⟩ :: items, ?_, ?_, ?_,
        .cons ⟨d, hd, hr.grid.symm, rfl⟩ q4⟩
      · rw [Space.mapM_cons_ok]; exact ⟨d, objs, by simp only [deref, hd], q1, rfl⟩
      · rw [Space.mapM_cons_ok]; exact ⟨_, items, hit, q2, rfl⟩
      · have hlen : a.shape.length = axes.length + 1 := by
          cases comp with
          | none => simp only [IsComp] at hcomp; rw [hcomp, hr.shape]
          | some c => rw [hcomp.2.2.1]; simp [hr.shape]
        have hw : a.WF := by
          cases comp with
          | none => simp only [IsComp] at hcomp; rw [hcomp]; exact hr.wf
          | some c => exact hcomp.2.1
        obtain ⟨m1, m2⟩ := minima_axes hr.nodes
        refine .cons ⟨rfl, hsh, hw, _, rfl, ?_, ?_, ?_⟩ q3
        · rw [← hsh, hlen, List.length_map]
        · rw [← hsh, hlen]; exact m1
        · rw [← hsh, hlen]; exact m2
  obtain ⟨objs, items, q1, q2, q3, q4⟩ := hmain
  refine ⟨items, (match objs.getLast? with | some d => some d.tag | none => name), ?_, ⟨?_, ?_, ?_⟩, ?_, ?_⟩
  · rw [data, if_pos hdata]
    simp only [dataToken, hp.head, hp.two, hp.three, hp.dot, htag, hoa, hvis, q1, q2, bind, Except.bind, pure,
      Except.pure, Nat.reduceEqDiff, if_false]
    rfl
  · simp only [Expr.count, Leaf.count]
    exact List.length_pos_iff.2 hne
  · simp only [Expr.count, Leaf.count]; exact q3.length_eq
  · intro k hk
    simp only [Expr.count, Leaf.count] at hk
    have hk' : k < items.length := by rw [q3.length_eq]; exact hk
    obtain ⟨p1, p2, p3, p4⟩ := List.forall₂_iff_get.1 q3 |>.2 k hk' hk
    refine ⟨items[k], List.getElem?_eq_getElem hk', arrays[k], p1, fun _ => ⟨p2, p3, fun idx _ => ?_, p4⟩, ?_⟩
    · simp only [Expr.valueAt, Leaf.valueAt]
      rw [show min k (arrays.length - 1) = k by omega, List.getElem?_eq_getElem hk]; rfl
    · intro h; simp [Expr.hasData] at h
  · intro vis e d hv he hd
    rw [hvis] at hv
    obtain rfl := Except.ok.inj hv
    have : objs.getLast? = some d := mapM_deref_last visited q1 he hd
    rw [this]
  · intro k i hi
    obtain ⟨hk, rfl⟩ := List.getElem?_eq_some_iff.1 hi
    have hk' : k < visited.length := by rw [← q4.length_eq]; exact hk
    obtain ⟨d, p1, p2, p3⟩ := List.forall₂_iff_get.1 q4 |>.2 k hk hk'
    refine ⟨d, ⟨visited, visited[k], hvis, ?_, p1⟩, p2, p3⟩
    rw [show min k (arrays.length - 1) = k by have := q3.length_eq; omega]
    exact List.getElem?_eq_getElem hk'

omit [Zero F] in
/-- A number pushes a constant. -/
theorem const_token {t : List Char} {x : F} (h : Leaf.OK lib s all tags sh (.const t x)) :
    ∃ items, data lib s tags (!all) (Leaf.text (.const t x)) = .ok (some (items, none)) ∧
      DenL lib.fn sh (.leaf (.const t x)) items := by
  obtain ⟨h1, h2, h3, h4, h5, h6, h7, h8, -⟩ := h
  refine ⟨[⟨none, .arr (NArr.scalar x), {}⟩], ?_, ?_, ?_, ?_⟩
  · have hs : (splitOn '[' t).headD [] = t := by rw [splitOn_notMem h6]; rfl
    have a1 : ¬ (t.head? = some 'f' ∨ (splitOn '[' t).headD [] ∈ tags) := by rw [hs]; simp [h3, h4]
    have a2 : ¬ ('(' ∈ t ∨ '[' ∈ t) := by simp [h5, h6]
    have a3 : ¬ (':' ∈ t ∨ ',' ∈ t) := by simp [h7, h8]
    simp only [data, Leaf.text, if_neg a1, if_neg a2, if_neg a3, h1, pure, Except.pure]
  · simp [Expr.count, Leaf.count]
  · simp [Expr.count, Leaf.count]
  · intro k hk
    simp only [Expr.count, Leaf.count] at hk
    obtain rfl : k = 0 := by omega
    refine ⟨_, rfl, NArr.scalar x, rfl, by simp [Expr.hasData], fun _ => ⟨rfl, ⟨x, rfl, fun idx => rfl⟩, rfl⟩⟩

/-- A name that is not data. -/
structure OpName (lib : Lib F) (tags : List Tag) (t : List Char) : Prop where
  notTag : t ∉ tags
  notNum : lib.pf t = none
  notData : t.head? ≠ some 'f' ∧ '(' ∉ t ∧ '[' ∉ t ∧ ':' ∉ t ∧ ',' ∉ t

omit [Add F] [Sub F] [Mul F] [Div F] [Zero F] in
theorem data_op {t : List Char} (h : OpName lib tags t) (oa : Bool) : data lib s tags oa t = .ok none := by
  obtain ⟨h1, h2, h3, h4, h5, h6, h7⟩ := h
  have hs : (splitOn '[' t).headD [] = t := by rw [splitOn_notMem h5]; rfl
  have a1 : ¬ (t.head? = some 'f' ∨ (splitOn '[' t).headD [] ∈ tags) := by rw [hs]; simp [h1, h3]
  have a2 : ¬ ('(' ∈ t ∨ '[' ∈ t) := by simp [h4, h5]
  have a3 : ¬ (':' ∈ t ∨ ',' ∈ t) := by simp [h6, h7]
  simp only [data, if_neg a1, if_neg a2, if_neg a3, h2, pure, Except.pure]

theorem mapM_range {β : Type} {f : Nat → Except Err β} {P : Nat → β → Prop} (n : Nat)
    (h : ∀ k, k < n → ∃ b, f k = .ok b ∧ P k b) :
    ∃ r, (List.range n).mapM f = .ok r ∧ r.length = n ∧ ∀ k, k < n → ∃ b, r[k]? = some b ∧ P k b := by
  induction n with
  | zero => exact ⟨[], rfl, rfl, by omega⟩
  | succ n ih =>
    obtain ⟨r, h1, h2, h3⟩ := ih fun k hk => h k (by omega)
    obtain ⟨b, hb, hP⟩ := h n (by omega)
    refine ⟨r ++ [b], ?_, by simp [h2], fun k hk => ?_⟩
    · rw [List.range_succ, List.mapM_append]
      simp only [h1, List.mapM_cons, List.mapM_nil, hb, bind, Except.bind, pure, Except.pure]
    · by_cases hk' : k < n
      · obtain ⟨b', q1, q2⟩ := h3 k hk'
        exact ⟨b', by rw [List.getElem?_append_left (by omega)]; exact q1, q2⟩
      · obtain rfl : k = n := by omega
        exact ⟨b, by rw [List.getElem?_append_right (by omega), h2]; simp, hP⟩

/-- An elementwise function of one argument on the top of the stack. -/
theorem command_un (o : UnOp) {e : Expr F} {items : List (Item F)} (h : DenL lib.fn sh e items)
    (rest : List (List (Item F))) :
    ∃ r, command lib o.text (items :: rest) = .ok (some (r :: rest)) ∧ DenL lib.fn sh (.un o e) r := by
  have hstep : ∀ k, k < e.count → ∃ b, applyAt lib (EvCmd.unary (o.app lib.fn)) [items] k = .ok b ∧
      Den sh b (Expr.un o e).hasData fun idx => (Expr.un o e).valueAt lib.fn k idx := by
    intro k _
    obtain ⟨i, hi, hd⟩ := pick_den h k
    obtain ⟨m, hm, -⟩ := mergeMeta_ok lib.cmp [ctxDict i.ctx]
    obtain ⟨gr, v, hv, hden⟩ := unary_den (o.app lib.fn) hd (ofDict m)
    refine ⟨⟨gr, v, ofDict m⟩, ?_, hden⟩
    have hops : [items].mapM (pickItem k) = .ok [i] := by
      rw [Space.mapM_cons_ok]; exact ⟨i, [], hi, rfl, rfl⟩
    simp only [applyAt, hops, bind, Except.bind, List.map_cons, List.map_nil, hv, hm, pure, Except.pure]
  obtain ⟨r, h1, h2, h3⟩ := mapM_range e.count hstep
  refine ⟨r, ?_, h.1, h2, h3⟩
  have hmax : (([items] : List (List (Item F))).map List.length).foldl max 0 = e.count := by
    simp [h.2.1]
  simp only [command, cmds_un, List.length_cons, List.take_succ_cons, List.take_zero, List.drop_succ_cons,
    List.drop_zero, hmax, h1, bind, Except.bind, pure, Except.pure]
  rw [if_neg (by omega)]

/-- An elementwise operation on the two topmost operands: the lower one is the first. -/
theorem command_bin (hc : Comm lib.fn) (o : BinOp) {a b : Expr F} {ia ib : List (Item F)} (ha : DenL lib.fn sh a ia)
    (hb : DenL lib.fn sh b ib) (hp : o = .pow → b.hasData = true → a.hasData = true)
    (rest : List (List (Item F))) :
    ∃ r, command lib o.text (ib :: ia :: rest) = .ok (some (r :: rest)) ∧ DenL lib.fn sh (.bin o a b) r := by
  have hstep : ∀ k, k < max a.count b.count → ∃ c, applyAt lib (binFunc lib.fn o) [ib, ia] k = .ok c ∧
      Den sh c (Expr.bin o a b).hasData fun idx => (Expr.bin o a b).valueAt lib.fn k idx := by
    intro k _
    obtain ⟨i0, hi0, hd0⟩ := pick_den hb k
    obtain ⟨i1, hi1, hd1⟩ := pick_den ha k
    obtain ⟨m, hm, -⟩ := mergeMeta_ok lib.cmp [ctxDict i0.ctx, ctxDict i1.ctx]
    obtain ⟨gr, v, hv, hden⟩ := bin_den hc o hd0 hd1 hp (ofDict m)
    refine ⟨⟨gr, v, ofDict m⟩, ?_, hden⟩
    have hops : [ib, ia].mapM (pickItem k) = .ok [i0, i1] := by
      rw [Space.mapM_cons_ok]
      refine ⟨i0, [i1], hi0, ?_, rfl⟩
      rw [Space.mapM_cons_ok]; exact ⟨i1, [], hi1, rfl, rfl⟩
    simp only [applyAt, hops, bind, Except.bind, List.map_cons, List.map_nil, hv, hm, pure, Except.pure]
  obtain ⟨r, h1, h2, h3⟩ := mapM_range _ hstep
  refine ⟨r, ?_, by have := ha.1; simp only [Expr.count]; omega, h2, h3⟩
  have hmax : (([ib, ia] : List (List (Item F))).map List.length).foldl max 0 = max a.count b.count := by
    simp only [List.map_cons, List.map_nil, List.foldl_cons, List.foldl_nil, ha.2.1, hb.2.1]; omega
  simp only [command, cmds_bin, List.length_cons, List.take_succ_cons, List.take_zero, List.drop_succ_cons,
    List.drop_zero, hmax, h1, bind, Except.bind, pure, Except.pure]
  rw [if_neg (by omega)]

/-- The run of the machine on the postfix form of an expression. -/
theorem run_expr (hc : Comm lib.fn) (hops : ∀ t ∈ opNames, t ∉ tags ∧ lib.pf t = none) :
    ∀ (e : Expr F), e.All (Leaf.OK lib s all tags sh) → e.powOK → ∀ st : St F,
    ∃ st' items, e.tokens.foldlM (token lib s tags (!all)) st = .ok st' ∧ st'.stack = items :: st.stack ∧
      DenL lib.fn sh e items ∧ (st.id.isSome ∨ e.hasData = true → st'.id.isSome)
  | .leaf (.const t x), h, _, st => by
    obtain ⟨items, h1, h2⟩ := const_token (s := s) h
    refine ⟨{ st with stack := items :: st.stack }, items, ?_, rfl, h2, ?_⟩
    · simp only [Expr.tokens, List.foldlM_cons, List.foldlM_nil, token, h1, bind, Except.bind, pure, Except.pure]
    · rintro (h | h)
      · exact h
      · simp [Expr.hasData] at h
  | .leaf (.data name ix comp arrays), h, _, st => by
    obtain ⟨items, nm, h1, h2, -⟩ := data_token (s := s) h
    by_cases hid : some (nm, ix) ≠ st.id
    · refine ⟨⟨items :: st.stack, st.num + 1, some (nm, ix)⟩, items, ?_, rfl, h2, fun _ => rfl⟩
      simp only [Expr.tokens, List.foldlM_cons, List.foldlM_nil, token, h1, bind, Except.bind, pure, Except.pure,
        if_pos hid]
    · refine ⟨{ st with stack := items :: st.stack }, items, ?_, rfl, h2, fun _ => ?_⟩
      · simp only [Expr.tokens, List.foldlM_cons, List.foldlM_nil, token, h1, bind, Except.bind, pure, Except.pure,
          if_neg hid]
      · rw [not_not] at hid; simp [← hid]
  | .un o e, h, hp, st => by
    obtain ⟨st1, items, h1, h2, h3, h4⟩ := run_expr hc hops e h hp st
    obtain ⟨r, hr, hd⟩ := command_un o h3 st.stack
    refine ⟨{ st1 with stack := r :: st.stack }, r, ?_, rfl, hd, h4⟩
    have hmem : o.text ∈ opNames := by cases o <;> decide
    have hop : OpName lib tags o.text := ⟨(hops _ hmem).1, (hops _ hmem).2, by cases o <;> decide⟩
    rw [Expr.tokens, Space.foldlM_append_ok, h1]
    simp only [List.foldlM_cons, List.foldlM_nil, token, data_op hop, h2, hr, bind, Except.bind, pure, Except.pure]
  | .bin o a b, h, hp, st => by
    obtain ⟨st1, ia, h1, h2, h3, h4⟩ := run_expr hc hops a h.1 hp.1 st
    obtain ⟨st2, ib, k1, k2, k3, k4⟩ := run_expr hc hops b h.2 hp.2.1 st1
    obtain ⟨r, hr, hd⟩ := command_bin hc o h3 k3 hp.2.2 st.stack
    refine ⟨{ st2 with stack := r :: st.stack }, r, ?_, rfl, hd, ?_⟩
    · have hmem : o.text ∈ opNames := by cases o <;> decide
      have hop : OpName lib tags o.text := ⟨(hops _ hmem).1, (hops _ hmem).2, by cases o <;> decide⟩
      rw [Expr.tokens, Space.foldlM_append_ok, Space.foldlM_append_ok, h1]
      simp only [k1, List.foldlM_cons, List.foldlM_nil, token, data_op hop, k2, h2, hr, bind, Except.bind, pure,
        Except.pure]
    · simp only [Expr.hasData, Bool.or_eq_true]
      rintro (h | h | h)
      · exact k4 (.inl (h4 (.inl h)))
      · exact k4 (.inl (h4 (.inr h)))
      · exact k4 (.inr h)

end
end Ev
end Pgkyl
