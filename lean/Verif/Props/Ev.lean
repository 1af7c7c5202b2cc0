import Verif.Lemmas.EvProps
import Verif.Props.DataSpace
/-! # Properties C26-C29: the `ev` command -/

namespace Pgkyl
open Spec Ev

section
variable {F : Type} [LinearOrder F] [Add F] [Sub F] [Mul F] [Div F] [Zero F] [IntCast F]

/-! ## C26 -/

/-- C26 (with C27 and C29 for new datasets): `ev` on the postfix form of an expression `e`, possibly after
surplus operands `pre`, adds one dataset under the tag `T` for each dataset of the longest operand; its
values are, at every index, the value of the expression; every other dataset is as before.

The operands mean what they say (`Leaf.OK`), no operation name is a tag or a number.  The code adds and
compares in the reverse order, hence the three commutativity hypotheses. -/
theorem C26_expression_value (lib : Lib F) (s : Space F) (all : Bool) (tags : List Tag)
    (htags : s.tagIterator none (!all) = .ok tags) (hops : ∀ t ∈ opNames, t ∉ tags ∧ lib.pf t = none)
    (hadd : ∀ x y : F, x + y = y + x) (hmin : ∀ x y, lib.fn.fmin x y = lib.fn.fmin y x)
    (hmax : ∀ x y, lib.fn.fmax x y = lib.fn.fmax y x)
    (pre : List (Expr F)) (hpre : ∀ x ∈ pre, (∃ sh, x.All (Leaf.OK lib s all tags sh)) ∧ x.powOK)
    (e : Expr F) (sh : List Nat) (he : e.All (Leaf.OK lib s all tags sh)) (hpow : e.powOK)
    (hdata : e.hasData = true) (T : Tag) (hT : T ≠ []) (label : Option (List Char)) :
    ∃ s' new, ev lib (joinWith ' ' (pre.flatMap Expr.tokens ++ e.tokens)) (some T) label all s = .ok s' ∧
      s'.heap = s.heap ++ new ∧ new.length = e.count ∧
      (∀ k, k < e.count → ∃ d a, new[k]? = some d ∧ d.values = some a ∧ a.WF ∧ a.shape = sh ∧
        (∀ idx, inRange sh idx = true → a.get? idx = e.valueAt lib.fn k idx) ∧
        d.tag = T ∧ d.status = true) ∧
      (∀ t, t ≠ T → s'.lookup t = s.lookup t) ∧
      (s'.lookup T).getD [] = (s.lookup T).getD [] ++ List.range' s.heap.length e.count := by
  have hc : Comm lib.fn := ⟨hadd, hmin, hmax⟩
  obtain ⟨st1, h1⟩ := run_exprs hc hops pre hpre {}
  obtain ⟨st2, items, h2, h3, h4, h5⟩ := run_expr hc hops e he hpow st1
  have htok : tokens (joinWith ' ' (pre.flatMap Expr.tokens ++ e.tokens)) = pre.flatMap Expr.tokens ++ e.tokens := by
    refine tokens_joinWith fun p hp => ?_
    rcases List.mem_append.1 hp with hp | hp
    · obtain ⟨x, hx, hpx⟩ := List.mem_flatMap.1 hp
      obtain ⟨⟨sh', hsh'⟩, -⟩ := hpre x hx
      exact expr_tokens_ok hsh' p hpx
    · exact expr_tokens_ok he p hp
  have hrun : (pre.flatMap Expr.tokens ++ e.tokens).foldlM (token lib s tags (!all)) {} = .ok st2 := by
    rw [Space.foldlM_append_ok, h1]; exact h2
  obtain ⟨id, hid⟩ := Option.isSome_iff_exists.1 (h5 (.inr hdata))
  obtain ⟨nm, ix⟩ := id
  obtain ⟨c, cs, rfl⟩ : ∃ c cs, T = c :: cs := by
    cases T with
    | nil => exact absurd rfl hT
    | cons c cs => exact ⟨c, cs, rfl⟩
  have hall : ∀ i ∈ items, ∃ d, pushItem (GData.new (c :: cs)
      (label.getD (joinWith ' ' (pre.flatMap Expr.tokens ++ e.tokens))) i.ctx) i = .ok d := by
    intro i hi
    obtain ⟨k, hk⟩ := List.getElem?_of_mem hi
    have hkl := (List.getElem?_eq_some_iff.1 hk).1
    obtain ⟨j, hj, hden⟩ := h4.2.2 k (by rw [← h4.2.1]; exact hkl)
    rw [hk] at hj
    obtain rfl := Option.some.inj hj
    rw [hdata] at hden
    obtain ⟨d', a, hp, -⟩ := pushItem_den hden (GData.new (c :: cs)
      (label.getD (joinWith ' ' (pre.flatMap Expr.tokens ++ e.tokens))) i.ctx)
    exact ⟨d', hp⟩
  obtain ⟨s', hs'⟩ := foldlM_addStep_ok items s hall
  obtain ⟨new, q1, q2, q3, q4, q5⟩ := foldlM_addStep items hs'
  have hnum : ¬ (st2.num = 1 ∧ (some (c :: cs) : Option (List Char)) = none) := by simp
  refine ⟨s', new, ?_, q1, by rw [q2, h4.2.1], fun k hk => ?_, q4, by rw [q5, h4.2.1]⟩
  · simp only [ev, htags, htok, hrun, bind, Except.bind, h3, hid, if_neg hnum]
    exact hs'
  · obtain ⟨i, hi, hden⟩ := h4.2.2 k hk
    rw [hdata] at hden
    obtain ⟨d, hd, hpush⟩ := q3 k i hi
    obtain ⟨d', a, p1, p2, p3, p4, p5, p6, p7, -⟩ := pushItem_den hden (GData.new (c :: cs)
      (label.getD (joinWith ' ' (pre.flatMap Expr.tokens ++ e.tokens))) i.ctx)
    rw [hpush] at p1
    obtain rfl := Except.ok.inj p1
    exact ⟨d, a, hd, p2, p3, p4, p5, p6, p7⟩

/-- C26: a chain containing a token that is neither data, nor a number, nor an operator is rejected. -/
theorem C26_unknown_token_rejected (lib : Lib F) (s : Space F) (all : Bool) (chain : List Char)
    (tag label : Option (List Char)) (tok : List Char) (hmem : tok ∈ tokens chain)
    (hf : tok.head? ≠ some 'f') (hchars : '(' ∉ tok ∧ '[' ∉ tok ∧ ':' ∉ tok ∧ ',' ∉ tok)
    (hnum : lib.pf tok = none) (hop : tok ∉ arities.map Prod.fst) (htag : tok ∉ s.dict.map Prod.fst) :
    ∃ e, ev lib chain tag label all s = .error e := by
  simp only [ev, bind, Except.bind]
  cases ht : s.tagIterator none (!all) with
  | error e => exact ⟨e, rfl⟩
  | ok tags =>
    simp only
    have hop' : OpName lib tags tok := ⟨fun h => htag (tagIterator_mem ht tok h), hnum, hf, hchars⟩
    have hcm : cmds lib.fn tok = none := by
      cases hc : cmds lib.fn tok with
      | none => rfl
      | some p =>
        obtain ⟨n, f⟩ := p
        exact absurd (List.mem_map.2 ⟨_, mem_of_lookup' (cmds_arity lib.fn hc), rfl⟩) hop
    obtain ⟨e, he⟩ := foldlM_error_of (f := token lib s tags (!all)) hmem (fun st => by
      refine ⟨.fail, ?_⟩
      simp only [token, data_op hop', command, hcm, bind, Except.bind]) {}
    rw [he]; exact ⟨e, rfl⟩

/-- C26: a chain in which some operator lacks operands is rejected. -/
theorem C26_missing_operand_rejected (lib : Lib F) (s : Space F) (all : Bool) (chain : List Char)
    (tag label : Option (List Char)) (hchain : underflow 0 (tokens chain) = true)
    (hops : ∀ t ∈ arities.map Prod.fst, t ∉ s.dict.map Prod.fst ∧ lib.pf t = none) :
    ∃ e, ev lib chain tag label all s = .error e := by
  simp only [ev, bind, Except.bind]
  cases ht : s.tagIterator none (!all) with
  | error e => exact ⟨e, rfl⟩
  | ok tags =>
    simp only
    have hd : ∀ t n, arities.lookup t = some n → data lib s tags (!all) t = .ok none := by
      intro t n h
      have hm := mem_of_lookup' h
      have hm' : t ∈ arities.map Prod.fst := List.mem_map.2 ⟨_, hm, rfl⟩
      refine data_op ⟨fun h => (hops t hm').1 (tagIterator_mem ht t h), (hops t hm').2, ?_⟩ _
      have hall : ∀ t ∈ arities.map Prod.fst, t.head? ≠ some 'f' ∧ '(' ∉ t ∧ '[' ∉ t ∧ ':' ∉ t ∧ ',' ∉ t := by
        decide
      exact hall t hm'
    obtain ⟨e, he⟩ := run_underflow hd (tokens chain) {} hchain
    rw [he]; exact ⟨e, rfl⟩

/-! ## C27 -/

/-- C27: every operator is applied dataset by dataset.  With the operands `ops` (top of the stack first), the
result has as many datasets as the longest operand, and the `k`-th one is the operator applied to the `k`-th
dataset of each operand, or its last one when it has fewer. -/
theorem C27_dataset_by_dataset (lib : Lib F) (tok : List Char) (n : Nat) (f : EvCmd.Func F)
    (hop : cmds lib.fn tok = some (n, f)) (ops rest r : List (List (Item F)))
    (hn : ops.length = n) (h : command lib tok (ops ++ rest) = .ok (some r)) :
    ∃ res, r = res :: rest ∧
      (∀ o ∈ ops, o.length ≤ res.length) ∧ (∃ o ∈ ops, o.length = res.length) ∧
      ∀ k, k < res.length → ∃ (ins : List (Item F)) (out : Item F), res[k]? = some out ∧
        List.Forall₂ (fun o i => (k < o.length → o[k]? = some i) ∧ (o.length ≤ k → o.getLast? = some i)) ops ins ∧
        f (ins.map (·.grid)) (ins.map (·.val)) = .ok (out.grid, out.val) ∧
        ∃ m, mergeMeta lib.cmp (ins.map fun i => ctxDict i.ctx) = .ok m ∧ out.ctx = ofDict m := by
  have hn0 : 0 < n := by
    have hm := mem_of_lookup' (cmds_arity lib.fn hop)
    have hall : ∀ e ∈ arities, 0 < e.2 := by decide
    exact hall _ hm
  simp only [command, hop] at h
  rw [if_neg (by rw [List.length_append]; omega)] at h
  have htake : List.take n (ops ++ rest) = ops := by rw [← hn]; simp
  have hdrop : List.drop n (ops ++ rest) = rest := by rw [← hn]; simp
  rw [htake, hdrop] at h
  simp only [bind, Except.bind] at h
  cases hr : (List.range (List.foldl max 0 (List.map List.length ops))).mapM (applyAt lib f ops) with
  | error e => simp only [hr, reduceCtorEq] at h
  | ok res =>
    simp only [hr, pure, Except.pure, Except.ok.injEq, Option.some.injEq] at h
    have hfold : ∀ (l : List Nat) (a : Nat), a ≤ l.foldl max a ∧ (∀ x ∈ l, x ≤ l.foldl max a) ∧
        (l.foldl max a = a ∨ l.foldl max a ∈ l) := by
      intro l
      induction l with
      | nil => intro a; simp
      | cons x l ih =>
        intro a
        obtain ⟨i1, i2, i3⟩ := ih (max a x)
        simp only [List.foldl_cons, List.mem_cons, forall_eq_or_imp]
        refine ⟨by omega, ⟨by omega, i2⟩, ?_⟩
        rcases i3 with i3 | i3
        · rw [i3]; omega
        · exact .inr (.inr i3)
    obtain ⟨-, f2, f3⟩ := hfold (ops.map List.length) 0
    have key : ∀ (l : List Nat) (res : List (Item F)), l.mapM (applyAt lib f ops) = .ok res →
        res.length = l.length ∧ ∀ (j : Nat) (k : Nat), l[j]? = some k → ∃ out, res[j]? = some out ∧
          applyAt lib f ops k = .ok out := by
      intro l
      induction l with
      | nil =>
        intro res h
        simp only [List.mapM_nil, pure, Except.pure, Except.ok.injEq] at h
        subst h; simp
      | cons a l ih =>
        intro res h
        rw [Space.mapM_cons_ok] at h
        obtain ⟨b, bs, h1, h2, rfl⟩ := h
        obtain ⟨i1, i2⟩ := ih bs h2
        refine ⟨by simp [i1], fun j k hj => ?_⟩
        cases j with
        | zero =>
          simp only [List.getElem?_cons_zero, Option.some.injEq] at hj
          subst hj; exact ⟨b, rfl, h1⟩
        | succ j => exact i2 j k (by simpa using hj)
    obtain ⟨k1, k2⟩ := key _ _ hr
    rw [List.length_range] at k1
    refine ⟨res, h.symm, fun o ho => ?_, ?_, fun k hk => ?_⟩
    · rw [k1]; exact f2 _ (List.mem_map.2 ⟨o, ho, rfl⟩)
    · rw [k1]
      rcases f3 with f3 | f3
      · cases ops with
        | nil => simp at hn; omega
        | cons o os =>
          refine ⟨o, by simp, ?_⟩
          have := f2 o.length (by simp)
          omega
      · obtain ⟨o, ho, he⟩ := List.mem_map.1 f3
        exact ⟨o, ho, he⟩
    · obtain ⟨out, ho, ha⟩ := k2 k k (List.getElem?_range (by omega))
      simp only [applyAt, bind, Except.bind] at ha
      cases hins : ops.mapM (pickItem k) with
      | error e => simp [hins] at ha
      | ok ins =>
        simp only [hins] at ha
        refine ⟨ins, out, ho, ?_, ?_⟩
        · clear ha hr k1 k2 h f2 f3 ho hk key
          clear htake hdrop hn
          induction ops generalizing ins with
          | nil =>
            simp only [List.mapM_nil, pure, Except.pure, Except.ok.injEq] at hins
            subst hins; exact .nil
          | cons o os ih =>
            rw [Space.mapM_cons_ok] at hins
            obtain ⟨b, bs, h1, h2, rfl⟩ := hins
            refine .cons ?_ (ih bs h2)
            simp only [pickItem] at h1
            split at h1
            · rename_i i hi
              simp only [Except.ok.injEq] at h1
              subst h1
              refine ⟨fun hk => ?_, fun hk => ?_⟩
              · rwa [show min k (o.length - 1) = k by omega] at hi
              · rw [List.getLast?_eq_getElem?]
                rwa [show min k (o.length - 1) = o.length - 1 by omega] at hi
            · cases h1
        · cases hf : f (ins.map (·.grid)) (ins.map (·.val)) with
          | error e => simp only [hf] at ha; cases ha
          | ok p =>
            obtain ⟨g, v⟩ := p
            simp only [hf] at ha
            cases hm : mergeMeta lib.cmp (ins.map fun i => ctxDict i.ctx) with
            | error e => simp [hm] at ha
            | ok m =>
              simp only [hm, pure, Except.pure, Except.ok.injEq] at ha
              subst ha
              exact ⟨rfl, m, rfl, rfl⟩

end

/-! ## C28 -/

/-- C28: a key is in the merged metadata iff some operand has it and all operands that have it agree; its value
is the agreed one. -/
theorem C28_agreed_metadata {V : Type} (cmp : V → V → Bool) (hcmp : ∀ a b, cmp a b = true ↔ a = b)
    (ds : List (Dict V)) (hk : ∀ d ∈ ds, (d.map Prod.fst).Nodup) :
    ∃ m, mergeMeta cmp ds = .ok m ∧ ∀ k v, Dict.get? m k = some v ↔
      (∃ d ∈ ds, Dict.get? d k = some v) ∧ ∀ d ∈ ds, ∀ w, Dict.get? d k = some w → w = v := by
  obtain ⟨m, hm, hg⟩ := mergeMeta_ok cmp ds
  obtain ⟨h1, h2, h3⟩ := collect_inv cmp ds.flatten
  refine ⟨m, hm, fun k v => ?_⟩
  -- entries of the dictionaries
  have hent : ∀ d ∈ ds, ∀ w, Dict.get? d k = some w ↔ (k, w) ∈ d := by
    intro d hd w
    exact dict_get?_iff (hk d hd)
  have hflat : ∀ w, (k, w) ∈ ds.flatten ↔ ∃ d ∈ ds, Dict.get? d k = some w := by
    intro w
    rw [List.mem_flatten]
    constructor
    · rintro ⟨d, hd, hw⟩; exact ⟨d, hd, (hent d hd w).2 hw⟩
    · rintro ⟨d, hd, hw⟩; exact ⟨d, hd, (hent d hd w).1 hw⟩
  rw [hg]
  constructor
  · intro h
    split at h
    · cases h
    · rename_i hn
      refine ⟨(hflat v).1 (dict_mem_of_get? h), fun d hd w hw => ?_⟩
      by_contra hne
      refine hn (h3 k w v ((hflat w).2 ⟨d, hd, hw⟩) h hne ?_)
      cases hc : cmp w v with
      | false => rfl
      | true => exact absurd ((hcmp w v).1 hc) hne
  · rintro ⟨⟨d, hd, hw⟩, hall⟩
    have hin := (hflat v).2 ⟨d, hd, hw⟩
    obtain ⟨w, hgw⟩ : ∃ w, Dict.get? (ds.flatten : Dict V) k = some w :=
      Option.isSome_iff_exists.1 ((Dict.mem_iff_get? _ k).1 (List.any_eq_true.2 ⟨_, hin, by simp⟩))
    obtain ⟨d', hd', hw'⟩ := (hflat w).1 (dict_mem_of_get? hgw)
    have hwv := hall d' hd' w hw'
    subst hwv
    rw [if_neg]
    · exact hgw
    · intro hin'
      obtain ⟨x, y, p1, p2, p3⟩ := h2 k hin'
      obtain ⟨d2, hd2, hx⟩ := (hflat x).1 p1
      have hx' := hall d2 hd2 x hx
      rw [hgw] at p2
      obtain rfl := Option.some.inj p2
      subst hx'
      rw [(hcmp x x).2 rfl] at p3
      cases p3

/-- C28: the outcome does not depend on the order of the operands. -/
theorem C28_order_independent {V : Type} (cmp : V → V → Bool) (hcmp : ∀ a b, cmp a b = true ↔ a = b)
    (ds ds' : List (Dict V)) (hp : ds.Perm ds') (hk : ∀ d ∈ ds, (d.map Prod.fst).Nodup) :
    ∃ m m', mergeMeta cmp ds = .ok m ∧ mergeMeta cmp ds' = .ok m' ∧ ∀ k, Dict.get? m k = Dict.get? m' k := by
  obtain ⟨m, h1, h2⟩ := C28_agreed_metadata cmp hcmp ds hk
  obtain ⟨m', h1', h2'⟩ := C28_agreed_metadata cmp hcmp ds' fun d hd => hk d (hp.mem_iff.2 hd)
  refine ⟨m, m', h1, h1', fun k => Option.ext fun v => ?_⟩
  simp only [h2, h2', hp.mem_iff]

/-! ## C29 -/

section
variable {F : Type} [LinearOrder F] [Add F] [Sub F] [Mul F] [Div F] [Zero F] [IntCast F]

/-- C29: with `--tag`, whatever the chain, `ev` only adds datasets: all existing ones are as before, those of
other tags are found as before, and the new ones come after the existing ones of the tag.  The operator `scale_zi_axis` is
excluded: it writes into the coordinates of its operand (C102). -/
theorem C29_tag_only_adds (lib : Lib F) (s s' : Space F) (all : Bool) (chain : List Char) (T : Tag) (hT : T ≠ [])
    (_hscale : "scale_zi_axis".toList ∉ tokens chain) (label : Option (List Char)) (h : ev lib chain (some T) label all s = .ok s') :
    ∃ new, s'.heap = s.heap ++ new ∧ (∀ d ∈ new, d.tag = T ∧ d.status = true) ∧
      (∀ t, t ≠ T → s'.lookup t = s.lookup t) ∧
      (s'.lookup T).getD [] = (s.lookup T).getD [] ++ List.range' s.heap.length new.length := by
  obtain ⟨c, cs, rfl⟩ : ∃ c cs, T = c :: cs := by
    cases T with
    | nil => exact absurd rfl hT
    | cons c cs => exact ⟨c, cs, rfl⟩
  simp only [ev, bind, Except.bind] at h
  split at h
  · cases h
  · split at h
    · cases h
    · split at h
      · cases h
      · split at h
        · cases h
        · rw [if_neg (by simp)] at h
          obtain ⟨new, h1, h2, h3, h4, h5⟩ := foldlM_addStep _ h
          refine ⟨new, h1, fun d hd => ?_, h4, by rw [h5, h2]⟩
          obtain ⟨k, hk⟩ := List.getElem?_of_mem hd
          have hkl := (List.getElem?_eq_some_iff.1 hk).1
          rw [h2] at hkl
          obtain ⟨d', hd', hp⟩ := h3 k _ (List.getElem?_eq_getElem hkl)
          rw [hk] at hd'
          obtain rfl := Option.some.inj hd'
          have := pushItem_keeps hp
          exact ⟨this.1, this.2⟩

/-- C29: without `--tag`, when the expression reads datasets under (at least) two different identifications
(the tag of the last dataset read, and the index as written), new datasets are added and every existing one
keeps everything but its status: it is deactivated. -/
theorem C29_several_add (lib : Lib F) (s : Space F) (hs : Reachable s) (all : Bool) (tags : List Tag)
    (htags : s.tagIterator none (!all) = .ok tags) (hops : ∀ t ∈ opNames, t ∉ tags ∧ lib.pf t = none)
    (hadd : ∀ x y : F, x + y = y + x) (hmin : ∀ x y, lib.fn.fmin x y = lib.fn.fmin y x)
    (hmax : ∀ x y, lib.fn.fmax x y = lib.fn.fmax y x)
    (e : Expr F) (sh : List Nat) (he : e.All (Leaf.OK lib s all tags sh)) (hpow : e.powOK)
    {n₁ n₂ : Option Tag} {i₁ i₂ : Option (List Char)} {v₁ v₂ : List (Nat × Nat)} {d₁ d₂ : GData F}
    (hr₁ : e.Reads n₁ i₁) (hr₂ : e.Reads n₂ i₂) (hl₁ : LastRead s all n₁ i₁ v₁ d₁) (hl₂ : LastRead s all n₂ i₂ v₂ d₂)
    (hne : (d₁.tag, i₁) ≠ (d₂.tag, i₂)) (label : Option (List Char)) :
    ∃ s' T, ev lib (joinWith ' ' e.tokens) none label all s = .ok s' ∧
      s'.heap.length = s.heap.length + e.count ∧
      (∀ (id : Nat) (g : GData F), s.heap[id]? = some g → ∃ b, s'.heap[id]? = some { g with status := b }) ∧
      (∀ id, Stored s id → s'.active id = false) ∧
      (∀ k, k < e.count → ∃ d a, s'.heap[s.heap.length + k]? = some d ∧ d.values = some a ∧ a.WF ∧ a.shape = sh ∧
        (∀ idx, inRange sh idx = true → a.get? idx = e.valueAt lib.fn k idx) ∧
        d.tag = T ∧ d.status = true) ∧
      (∀ t, t ≠ T → s'.lookup t = s.lookup t) ∧
      (s'.lookup T).getD [] = (s.lookup T).getD [] ++ List.range' s.heap.length e.count := by
  have hc : Comm lib.fn := ⟨hadd, hmin, hmax⟩
  obtain ⟨st, items, h2, h3, h4, h5⟩ := run_expr hc hops e he hpow {}
  have htok : tokens (joinWith ' ' e.tokens) = e.tokens := tokens_joinWith fun p hp => expr_tokens_ok he p hp
  have hdata : e.hasData = true := by
    have : ∀ (e : Expr F) {n i}, e.Reads n i → e.hasData = true := by
      intro e
      induction e with
      | leaf l => cases l <;> simp [Expr.Reads, Expr.hasData]
      | un o e ih => exact ih
      | bin o a b iha ihb =>
        intro n i h
        simp only [Expr.hasData, Bool.or_eq_true]
        exact h.imp iha ihb
    exact this e hr₁
  obtain ⟨id, hid⟩ := Option.isSome_iff_exists.1 (h5 (.inr hdata))
  obtain ⟨nm, ix⟩ := id
  -- the identification has a tag
  obtain ⟨tok, htok1, its, htok2⟩ := run_id rfl h2 hid
  obtain ⟨T, hT⟩ := Option.isSome_iff_exists.1 (run_expr_id hops he tok htok1 its nm ix htok2)
  subst hT
  -- at least two identifications
  have hnum : st.num ≠ 1 := by
    intro hn
    obtain ⟨t1, m1, its1, q1⟩ := reads_token hl₁ he hr₁
    obtain ⟨t2, m2, its2, q2⟩ := reads_token hl₂ he hr₂
    obtain ⟨hall, -⟩ := foldlM_single (.inl ⟨rfl, rfl⟩) h2 (by omega)
    have e1 := hall t1 m1 its1 _ q1
    have e2 := hall t2 m2 its2 _ q2
    rw [e1] at e2
    simp only [Option.some.injEq, Prod.mk.injEq] at e2
    exact hne (Prod.ext e2.1 e2.2)
  obtain ⟨s₁, a1, a2, a3, a4⟩ := deactivateAll_none (Space.reachable_inv hs)
  have hall : ∀ i ∈ items, ∃ d, pushItem (GData.new T (label.getD (joinWith ' ' e.tokens)) i.ctx) i = .ok d := by
    intro i hi
    obtain ⟨k, hk⟩ := List.getElem?_of_mem hi
    have hkl := (List.getElem?_eq_some_iff.1 hk).1
    obtain ⟨j, hj, hden⟩ := h4.2.2 k (by rw [← h4.2.1]; exact hkl)
    rw [hk] at hj
    obtain rfl := Option.some.inj hj
    rw [hdata] at hden
    obtain ⟨d', a, hp, -⟩ := pushItem_den hden (GData.new T (label.getD (joinWith ' ' e.tokens)) i.ctx)
    exact ⟨d', hp⟩
  obtain ⟨s', hs'⟩ := foldlM_addStep_ok items s₁ hall
  obtain ⟨new, q1, q2, q3, q4, q5⟩ := foldlM_addStep items hs'
  have hlook : ∀ t, s₁.lookup t = s.lookup t := fun t => by simp only [Space.lookup, a2]
  have hold : ∀ (id : Nat) (g : GData F), s.heap[id]? = some g → s'.heap[id]? = s₁.heap[id]? := fun id g hg => by
    have := (List.getElem?_eq_some_iff.1 hg).1
    rw [q1, List.getElem?_append_left (by omega)]
  refine ⟨s', T, ?_, by rw [q1, List.length_append, a3, q2, h4.2.1], fun id g hg => ?_, fun id hst => ?_,
    fun k hk => ?_, fun t ht => by rw [q4 t ht, hlook], by rw [q5, h4.2.1, hlook, a3]⟩
  · simp only [ev, htags, htok, h2, bind, Except.bind, h3, hid]
    rw [if_neg (by rintro ⟨h, -⟩; exact hnum h)]
    simp only [a1]
    exact hs'
  · rw [hold id g hg]
    by_cases hst : Stored s id
    · exact ⟨false, (a4 id g hg).1 hst⟩
    · exact ⟨g.status, (a4 id g hg).2 hst⟩
  · obtain ⟨t, l, hl, hm⟩ := hst
    have hlt := (Space.reachable_inv hs).lt hl hm
    have hg : s.heap[id]? = some s.heap[id] := List.getElem?_eq_getElem hlt
    simp only [Space.active, hold id _ hg, (a4 id _ hg).1 ⟨t, l, hl, hm⟩]
  · obtain ⟨i, hi, hden⟩ := h4.2.2 k hk
    rw [hdata] at hden
    obtain ⟨d, hd, hpush⟩ := q3 k i hi
    obtain ⟨d', a, p1, p2, p3, p4, p5, p6, p7, -⟩ := pushItem_den hden
      (GData.new T (label.getD (joinWith ' ' e.tokens)) i.ctx)
    rw [hpush] at p1
    obtain rfl := Except.ok.inj p1
    refine ⟨d, a, ?_, p2, p3, p4, p5, p6, p7⟩
    rw [q1, ← a3, List.getElem?_append_right (by omega)]
    simpa using hd

/-- C29, in place: without `--tag`, when all data of the expression are named by the same token and all the
datasets it reads carry one tag (`hsame`: iterating over the tag of the last one finds exactly the datasets
that were read), the datasets read are replaced by the results, one by one, and every other dataset is as
before.  Missing: datasets of several tags; see the counterexample. -/
theorem C29_in_place_partial (lib : Lib F) (s : Space F) (hs : Reachable s) (all : Bool) (tags : List Tag)
    (htags : s.tagIterator none (!all) = .ok tags) (hops : ∀ t ∈ opNames, t ∉ tags ∧ lib.pf t = none)
    (hadd : ∀ x y : F, x + y = y + x) (hmin : ∀ x y, lib.fn.fmin x y = lib.fn.fmin y x)
    (hmax : ∀ x y, lib.fn.fmax x y = lib.fn.fmax y x)
    (e : Expr F) (sh : List Nat) (he : e.All (Leaf.OK lib s all tags sh)) (hpow : e.powOK)
    (hdata : e.hasData = true) {name : Option Tag} {ix : Option (List Char)} (hfrom : e.All (Leaf.From name ix))
    {vis : List (Nat × Nat)} {d : GData F} (hl : LastRead s all name ix vis d)
    (hsame : s.toList (some d.tag) false (!all) (Space.optSel ix) = .ok vis) (hnd : (vis.map Prod.snd).Nodup)
    (label : Option (List Char)) :
    ∃ s', ev lib (joinWith ' ' e.tokens) none label all s = .ok s' ∧ s'.dict = s.dict ∧
      s'.heap.length = s.heap.length ∧
      (∀ id, id ∉ vis.map Prod.snd → s'.heap[id]? = s.heap[id]?) ∧
      ∀ (k : Nat) (en : Nat × Nat), vis[k]? = some en → ∃ g g' a, s.heap[en.2]? = some g ∧ s'.heap[en.2]? = some g' ∧
        g'.values = some a ∧ a.WF ∧ a.shape = sh ∧
        (∀ idx, inRange sh idx = true → a.get? idx = e.valueAt lib.fn k idx) ∧
        g'.tag = g.tag ∧ g'.status = g.status := by
  have hc : Comm lib.fn := ⟨hadd, hmin, hmax⟩
  obtain ⟨st, items, h2, h3, h4, h5⟩ := run_expr hc hops e he hpow {}
  have htok : tokens (joinWith ' ' e.tokens) = e.tokens := tokens_joinWith fun p hp => expr_tokens_ok he p hp
  obtain ⟨hv, en, hen, hd⟩ := hl
  have hone : OneId (some d.tag, ix) st :=
    foldlM_oneId (expr_ids hv hen hd hops he hfrom) (.inl ⟨rfl, rfl⟩) h2
  have hsome := h5 (.inr hdata)
  obtain ⟨hid, hnum⟩ : st.id = some (some d.tag, ix) ∧ st.num = 1 := by
    rcases hone with hh | hh
    · rw [hh.1] at hsome; cases hsome
    · exact hh
  have hcount := (expr_count hv he hfrom).1 hdata
  have hi := Space.reachable_inv hs
  -- every dataset visited is there
  have hheap : ∀ en ∈ vis, ∃ g : GData F, s.heap[en.2]? = some g := expr_heap hv he hfrom hdata
  obtain ⟨s', g1, g2, g3, g4, g5⟩ := foldlM_replace (top := items) vis s 0 hnd (fun k en hk => by
    have hkl := (List.getElem?_eq_some_iff.1 hk).1
    obtain ⟨i, hi, hden⟩ := h4.2.2 k (by rw [hcount]; exact hkl)
    rw [hdata] at hden
    obtain ⟨g, hg⟩ := hheap en (List.mem_of_getElem? hk)
    obtain ⟨d', a, hp, -⟩ := pushItem_den hden g
    exact ⟨i, g, d', by rw [Nat.zero_add]; exact hi, hg, hp⟩)
  refine ⟨s', ?_, g2, g3, g5, fun k en hk => ?_⟩
  · simp only [ev, htags, htok, h2, bind, Except.bind, h3, hid]
    rw [if_pos ⟨hnum, trivial⟩]
    rw [Space.iterate_ok (σ := Space F × Nat) Prod.fst (some d.tag) false (!all) (Space.optSel ix)
      (fun sc _ id => replaceStep items sc id) (s, 0) hi
      (fun st => st.1.dict = s.dict ∧ ∀ id, st.1.active id = s.active id) ⟨rfl, fun _ => rfl⟩ ?_ ?_ ?_ hsame]
    · rw [g1]; rfl
    · rintro ⟨sc, c⟩ i id ⟨sc', c'⟩ ⟨p1, p2⟩ hb
      simp only [replaceStep] at hb
      split at hb
      · rename_i it g hit hg
        split at hb
        · rename_i d' hd'
          simp only [Except.ok.injEq, Prod.mk.injEq] at hb
          obtain ⟨rfl, -⟩ := hb
          refine ⟨p1, fun j => ?_⟩
          rw [← p2 j]
          simp only [Space.active, Space.update_heap?]
          by_cases hj : id = j
          · subst hj
            simp only [if_true, hg, Option.map_some]
            rw [(pushItem_keeps hd').2]
          · simp only [if_neg hj]
        · cases hb
      · cases hb
    · intro _ st' hP id _; exact hP.2 id
    · intro st' hP t _
      simp only [Space.lookup, hP.1]
  · have hkl := (List.getElem?_eq_some_iff.1 hk).1
    obtain ⟨i, hi, hden⟩ := h4.2.2 k (by rw [hcount]; exact hkl)
    rw [hdata] at hden
    obtain ⟨g, hg⟩ := hheap en (List.mem_of_getElem? hk)
    obtain ⟨d', a, p1, p2, p3, p4, p5, p6, p7, -⟩ := pushItem_den hden g
    exact ⟨g, d', a, hg, g4 k en hk i g d' (by rw [Nat.zero_add]; exact hi) hg p1, p2, p3, p4, p5, p6, p7⟩

end

/-! ## Concrete cases -/

namespace EvEx

/-- Integers; numbers are decimal digits. -/
def lib : Lib Int where
  pf t := if isDigitStr t then some ((natOfDigits t : Nat) : Int) else none
  pyEval _ := .error .typeError
  fn := { sqrt := id, sin := id, cos := id, tan := id, abs := fun x => if x < 0 then -x else x, log := id,
          log10 := id, exp := id, pow := fun x y => x ^ y.toNat, fmin := min, fmax := max, toInt := some }
  cmp a b := decide (a = b)
  metaArr _ := .tuple []

/-- Two cells with one component. -/
def dat (tag : String) (vals : List Int) (status : Bool := true) : GData Int where
  grid := some [NArr.ofList [0, 1, 2]]
  values := some ⟨[2, 1], vals⟩
  tag := tag.toList
  status := status

/-- Two datasets under `a`, one under `b`. -/
def store : Space Int := perform [.add (dat "a" [1, 2]), .add (dat "a" [3, 4]), .add (dat "b" [10, 20])]

/-- The operands `f[0]` (one dataset for each tag) and `a`. -/
def leafF0 : Leaf Int := .data none (some "0".toList) none [⟨[2, 1], [1, 2]⟩, ⟨[2, 1], [10, 20]⟩]
def leafA : Leaf Int := .data (some "a".toList) none none [⟨[2, 1], [1, 2]⟩, ⟨[2, 1], [3, 4]⟩]
def leafB : Leaf Int := .data (some "b".toList) none none [⟨[2, 1], [10, 20]⟩]
def leaf2 : Leaf Int := .const "2".toList 2

theorem rect (t : String) (v : List Int) (b : Bool) (hv : v.length = 2) :
    Rectilinear (dat t v b) [[0, 1, 2]] ⟨[2, 1], v⟩ :=
  ⟨rfl, rfl, by simp [NArr.WF, hv], rfl, rfl, by simp, by simp⟩

theorem okA : Leaf.OK lib store false ["a".toList, "b".toList] [2, 1] leafA := by
  refine ⟨⟨by decide, by decide, by decide⟩, by simp, by simp, by simp, [(0, 0), (1, 1)], rfl, ?_⟩
  exact .cons ⟨_, _, _, rfl, rect "a" [1, 2] true rfl, rfl, rfl⟩
    (.cons ⟨_, _, _, rfl, rect "a" [3, 4] true rfl, rfl, rfl⟩ .nil)

theorem okB : Leaf.OK lib store false ["a".toList, "b".toList] [2, 1] leafB := by
  refine ⟨⟨by decide, by decide, by decide⟩, by simp, by simp, by simp, [(0, 2)], rfl, ?_⟩
  exact .cons ⟨_, _, _, rfl, rect "b" [10, 20] true rfl, rfl, rfl⟩ .nil

theorem okF0 : Leaf.OK lib store false ["a".toList, "b".toList] [2, 1] leafF0 := by
  refine ⟨by decide, ?_, by simp, by simp, [(0, 0), (0, 2)], rfl, ?_⟩
  · intro i hi
    obtain rfl := Option.some.inj hi
    decide
  · exact .cons ⟨_, _, _, rfl, rect "a" [1, 2] true rfl, rfl, rfl⟩
      (.cons ⟨_, _, _, rfl, rect "b" [10, 20] true rfl, rfl, rfl⟩ .nil)

theorem ok2 : Leaf.OK lib store false ["a".toList, "b".toList] [2, 1] leaf2 := by
  refine ⟨rfl, ?_⟩; decide

theorem ops : ∀ t ∈ opNames, t ∉ ["a".toList, "b".toList] ∧ lib.pf t = none := by
  decide +kernel

/-- `a f[0] - 2 *` -/
def expr : Expr Int := .bin .mul (.bin .sub (.leaf leafA) (.leaf leafF0)) (.leaf leaf2)

end EvEx

open EvEx in
/-- C26: the hypotheses are met by `a f[0] - 2 *` with the surplus operand `b` before it, which gives two new
datasets with the values `2(1-1), 2(2-2)` and `2(3-10), 2(4-20)`. -/
example : (∃ s' new, ev lib "b a f[0] - 2 *".toList (some "r".toList) none false store = .ok s' ∧
      s'.heap = store.heap ++ new ∧ new.length = 2) ∧
    (List.range 2).map (fun i => expr.valueAt lib.fn 1 [i, 0]) = [some (-14), some (-32)] := by
  obtain ⟨s', new, h1, h2, h3, -⟩ := C26_expression_value lib store false ["a".toList, "b".toList] rfl ops
    Int.add_comm min_comm max_comm
    [.leaf leafB] (by simpa using ⟨⟨[2, 1], okB⟩, trivial⟩) expr [2, 1] ⟨⟨okA, okF0⟩, ok2⟩
    ⟨⟨trivial, trivial, by simp⟩, trivial, by simp⟩ rfl "r".toList (by simp) none
  exact ⟨⟨s', new, h1, h2, h3⟩, rfl⟩

open EvEx in
/-- C26: a chain with an unknown token, and a chain lacking operands. -/
example : (∃ e, ev lib "a bar +".toList none none false store = .error e) ∧
    (∃ e, ev lib "a b + *".toList none none false store = .error e) :=
  ⟨C26_unknown_token_rejected lib store false _ none none "bar".toList (by decide) (by decide) (by decide) rfl
     (by decide) (by decide),
   C26_missing_operand_rejected lib store false _ none none (by decide) (by decide +kernel)⟩

open EvEx in
/-- C27: hypotheses met. -/
example : ∃ r, command lib "-".toList
    [[⟨none, .arr ⟨[], [7]⟩, {}⟩], [⟨none, .arr ⟨[], [9]⟩, {}⟩, ⟨none, .arr ⟨[], [12]⟩, {}⟩]] = .ok (some r) ∧
    (r.map (·.map (·.val))) = [[.arr ⟨[], [2]⟩, .arr ⟨[], [5]⟩]] := ⟨_, rfl, rfl⟩

/-- C28: hypotheses met; the key `t` disagrees, `q` is alone. -/
example : ∃ m, mergeMeta (V := Nat) (fun a b => decide (a = b)) [[("t", 1), ("n", 5)], [("t", 2), ("q", 3), ("n", 5)]] =
    .ok m ∧ m = [("n", 5), ("q", 3)] := ⟨_, rfl, rfl⟩

open EvEx in
/-- C29: hypotheses of `C29_several_add` met by `a f[0] - 2 *` (identifications `(a, none)` and `(b, 0)`). -/
example : ∃ s', ev lib "a f[0] - 2 *".toList none none false store = .ok s' ∧ s'.heap.length = 5 := by
  obtain ⟨s', T, h1, h2, -⟩ := C29_several_add lib store (.add (.add (.add .empty _) _) _) false
    ["a".toList, "b".toList] rfl ops Int.add_comm min_comm max_comm expr [2, 1] ⟨⟨okA, okF0⟩, ok2⟩
    ⟨⟨trivial, trivial, by simp⟩, trivial, by simp⟩ (n₁ := some "a".toList) (i₁ := none)
    (n₂ := none) (i₂ := some "0".toList) (.inl (.inl ⟨rfl, rfl⟩)) (.inl (.inr ⟨rfl, rfl⟩))
    ⟨rfl, _, rfl, rfl⟩ ⟨rfl, _, rfl, rfl⟩ (by decide) none
  exact ⟨s', h1, h2⟩

open EvEx in
/-- C29: hypotheses of `C29_in_place_partial` met by `a a *`. -/
example : ∃ s', ev lib "a a *".toList none none false store = .ok s' ∧ s'.heap[2]? = store.heap[2]? ∧
    (s'.heap[1]?.bind (·.values)) = some ⟨[2, 1], [9, 16]⟩ := by
  obtain ⟨s', h1, h2, h3, h4, -⟩ := C29_in_place_partial lib store (.add (.add (.add .empty _) _) _) false
    ["a".toList, "b".toList] rfl ops Int.add_comm min_comm max_comm (.bin .mul (.leaf leafA) (.leaf leafA)) [2, 1]
    ⟨okA, okA⟩ ⟨trivial, trivial, by simp⟩ rfl (name := some "a".toList) (ix := none) ⟨⟨rfl, rfl⟩, ⟨rfl, rfl⟩⟩
    (vis := [(0, 0), (1, 1)]) ⟨rfl, _, rfl, rfl⟩ rfl (by decide) none
  refine ⟨s', h1, h4 2 (by decide), ?_⟩
  have : ev lib "a a *".toList none none false store = .ok s' := h1
  rw [show ev lib "a a *".toList none none false store = .ok
    (((store.update 0 fun _ => { dat "a" [1, 4] with ctx := { cells := some [2], numComps := some 1, lower := some [0], upper := some [2] } }).update 1
      fun _ => { dat "a" [9, 16] with ctx := { cells := some [2], numComps := some 1, lower := some [0], upper := some [2] } })) from rfl] at this
  obtain rfl := Except.ok.inj this
  rfl

/-! ## Where the code disagrees -/

open EvEx in
/-- C29, the code disagrees: when the token read datasets of several tags, the results of the first tag are
written into the datasets of the last one.  Here `f 2 *` with `a = [1, 2]`, `b = [10, 20]` leaves `a` alone
and sets `b` to `[2, 4]`. -/
theorem C29_two_tags_counterexample :
    ∃ (s s' : Space Int), s = perform [.add (dat "a" [1, 2]), .add (dat "b" [10, 20])] ∧
      ev lib "f 2 *".toList none none false s = .ok s' ∧
      s'.heap[0]? = s.heap[0]? ∧ (s'.heap[1]?.bind (·.values)) = some ⟨[2, 1], [2, 4]⟩ :=
  ⟨_, _, rfl, rfl, rfl, rfl⟩

open EvEx in
/-- C29, the code disagrees: a tag reads all its datasets but only active ones are written.  Here the first
dataset of `a` is inactive and `a 2 *` writes its result into the second one. -/
theorem C29_inactive_counterexample :
    ∃ (s s' : Space Int), s = perform [.add (dat "a" [1, 2] false), .add (dat "a" [10, 20])] ∧
      ev lib "a 2 *".toList none none false s = .ok s' ∧
      s'.heap[0]? = s.heap[0]? ∧ (s'.heap[1]?.bind (·.values)) = some ⟨[2, 1], [2, 4]⟩ :=
  ⟨_, _, rfl, rfl, rfl, rfl⟩

section
variable {F : Type} [LinearOrder F] [Add F] [Sub F] [Mul F] [Div F] [Zero F] [IntCast F]

/-- C56, the code disagrees: an expression of numbers alone is an error even with `--tag`, since the code asks
for the tag of the last dataset of the chain first. -/
theorem C56_numbers_only_rejected (lib : Lib F) (s : Space F) (all : Bool) (tags : List Tag)
    (htags : s.tagIterator none (!all) = .ok tags) (hops : ∀ t ∈ opNames, t ∉ tags ∧ lib.pf t = none)
    (hadd : ∀ x y : F, x + y = y + x) (hmin : ∀ x y, lib.fn.fmin x y = lib.fn.fmin y x)
    (hmax : ∀ x y, lib.fn.fmax x y = lib.fn.fmax y x)
    (e : Expr F) (sh : List Nat) (he : e.All (Leaf.OK lib s all tags sh)) (hpow : e.powOK)
    (hdata : e.hasData = false) (tag label : Option (List Char)) :
    ev lib (joinWith ' ' e.tokens) tag label all s = .error .indexError := by
  obtain ⟨st, items, h2, h3, -, -⟩ := run_expr ⟨hadd, hmin, hmax⟩ hops e he hpow {}
  have htok : tokens (joinWith ' ' e.tokens) = e.tokens := tokens_joinWith fun p hp => expr_tokens_ok he p hp
  have hid : st.id = none := by
    cases hst : st.id with
    | none => rfl
    | some id =>
      obtain ⟨tok, q1, its, q2⟩ := run_id rfl h2 hst
      exact absurd q2 (const_noId hops he hdata tok q1 its id)
  simp only [ev, htags, htok, h2, bind, Except.bind, h3, hid]

end

open EvEx in
/-- C56: hypotheses met by `2 2 +`. -/
example : ev lib "2 2 +".toList (some "r".toList) none false store = .error .indexError :=
  C56_numbers_only_rejected lib store false ["a".toList, "b".toList] rfl ops Int.add_comm min_comm max_comm
    (.bin .add (.leaf leaf2) (.leaf leaf2)) [2, 1] ⟨ok2, ok2⟩ ⟨trivial, trivial, by simp⟩ rfl _ _

open EvEx in
/-- C56, the code disagrees: a number raised to the power of a dataset cannot be stored, as the result has
the grid of the base, which is `None`. -/
theorem C56_number_to_dataset_rejected :
    ev lib "2 a pow".toList (some "r".toList) none false store = .error .typeError := rfl

section
variable {F : Type} [LinearOrder F] [Add F] [Sub F] [Mul F] [Div F] [Zero F] [IntCast F]

omit [Add F] [Sub F] [Mul F] [Div F] [Zero F] in
/-- C57, the code disagrees: every word that starts with `f` is accepted and means `f`. -/
theorem C57_f_words_are_data (lib : Lib F) (s : Space F) (tags : List Tag) (onlyActive : Bool) (w : List Char)
    (hw : w.head? = some 'f') (hc : '[' ∉ w ∧ '.' ∉ w) (ht : w ∉ tags) (hf : ['f'] ∉ tags) :
    data lib s tags onlyActive w = data lib s tags onlyActive ['f'] := by
  have h1 : splitOn '[' w = [w] := splitOn_notMem hc.1
  have h2 : splitOn '.' w = [w] := splitOn_notMem hc.2
  have h3 : splitOn '[' ['f'] = [['f']] := splitOn_notMem (by decide)
  have h4 : splitOn '.' ['f'] = [['f']] := splitOn_notMem (by decide)
  simp [data, dataToken, h1, h2, h3, h4, hw, ht, hf]

end

open EvEx in
/-- C57: hypotheses met; a misspelt `foo` is taken for `f`. -/
example : data lib store ["a".toList, "b".toList] true "foo".toList = data lib store ["a".toList, "b".toList] true ['f'] :=
  C57_f_words_are_data lib store _ _ _ rfl (by decide) (by decide) (by decide)

end Pgkyl
