import Verif.Lemmas.EvKeep
/-! # C134: grid and metadata of the result of an `ev` expression -/

namespace Pgkyl
open Ev Spec

section
variable {F : Type} [LinearOrder F] [Add F] [Sub F] [Mul F] [Div F] [Zero F] [IntCast F]

/-- C134 (partial): the `k`-th dataset that `ev --tag T` makes from an expression, however deep, lies on the grid
of the datasets it was made from when they share one; its size entries are those of its values; a metadata
entry that some of them have and on which
all that have it agree is kept; and no entry is invented: each is that of one of these datasets.

Missing: that an entry on which they disagree is dropped.  This holds for one operator (C28) but not
for an expression: see `C134_disagreement_fails`. -/
theorem C134_grid_and_metadata_partial (lib : Lib F) (s s' : Space F) (all : Bool) (tags : List Tag)
    (htags : s.tagIterator none (!all) = .ok tags) (hops : ∀ t ∈ opNames, t ∉ tags ∧ lib.pf t = none)
    (hadd : ∀ x y : F, x + y = y + x) (hmin : ∀ x y, lib.fn.fmin x y = lib.fn.fmin y x)
    (hmax : ∀ x y, lib.fn.fmax x y = lib.fn.fmax y x) (hcmp : ∀ a b, lib.cmp a b = true ↔ a = b)
    (pre : List (Expr F)) (hpre : ∀ x ∈ pre, (∃ sh, x.All (Leaf.OK lib s all tags sh)) ∧ x.powOK)
    (e : Expr F) (sh : List Nat) (he : e.All (Leaf.OK lib s all tags sh)) (hpow : e.powOK)
    (hdata : e.hasData = true) (hmeta : ∀ k d, e.Uses s all k d → ProperMeta d.ctx)
    (T : Tag) (hT : T ≠ []) (label : Option (List Char))
    (h : ev lib (joinWith ' ' (pre.flatMap Expr.tokens ++ e.tokens)) (some T) label all s = .ok s') :
    ∀ k, k < e.count → ∃ d', s'.heap[s.heap.length + k]? = some d' ∧ (∃ d, e.Uses s all k d) ∧
      ProperMeta d'.ctx ∧ d'.ctx.cells = some sh.dropLast ∧ d'.ctx.numComps = sh.getLast? ∧
      (∀ G, (∀ d, e.Uses s all k d → d.grid = some G) → d'.grid = some G) ∧
      (∀ key v, (∃ d, e.Uses s all k d ∧ Dict.get? d.ctx.other key = some v) →
        (∀ d, e.Uses s all k d → ∀ w, Dict.get? d.ctx.other key = some w → w = v) →
        Dict.get? d'.ctx.other key = some v) ∧
      (∀ key v, Dict.get? d'.ctx.other key = some v →
        ∃ d, e.Uses s all k d ∧ Dict.get? d.ctx.other key = some v) := by
  have hc : Comm lib.fn := ⟨hadd, hmin, hmax⟩
  obtain ⟨st1, h1⟩ := run_exprs hc hops pre hpre {}
  obtain ⟨st2, items, h2, h3, h4, h5⟩ := run_expr hc hops e he hpow st1
  obtain ⟨st2', items', h2', h3', -, hkeep⟩ := run_keep hcmp hc hops e he hpow hmeta st1
  rw [h2] at h2'
  obtain rfl := Except.ok.inj h2'
  rw [h3] at h3'
  obtain rfl := (List.cons.inj h3').1
  have htok : tokens (joinWith ' ' (pre.flatMap Expr.tokens ++ e.tokens)) = pre.flatMap Expr.tokens ++ e.tokens := by
    refine tokens_joinWith fun p hp => ?_
    rcases List.mem_append.1 hp with hp | hp
    · obtain ⟨x, hx, hpx⟩ := List.mem_flatMap.1 hp
      obtain ⟨⟨sh', hsh'⟩, -⟩ := hpre x hx
      exact expr_tokens_ok hsh' p hpx
    · exact expr_tokens_ok he p hp
  have hrun : (pre.flatMap Expr.tokens ++ e.tokens).foldlM (token lib s tags (!all)) {} = .ok st2 := by
    rw [Space.foldlM_append_ok, h1]; exact h2
  obtain ⟨⟨nm, ix⟩, hid⟩ := Option.isSome_iff_exists.1 (h5 (.inr hdata))
  obtain ⟨c, cs, rfl⟩ : ∃ c cs, T = c :: cs := by
    cases T with
    | nil => exact absurd rfl hT
    | cons c cs => exact ⟨c, cs, rfl⟩
  have hnum : ¬ (st2.num = 1 ∧ (some (c :: cs) : Option (List Char)) = none) := by simp
  simp only [ev, htags, htok, hrun, bind, Except.bind, h3, hid, if_neg hnum] at h
  obtain ⟨new, q1, q2, q3, -, -⟩ := foldlM_addStep items h
  intro k hk
  obtain ⟨i, hi, hden⟩ := h4.2.2 k hk
  rw [hdata] at hden
  obtain ⟨d, hd, hpush⟩ := q3 k i hi
  have hK := hkeep k i hi
  obtain ⟨a, ha, ht, -⟩ := hden
  obtain ⟨p1, p2, p3, gr, hgr, hgl, ⟨l, hl⟩, ⟨u, hu⟩⟩ := ht rfl
  have hne : sh ≠ [] := by intro e; rw [e] at hgl; simp at hgl
  obtain ⟨nc, hnc⟩ : ∃ nc, a.shape.getLast? = some nc := by
    rw [p1]; exact ⟨_, List.getLast?_eq_some_getLast hne⟩
  have hp := GData.push_ok (d := GData.new (c :: cs)
    (label.getD (joinWith ' ' (pre.flatMap Expr.tokens ++ e.tokens))) i.ctx) hnc (by rw [p1]; exact hl) (by rw [p1]; exact hu)
  have hpi : pushItem (GData.new (c :: cs) (label.getD (joinWith ' ' (pre.flatMap Expr.tokens ++ e.tokens))) i.ctx) i =
      (GData.new (c :: cs) (label.getD (joinWith ' ' (pre.flatMap Expr.tokens ++ e.tokens))) i.ctx).push gr a := by
    simp only [pushItem, ha, hgr]
  rw [hpi, hp] at hpush
  have hex := uses_exists k e he hdata
  have hother : d.ctx.other = i.ctx.other := by rw [← Except.ok.inj hpush]; rfl
  have hg : d.grid = i.grid := by rw [← Except.ok.inj hpush, hgr]
  refine ⟨d, ?_, hex, ?_, by rw [← Except.ok.inj hpush, ← p1], by rw [← Except.ok.inj hpush, ← p1, hnc], fun G hG => by rw [hg]; exact hK.grid G hex hG, fun key v => ?_, fun key v => ?_⟩
  · rw [q1, List.getElem?_append_right (by omega), Nat.add_sub_cancel_left]; exact hd
  · simp only [ProperMeta, hother]; exact hK.proper
  · rw [hother]; exact hK.agreed key v
  · rw [hother]; exact hK.origin key v

end

/-! ## Disagreement, and concrete cases -/

namespace EvKeepEx

/-- Two cells with one component, at a time. -/
def dat (tag : String) (vals : List Int) (time : String) : GData Int where
  grid := some [NArr.ofList [0, 1, 2]]
  values := some ⟨[2, 1], vals⟩
  ctx := { other := [("time", time), ("basis_type", "serendipity")] }
  tag := tag.toList

def store : Space Int := perform [.add (dat "a" [1, 2] "1"), .add (dat "b" [3, 4] "2"), .add (dat "c" [10, 20] "3")]

def tags : List Tag := ["a".toList, "b".toList, "c".toList]

def leaf (t : String) (vals : List Int) : Leaf Int := .data (some t.toList) none none [⟨[2, 1], vals⟩]

/-- `a b + c +` -/
def expr : Expr Int := .bin .add (.bin .add (.leaf (leaf "a" [1, 2])) (.leaf (leaf "b" [3, 4]))) (.leaf (leaf "c" [10, 20]))

theorem rect (t : String) (v : List Int) (m : String) (hv : v.length = 2) :
    Rectilinear (dat t v m) [[0, 1, 2]] ⟨[2, 1], v⟩ :=
  ⟨rfl, rfl, by simp [NArr.WF, hv], rfl, rfl, by simp, by simp⟩

theorem ok : expr.All (Leaf.OK EvEx.lib store false tags [2, 1]) := by
  refine ⟨⟨?_, ?_⟩, ?_⟩
  · exact ⟨⟨by decide, by decide, by decide⟩, by simp, by simp, by simp, [(0, 0)], rfl,
      .cons ⟨_, _, _, rfl, rect "a" [1, 2] "1" rfl, rfl, rfl⟩ .nil⟩
  · exact ⟨⟨by decide, by decide, by decide⟩, by simp, by simp, by simp, [(0, 1)], rfl,
      .cons ⟨_, _, _, rfl, rect "b" [3, 4] "2" rfl, rfl, rfl⟩ .nil⟩
  · exact ⟨⟨by decide, by decide, by decide⟩, by simp, by simp, by simp, [(0, 2)], rfl,
      .cons ⟨_, _, _, rfl, rect "c" [10, 20] "3" rfl, rfl, rfl⟩ .nil⟩

theorem heap : ∀ d ∈ store.heap, ∃ t v m, d = dat t v m := by
  intro d hd
  have : store.heap = [dat "a" [1, 2] "1", dat "b" [3, 4] "2", dat "c" [10, 20] "3"] := rfl
  rw [this] at hd
  simp only [List.mem_cons, List.not_mem_nil, or_false] at hd
  rcases hd with rfl | rfl | rfl
  · exact ⟨_, _, _, rfl⟩
  · exact ⟨_, _, _, rfl⟩
  · exact ⟨_, _, _, rfl⟩

theorem uses_heap {k : Nat} {d : GData Int} : ∀ (e : Expr Int), e.Uses store false k d → d ∈ store.heap
  | .leaf (.const _ _), h => h.elim
  | .leaf (.data _ _ _ _), ⟨_, _, _, _, h⟩ => List.mem_of_getElem? h
  | .un _ e, h => uses_heap e h
  | .bin _ a b, h => h.elim (uses_heap a) (uses_heap b)

end EvKeepEx

open EvKeepEx in
/-- C134: metadata on which the datasets disagree can survive: in `a b + c +` with three different times, `a b +`
has no time, and the sum has the time of `c`. -/
theorem C134_disagreement_fails :
    ∃ (s' : Space Int) (d' : GData Int), ev EvEx.lib "a b + c +".toList (some "r".toList) none false store = .ok s' ∧
      s'.heap[3]? = some d' ∧ Dict.get? d'.ctx.other "time" = some "3" ∧
      store.heap.map (fun d => Dict.get? d.ctx.other "time") = [some "1", some "2", some "3"] :=
  ⟨_, _, rfl, rfl, by decide +kernel, by decide +kernel⟩

open EvKeepEx in
/-- C134: hypotheses met by `a b + c +`: the sum is on the common grid and keeps the basis, on which all agree. -/
example : ∃ s' d', ev EvEx.lib (joinWith ' ' expr.tokens) (some "r".toList) none false store = .ok s' ∧
    s'.heap[3]? = some d' ∧ d'.grid = some [NArr.ofList [0, 1, 2]] ∧
    Dict.get? d'.ctx.other "basis_type" = some "serendipity" := by
  have hops : ∀ t ∈ opNames, t ∉ tags ∧ EvEx.lib.pf t = none := by decide +kernel
  have hpow : expr.powOK := by simp [expr, Expr.powOK]
  obtain ⟨s', new, h1, -⟩ := C26_expression_value EvEx.lib store false tags rfl hops Int.add_comm min_comm max_comm
    [] (by simp) expr [2, 1] ok hpow rfl "r".toList (by simp) none
  obtain ⟨d', g1, ⟨d, hd⟩, -, -, -, g3, g4, -⟩ := C134_grid_and_metadata_partial EvEx.lib store s' false tags rfl hops
    Int.add_comm min_comm max_comm (by simp [EvEx.lib]) [] (by simp) expr [2, 1] ok hpow rfl (by
      intro k d hd
      obtain ⟨t, v, m, rfl⟩ := heap d (uses_heap _ hd)
      exact ⟨by simp [dat], by simp [sizeKeys, dat]⟩) "r".toList (by simp) none h1 0 (by decide)
  have hall : ∀ d, expr.Uses store false 0 d → d.grid = some [NArr.ofList [0, 1, 2]] ∧
      Dict.get? d.ctx.other "basis_type" = some "serendipity" := by
    intro d hd
    obtain ⟨t, v, m, rfl⟩ := heap d (uses_heap _ hd)
    exact ⟨rfl, by simp [dat, Dict.get?]⟩
  refine ⟨s', d', h1, g1, g3 _ fun d hd => (hall d hd).1, g4 _ _ ⟨d, hd, (hall d hd).2⟩ fun d hd w hw => ?_⟩
  rw [(hall d hd).2] at hw
  exact (Option.some.inj hw).symm

end Pgkyl
