import Verif.Lemmas.Select
import Verif.Lemmas.GData
/-! # C11-C14, C53: selection -/

namespace Pgkyl

open Spec

variable {F : Type} [LinearOrder F]

/-- C11: an in-range selection returns exactly the selected cells and components, every selected
cell with the nodes that bounded it in the source, and leaves the dataset alone. -/
theorem C11_select_partial (pf : List Char → Option F) (data : GData F)
    (axes : List (SelAxis F)) (nc : Nat) (values : NArr F) (h : HasAxes data axes nc values)
    (hax : ∀ a ∈ axes, a.OK) (comp : Option (IdxArg F)) (cs : List Nat)
    (hc : CompDenotes nc comp cs) (rest : List (Option (IdxArg F))) :
    ∃ out, select pf data comp (axes.map (·.z) ++ rest) false =
        .ok (axes.map fun a => NArr.ofList a.nodesOut, out, data) ∧
      IsPart values out axes cs := by
  obtain ⟨hg, hv, hw, hs, hd, hne, h6⟩ := h
  cases axes with
  | nil => exact absurd rfl hne
  | cons a as =>
    refine ⟨_, ?_, isPart_ix hw hax hs (compDenotes_lt hc)⟩
    simp only [select, hg, hv, List.map_cons]
    have hlen : values.shape.length = data.numDims + 1 := by rw [hs, hd]; simp
    have hdl : values.shape.dropLast = (a :: as).map (·.n) := by rw [hs, List.dropLast_concat]
    have hlast : values.shape.getLastD 0 = nc := by rw [hs, List.getLastD_concat]
    have htake : ∃ rest', List.take 6 ((a :: as).map (·.z) ++ rest) =
        (a :: as).map (·.z) ++ rest' :=
      ⟨rest.take (6 - (a :: as).length), by
        rw [List.take_append, List.take_of_length_le (by simpa using h6)]; simp⟩
    obtain ⟨rest', hrest'⟩ := htake
    have hax' := axesSel_denotes pf (a :: as) hax rest' 0
    have hcut := cutGrid_ofList (a :: as) hax
    simp only [List.map_cons] at hrest' hax' hcut hdl
    simp only [hlen, ne_eq, not_true_eq_false, if_false, hdl, hrest', hlast,
      compSel_denotes pf hc, bind, Except.bind, pure, Except.pure, NArr.ofList_shape,
      List.length_singleton, BEq.rfl, hax']
    simp only [List.map_cons, List.map_map, Function.comp_def]
    rw [hcut]
    simp

/-- C11: on the returned cell-centred axes there is one node more than cells, on nodal axes as many
nodes as cells, and the `k`-th returned cell has the nodes of source cell `lo + k`. -/
theorem C11_nodes_of_cells (a : SelAxis F) (h : a.OK) :
    (a.nodes.length = a.n + 1 → a.nodesOut.length = (a.hi - a.lo) + 1) ∧
    (a.nodes.length = a.n → a.nodesOut.length = a.hi - a.lo) ∧
    (∀ k, k < a.hi - a.lo → a.nodesOut[k]? = a.nodes[a.lo + k]?) ∧
    (a.nodes.length = a.n + 1 → ∀ k, k < a.hi - a.lo →
      a.nodesOut[k + 1]? = a.nodes[a.lo + k + 1]?) := by
  obtain ⟨h1, h2, h3, -⟩ := h
  have hle := denotes_le h3
  have hlo := denotes_lo_le h3
  refine ⟨?_, ?_, ?_, ?_⟩
  · intro e
    have : a.nodes.length ≠ a.n := by omega
    simp only [SelAxis.nodesOut, this, if_false, List.length_take, List.length_drop]; omega
  · intro e
    simp only [SelAxis.nodesOut, e, if_true, List.length_take, List.length_drop]; omega
  · intro k hk
    simp only [SelAxis.nodesOut, List.getElem?_take, List.getElem?_drop]
    rw [if_pos]; split <;> omega
  · intro e k hk
    have : a.nodes.length ≠ a.n := by omega
    simp only [SelAxis.nodesOut, this, if_false, List.getElem?_take, List.getElem?_drop]
    rw [if_pos (by omega)]; congr 1

/-- C12: without `overwrite` a successful selection leaves the dataset as it was. -/
theorem C12_select_keeps_source (pf : List Char → Option F) (data : GData F)
    (comp : Option (IdxArg F)) (zs : List (Option (IdxArg F))) (g : List (NArr F)) (v : NArr F)
    (d' : GData F) (h : select pf data comp zs false = .ok (g, v, d')) : d' = data := by
  simp only [select] at h
  split at h
  · split at h
    · cases h
    · simp only [bind, Except.bind] at h
      split at h
      · cases h
      · split at h
        · cases h
        · simp [pure, Except.pure] at h; exact h.2.2.symm
  · cases h

/-- C12: with `overwrite` the dataset afterwards holds exactly the returned grid and values, its
metadata describes them, and its other attributes are unchanged. -/
theorem C12_select_overwrite (pf : List Char → Option F) (data : GData F)
    (comp : Option (IdxArg F)) (zs : List (Option (IdxArg F))) (g : List (NArr F)) (v : NArr F)
    (d' : GData F) (h : select pf data comp zs true = .ok (g, v, d')) :
    d'.grid = some g ∧ d'.values = some v ∧ d'.ctx.cells = some v.shape.dropLast ∧
      d'.ctx.numComps = v.shape.getLast? ∧ d'.numDims + 1 = v.shape.length ∧
      (∃ l u, GData.minima d'.numDims g = .ok l ∧ GData.maxima d'.numDims g = .ok u ∧
        d'.bounds = .ok (some (l, u))) ∧
      d'.ctx.other = data.ctx.other ∧ d'.status = data.status ∧ d'.tag = data.tag := by
  simp only [select] at h
  split at h
  · split at h
    · cases h
    · simp only [bind, Except.bind] at h
      split at h
      · cases h
      · split at h
        · cases h
        · simp only [if_true] at h
          split at h
          · cases h
          · rename_i hp
            simp only [pure, Except.pure, Except.ok.injEq, Prod.mk.injEq] at h
            obtain ⟨rfl, rfl, rfl⟩ := h
            obtain ⟨nc, l, u, h1, h2, h3, rfl⟩ := GData.push_eq_ok hp
            refine ⟨rfl, rfl, rfl, h1.symm, ?_, ⟨l, u, ?_, ?_, rfl⟩, rfl, rfl, rfl⟩
            · simp [GData.numDims, GData.numCells]
            · simpa [GData.numDims, GData.numCells] using h2
            · simpa [GData.numDims, GData.numCells] using h3
  · cases h

/-- Axis `b` is what is left of axis `a` after the selection on `a`; axis `c` is axis `a` with the
combined selection. -/
structure Composed (a b c : SelAxis F) : Prop where
  first : a.OK
  second : b.OK
  both : c.OK
  nodes : b.nodes = a.nodesOut
  cells : b.n = a.hi - a.lo
  nodes' : c.nodes = a.nodes
  cells' : c.n = a.n
  lo : c.lo = a.lo + b.lo
  hi : c.hi = a.lo + b.hi

/-- C13: selecting twice is selecting the combined ranges and components at once.  For every axis
`t`, `t.1` is the first selection, `t.2.1` the second, `t.2.2` the combined one. -/
theorem C13_select_compose (pf : List Char → Option F) (data : GData F)
    (ts : List (SelAxis F × SelAxis F × SelAxis F)) (nc : Nat) (values : NArr F)
    (h : HasAxes data (ts.map (·.1)) nc values)
    (ht : ∀ t ∈ ts, Composed t.1 t.2.1 t.2.2)
    (comp₁ comp₂ comp₃ : Option (IdxArg F)) (cs₁ cs₂ cs₃ : List Nat)
    (h₁ : CompDenotes nc comp₁ cs₁) (h₂ : CompDenotes cs₁.length comp₂ cs₂)
    (h₃ : CompDenotes nc comp₃ cs₃) (hcs : cs₃.map some = cs₂.map fun k => cs₁[k]?) :
    ∃ g₁ v₁ d₁ g₂ v₂,
      select pf data comp₁ (ts.map (·.1.z)) true = .ok (g₁, v₁, d₁) ∧
      select pf d₁ comp₂ (ts.map (·.2.1.z)) false = .ok (g₂, v₂, d₁) ∧
      select pf data comp₃ (ts.map (·.2.2.z)) false = .ok (g₂, v₂, data) := by
  have hA : ∀ a ∈ ts.map (·.1), a.OK := by
    intro a ha; obtain ⟨t, htm, rfl⟩ := List.mem_map.1 ha; exact (ht t htm).first
  have hB : ∀ a ∈ ts.map (·.2.1), a.OK := by
    intro a ha; obtain ⟨t, htm, rfl⟩ := List.mem_map.1 ha; exact (ht t htm).second
  have hC : ∀ a ∈ ts.map (·.2.2), a.OK := by
    intro a ha; obtain ⟨t, htm, rfl⟩ := List.mem_map.1 ha; exact (ht t htm).both
  have hrest : ∀ f : SelAxis F × SelAxis F × SelAxis F → SelAxis F,
      (ts.map fun t => (f t).z) = (ts.map f).map (·.z) ++ [] := by intro f; simp
  obtain ⟨v₁, e₁, p₁⟩ := C11_select_partial pf data _ nc values h hA comp₁ cs₁ h₁ []
  obtain ⟨d₁, e₁', hd₁⟩ := select_overwrite_of_ok pf hA p₁ e₁
  have hx : HasAxes d₁ (ts.map (·.2.1)) cs₁.length v₁ := by
    obtain ⟨q1, q2, q3, q4⟩ := hd₁
    refine ⟨?_, q2, p₁.1, ?_, ?_, by simpa using h.nonempty, by simpa using h.six⟩
    · rw [q1, List.map_map, List.map_map]
      congr 1
      apply List.map_congr_left
      intro t htm
      simp only [Function.comp_apply, (ht t htm).nodes]
    · rw [p₁.2.1, List.map_map, List.map_map]
      congr 1
      apply List.map_congr_left
      intro t htm
      simp only [Function.comp_apply, (ht t htm).cells]
    · rw [q4]; simp
  obtain ⟨v₂, e₂, p₂⟩ := C11_select_partial pf d₁ _ cs₁.length v₁ hx hB comp₂ cs₂ h₂ []
  have hc : HasAxes data (ts.map (·.2.2)) nc values := by
    refine ⟨?_, h.vals, h.wf, ?_, ?_, by simpa using h.nonempty, by simpa using h.six⟩
    · rw [h.grid, List.map_map, List.map_map]
      congr 1
      apply List.map_congr_left
      intro t htm
      simp only [Function.comp_apply, (ht t htm).nodes']
    · rw [h.shape, List.map_map, List.map_map]
      congr 1
      apply List.map_congr_left
      intro t htm
      simp only [Function.comp_apply, (ht t htm).cells']
    · rw [h.dims]; simp
  obtain ⟨v₃, e₃, p₃⟩ := C11_select_partial pf data _ nc values hc hC comp₃ cs₃ h₃ []
  have hgrid : ((ts.map (·.2.2)).map fun a => NArr.ofList a.nodesOut) =
      (ts.map (·.2.1)).map fun a => NArr.ofList a.nodesOut := by
    rw [List.map_map, List.map_map]
    apply List.map_congr_left
    intro t htm
    simp only [Function.comp_apply]
    rw [composed_nodesOut (ht t htm).first (ht t htm).second (ht t htm).nodes (ht t htm).cells
      (ht t htm).nodes' (ht t htm).cells' (ht t htm).lo (ht t htm).hi]
  have hshape : ((ts.map (·.2.1)).map fun a => a.hi - a.lo) =
      (ts.map (·.2.2)).map fun a => a.hi - a.lo := by
    rw [List.map_map, List.map_map]
    apply List.map_congr_left
    intro t htm
    simp only [Function.comp_apply, (ht t htm).lo, (ht t htm).hi]; omega
  have hcl : cs₃.length = cs₂.length := by simpa using congrArg List.length hcs
  have hv : v₃ = v₂ := by
    refine NArr.ext_get? p₃.1 p₂.1 ?_ ?_
    · rw [p₃.2.1, p₂.2.1, hshape, hcl]
    · intro idx hi
      rw [p₃.2.1] at hi
      obtain ⟨j, k, rfl, hj, hk⟩ := inRange_snoc_inv hi
      obtain ⟨c₂, hc₂⟩ : ∃ c, cs₂[k]? = some c := ⟨_, List.getElem?_eq_getElem (hcl ▸ hk)⟩
      have hc₃ : cs₃[k]? = cs₁[c₂]? := by
        have := congrArg (fun l => l[k]?) hcs
        simp only [List.getElem?_map, hc₂, Option.map_some] at this
        rw [List.getElem?_eq_getElem hk] at this ⊢
        simpa using this
      have hc₂l : c₂ < cs₁.length := compDenotes_lt h₂ c₂ (List.mem_of_getElem? hc₂)
      obtain ⟨c₁, hc₁⟩ : ∃ c, cs₁[c₂]? = some c := ⟨_, List.getElem?_eq_getElem hc₂l⟩
      rw [p₃.2.2 j k c₁ hj (by rw [hc₃, hc₁]), p₂.2.2 j k c₂ (by rw [hshape]; exact hj) hc₂]
      have hj' : inRange ((ts.map (·.1)).map fun a => a.hi - a.lo)
          (List.zipWith (· + ·) j ((ts.map (·.2.1)).map (·.lo))) = true := by
        have := hj
        rw [← hshape] at this
        have hn : (ts.map (·.1)).map (fun a => a.hi - a.lo) = (ts.map (·.2.1)).map (·.n) := by
          rw [List.map_map, List.map_map]
          apply List.map_congr_left
          intro t htm
          simp only [Function.comp_apply, (ht t htm).cells]
        rw [hn]
        exact inRange_shift hB this
      rw [p₁.2.2 _ c₂ c₁ hj' hc₁, zipWith_add_assoc]
      congr 3
      rw [List.map_map, List.map_map, List.map_map]
      have : ∀ l : List (SelAxis F × SelAxis F × SelAxis F), (∀ t ∈ l, Composed t.1 t.2.1 t.2.2) →
          List.map ((fun x => x.lo) ∘ fun x => x.2.2) l =
          List.zipWith (· + ·) (l.map ((fun x => x.lo) ∘ fun x => x.2.1))
            (l.map ((fun x => x.lo) ∘ fun x => x.1)) := by
        intro l hl
        induction l with
        | nil => rfl
        | cons t l ih =>
          simp only [List.map_cons, List.zipWith_cons_cons, Function.comp_apply]
          rw [← ih fun t ht => hl t (by simp [ht]), (hl t (by simp)).lo, Nat.add_comm]
      exact this ts ht
  rw [hgrid, hv] at e₃
  rw [← hrest (·.1)] at e₁'
  rw [← hrest (·.2.1)] at e₂
  rw [← hrest (·.2.2)] at e₃
  exact ⟨_, v₁, d₁, _, v₂, e₁', e₂, e₃⟩

/-- The selection on this axis alone, made first. -/
def Spec.SelAxis.firstPart (m : Bool) (a : SelAxis F) : SelAxis F :=
  if m then a else { a with z := none, lo := 0, hi := a.n }

/-- What remains to be selected on this axis by the second selection. -/
def Spec.SelAxis.secondPart (m : Bool) (a : SelAxis F) : SelAxis F :=
  if m then { nodes := a.nodesOut, n := a.hi - a.lo, z := none, lo := 0, hi := a.hi - a.lo } else a

/-- C13: selecting first on the axes marked by `m` and then on the others gives the same dataset as
selecting on all of them at once.  As this holds for every marking `m` (in particular for the
complement), the order does not matter. -/
theorem C13_axes_independent (pf : List Char → Option F) (data : GData F)
    (axes : List (SelAxis F)) (m : SelAxis F → Bool) (nc : Nat) (values : NArr F)
    (h : HasAxes data axes nc values) (hax : ∀ a ∈ axes, a.OK) (hn : ∀ a ∈ axes, 0 < a.n) :
    ∃ g₁ v₁ d₁ g₂ v₂,
      select pf data none (axes.map fun a => (a.firstPart (m a)).z) true = .ok (g₁, v₁, d₁) ∧
      select pf d₁ none (axes.map fun a => (a.secondPart (m a)).z) false = .ok (g₂, v₂, d₁) ∧
      select pf data none (axes.map (·.z)) false = .ok (g₂, v₂, data) := by
  have hcomp : ∀ a ∈ axes, Composed (a.firstPart (m a)) (a.secondPart (m a)) a := by
    intro a ha
    have hok := hax a ha
    have hle := denotes_le hok.2.2.1
    have hlo := denotes_lo_le hok.2.2.1
    obtain ⟨h1, h2, h3, h4⟩ := hok
    cases hm : m a with
    | true =>
      refine ⟨⟨h1, h2, h3, h4⟩, ⟨?_, ?_, .all, ?_⟩, ⟨h1, h2, h3, h4⟩, rfl, rfl, rfl, rfl, rfl, ?_⟩
      · exact List.Pairwise.sublist ((List.take_sublist _ _).trans (List.drop_sublist _ _)) h1
      · have := C11_nodes_of_cells a ⟨h1, h2, h3, h4⟩
        rcases h2 with e | e
        · exact Or.inl (this.1 e)
        · exact Or.inr (this.2.1 e)
      · simp [SelAxis.secondPart]; omega
      · simp [SelAxis.secondPart, SelAxis.firstPart]; omega
    | false =>
      refine ⟨⟨h1, h2, .all, hn a ha⟩, ⟨h1, h2, h3, h4⟩, ⟨h1, h2, h3, h4⟩, ?_, ?_, rfl, rfl, ?_, ?_⟩
      · simp only [SelAxis.secondPart, SelAxis.firstPart, SelAxis.nodesOut, Bool.false_eq_true,
          if_false, List.drop_zero, Nat.sub_zero]
        rw [List.take_of_length_le]
        split <;> omega
      · simp [SelAxis.secondPart, SelAxis.firstPart]
      · simp [SelAxis.secondPart, SelAxis.firstPart]
      · simp [SelAxis.secondPart, SelAxis.firstPart]
  have hx : HasAxes data ((axes.map fun a => (a.firstPart (m a), a.secondPart (m a), a)).map (·.1))
      nc values := by
    obtain ⟨q1, q2, q3, q4, q5, q6, q7⟩ := h
    refine ⟨?_, q2, q3, ?_, by simpa using q5, by simpa using q6, by simpa using q7⟩
    · rw [q1, List.map_map, List.map_map]
      congr 1
      apply List.map_congr_left
      intro a ha
      simp only [Function.comp_apply, SelAxis.firstPart]; split <;> rfl
    · rw [q4, List.map_map, List.map_map]
      congr 1
      apply List.map_congr_left
      intro a ha
      simp only [Function.comp_apply, SelAxis.firstPart]; split <;> rfl
  have := C13_select_compose pf data (axes.map fun a => (a.firstPart (m a), a.secondPart (m a), a))
    nc values hx (by
      intro t ht
      obtain ⟨a, ha, rfl⟩ := List.mem_map.1 ht
      exact hcomp a ha) none none none (List.range nc) (List.range (List.range nc).length)
      (List.range nc) .all .all .all (by
        simp only [List.length_range]
        apply List.map_congr_left
        intro k hk
        rw [List.getElem?_range (by simpa using hk)])
  simpa only [List.map_map, Function.comp_def] using this

/-- C14: a component selection alone keeps the grid and exactly the listed components, in the
listed order, with a component axis of that length. -/
theorem C14_component_selection (pf : List Char → Option F) (data : GData F)
    (axes : List (SelAxis F)) (nc : Nat) (values : NArr F) (h : HasAxes data axes nc values)
    (hax : ∀ a ∈ axes, Increasing a.nodes ∧ (a.nodes.length = a.n + 1 ∨ a.nodes.length = a.n) ∧
      0 < a.n)
    (comp : Option (IdxArg F)) (cs : List Nat) (hc : CompDenotes nc comp cs) :
    ∃ out, select pf data comp [] false =
        .ok (axes.map fun a => NArr.ofList a.nodes, out, data) ∧
      out.shape = axes.map (·.n) ++ [cs.length] ∧
      ∀ idx k c, inRange (axes.map (·.n)) idx = true → cs[k]? = some c →
        out.get? (idx ++ [k]) = values.get? (idx ++ [c]) := by
  let axes' := axes.map fun a => { a with z := none, lo := 0, hi := a.n }
  have hok : ∀ a ∈ axes', a.OK := by
    intro a ha
    obtain ⟨b, hb, rfl⟩ := List.mem_map.1 ha
    obtain ⟨h1, h2, h3⟩ := hax b hb
    exact ⟨h1, h2, .all, h3⟩
  have hx : HasAxes data axes' nc values := by
    obtain ⟨q1, q2, q3, q4, q5, q6, q7⟩ := h
    refine ⟨?_, q2, q3, ?_, by simpa [axes'] using q5, by simpa [axes'] using q6,
      by simpa [axes'] using q7⟩
    · simp [axes', q1]
    · simp [axes', q4]
  obtain ⟨out, e, hp⟩ := C11_select_partial pf data axes' nc values hx hok comp cs hc []
  refine ⟨out, ?_, ?_, ?_⟩
  · have hz : ∀ zs : List (Option (IdxArg F)), (∀ z ∈ zs, z = none) →
        select pf data comp zs false = select pf data comp [] false := by
      intro zs hzs
      simp only [select]
      have : ∀ (ns : List Nat) (gs : List (NArr F)) (u : Bool) (d : Nat)
          (zs : List (Option (IdxArg F))), (∀ z ∈ zs, z = none) →
          axesSel pf u d ns gs zs = axesSel pf u d ns gs [] := by
        intro ns
        induction ns with
        | nil => intros; rfl
        | cons n ns ih =>
          intro gs u d zs hzs
          cases gs with
          | nil => rfl
          | cons g gs =>
            simp only [axesSel, List.headD_nil, List.tail_nil]
            rw [ih gs u (d + 1) zs.tail (fun z hz => hzs z (List.mem_of_mem_tail hz))]
            have : zs.headD none = none := by
              cases zs with
              | nil => rfl
              | cons z zs => simp [hzs z (by simp)]
            rw [this]
      have htk : ∀ z ∈ List.take 6 zs, z = none := fun z hz => hzs z (List.mem_of_mem_take hz)
      simp only [List.take_nil]
      simp only [this _ _ _ _ _ htk]
    rw [hz] at e
    · rw [e]
      have : (axes'.map fun a => NArr.ofList a.nodesOut) = axes.map fun a => NArr.ofList a.nodes := by
        simp only [axes', List.map_map]
        apply List.map_congr_left
        intro a ha
        obtain ⟨h1, h2, h3⟩ := hax a ha
        simp only [Function.comp_apply, SelAxis.nodesOut, List.drop_zero, Nat.sub_zero]
        congr 1
        rw [List.take_of_length_le]
        split <;> omega
      rw [this]
    · intro z hz
      simp [axes'] at hz
      exact hz.2.symm
  · rw [hp.2.1]; simp [axes']
  · intro idx k c hidx hk
    have := hp.2.2 idx k c (by simpa [axes', Function.comp_def] using hidx) hk
    rw [this]
    congr 2
    have hlen := inRange_length hidx
    simp only [axes', List.map_map, Function.comp_def]
    have : ∀ (l : List Nat) (as : List (SelAxis F)), l.length = as.length →
        List.zipWith (· + ·) l (as.map fun _ => 0) = l := by
      intro l
      induction l with
      | nil => simp
      | cons x xs ih =>
        intro as h
        cases as with
        | nil => simp at h
        | cons a as =>
          simp only [List.map_cons, List.zipWith_cons_cons, ih as (by simpa using h), Nat.add_zero]
    exact this idx axes (by simpa using hlen)

/-! ### A concrete dataset meeting the hypotheses of C11-C14 -/

/-- 2 x 3 cells, two components, non-uniform axes. -/
def exData : GData Int :=
  { grid := some [NArr.ofList [0, 1, 3], NArr.ofList [0, 2, 5, 9]]
    values := some ⟨[2, 3, 2], [0, 1, 10, 11, 20, 21, 100, 101, 110, 111, 120, 121]⟩
    ctx := { cells := some [2, 3], numComps := some 2 } }

/-- second row by index, cells 1..2 of the other axis by coordinate slice syntax -/
def exAxes : List (SelAxis Int) :=
  [⟨[0, 1, 3], 2, some (.int 1), 1, 2⟩, ⟨[0, 2, 5, 9], 3, some (.str (dec 1 ++ ':' :: dec 3)), 1, 3⟩]

example : HasAxes exData exAxes 2 ⟨[2, 3, 2], [0, 1, 10, 11, 20, 21, 100, 101, 110, 111, 120, 121]⟩ ∧
    (∀ a ∈ exAxes, a.OK) ∧ CompDenotes (F := Int) 2 (some (.int 1)) [1] := by
  refine ⟨⟨rfl, rfl, rfl, rfl, rfl, by simp [exAxes], by simp [exAxes]⟩, ?_, .index 1 (by omega)⟩
  intro a ha
  simp only [exAxes, List.mem_cons, List.not_mem_nil, or_false] at ha
  rcases ha with rfl | rfl
  · exact ⟨by simp [Increasing], Or.inl rfl, .index 1 (by decide), by simp⟩
  · exact ⟨by simp [Increasing], Or.inl rfl, .range 1 3 (by decide) (by decide), by simp⟩

example : select (fun _ => none) exData (some (.int 1)) (exAxes.map (·.z)) false =
    .ok ([NArr.ofList [1, 3], NArr.ofList [2, 5, 9]], ⟨[1, 2, 1], [111, 121]⟩, exData) := by
  rfl

/-- two-step selection: `z1=0:3` then `z1=1:2` against `z1=1:2` -/
example : Composed (F := Int) ⟨[0, 2, 5, 9], 3, some (.str (dec 1 ++ ':' :: dec 3)), 1, 3⟩
    ⟨[2, 5, 9], 2, some (.int 1), 1, 2⟩ ⟨[0, 2, 5, 9], 3, some (.int 2), 2, 3⟩ := by
  refine ⟨⟨by simp [Increasing], Or.inl rfl, .range 1 3 (by decide) (by decide), by simp⟩,
    ⟨by simp [Increasing], Or.inl rfl, .index 1 (by decide), by simp⟩,
    ⟨by simp [Increasing], Or.inl rfl, .index 2 (by decide), by simp⟩, rfl, rfl, rfl, rfl, rfl, rfl⟩

/-! ### C53: negative stops -/

/-- C53 (what `select` does): on a cell-centred axis with `n` cells, `':-k'` keeps the first
`min (n + 2 - k) n` cells. -/
theorem C53_select_negative_stop (pf : List Char → Option F) (d : Nat) (nodes : List F) (n k : Nat)
    (hl : nodes.length = n + 1) (hk : 0 < k) (hkn : k ≤ n + 2) :
    (axisSel pf true d (NArr.ofList nodes) n (some (.str (':' :: '-' :: dec k)))).map (·.v) =
      .ok (List.range (min (n + 2 - k) n)) := by
  have hg : gridLen true d (NArr.ofList nodes) = .ok nodes.length := rfl
  have hz := C53_negative_stop_value pf nodes (n == nodes.length) k hk (by omega)
  simp only [axisSel, hg, bind, Except.bind, hz, pure, Except.pure, Except.map]
  have := slicePos_nat n 0 (nodes.length + 1 - k)
  rw [show ((0 : Nat) : Int) = 0 from rfl] at this
  rw [this, List.range_eq_range', Nat.sub_zero, hl]

/-- C53 fails: `z0=':-1'` keeps the last cell (Python's `[:-1]`, and the partial load of C03, drop
it), for every cell-centred axis with at least one cell. -/
theorem C53_negative_stop_not_python (pf : List Char → Option F) (d : Nat) (nodes : List F)
    (n : Nat) (hl : nodes.length = n + 1) (hn : 0 < n) :
    (axisSel pf true d (NArr.ofList nodes) n (some (.str ":-1".toList))).map (·.v) ≠
      .ok (pySlice (List.range n) 0 (-1)) := by
  have h := C53_select_negative_stop pf d nodes n 1 hl (by omega) (by omega)
  have e : (":-1".toList : List Char) = ':' :: '-' :: dec 1 := by decide
  rw [e, h]
  intro hc
  have := congrArg List.length (Except.ok.inj hc)
  simp only [pySlice, sliceBound, List.length_range, List.length_take, List.length_drop] at this
  simp at this
  omega

/-- C53 on a concrete dataset, through `select` itself. -/
example : select (fun _ => none) exData none [none, some (.str ":-1".toList)] false =
    select (fun _ => none) exData none [none, none] false := by rfl

/-! ### C54: open ends on mapped grids -/

/-- C54 (partial: grids that are not mapped): with `'a:'` on some of the axes every cell from `a` to the end of its own axis
is kept. -/
theorem C54_open_stop_partial (pf : List Char → Option F) (data : GData F) (axes : List (SelAxis F)) (nc : Nat) (values : NArr F)
    (h : HasAxes data axes nc values)
    (hax : ∀ a ∈ axes, Increasing a.nodes ∧ (a.nodes.length = a.n + 1 ∨ a.nodes.length = a.n) ∧ a.lo < a.n ∧ a.hi = a.n ∧
      ((a.z = none ∧ a.lo = 0) ∨ a.z = some (.str (dec a.lo ++ [':'])))) :
    ∃ g out, select pf data none (axes.map (·.z)) false = .ok (g, out, data) ∧
      out.shape = axes.map (fun a => a.n - a.lo) ++ [nc] ∧
      ∀ idx k, inRange (axes.map fun a => a.n - a.lo) idx = true → k < nc →
        out.get? (idx ++ [k]) = values.get? (List.zipWith (· + ·) idx (axes.map (·.lo)) ++ [k]) := by
  obtain ⟨out, ho, hp⟩ := C11_select_partial pf data axes nc values h (by
    intro a ha
    obtain ⟨h1, h2, h3, h4, h5⟩ := hax a ha
    refine ⟨h1, h2, ?_, by omega⟩
    rcases h5 with ⟨h5, h6⟩ | h5
    · rw [h5, h6, h4]; exact .all
    · rw [h5, h4]; exact .from _ h3) none (List.range nc) .all []
  rw [List.append_nil] at ho
  have e : (axes.map fun a => a.hi - a.lo) = axes.map fun a => a.n - a.lo :=
    List.map_congr_left fun a ha => by rw [(hax a ha).2.2.2.1]
  obtain ⟨-, h2, h3⟩ := hp
  rw [e] at h2 h3
  rw [List.length_range] at h2
  exact ⟨_, out, ho, h2, fun idx k hi hk => h3 idx k k hi (by rw [List.getElem?_range hk])⟩

/-- A mapped 1 x 4 cell dataset: both grids are 2 x 5 arrays of node coordinates. -/
def exMapped : GData Int :=
  { grid := some [⟨[2, 5], [0, 0, 0, 0, 0, 1, 1, 1, 1, 1]⟩, ⟨[2, 5], [0, 1, 2, 3, 4, 0, 1, 2, 3, 4]⟩]
    values := some ⟨[1, 4, 1], [10, 11, 12, 13]⟩
    ctx := { cells := some [1, 4], numComps := some 1 } }

/-- C54 fails: on a mapped grid `z1='1:'` stops at the extent of the *first* axis; cells 2 and 3
are lost. -/
theorem C54_open_stop_mapped_counterexample :
    (select (fun _ => none) exMapped none [none, some (.str "1:".toList)] false).map (·.2.1) =
      .ok ⟨[1, 1, 1], [11]⟩ := by rfl

end Pgkyl
