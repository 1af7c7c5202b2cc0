import Verif.Spec.AdiosData
import Verif.Props.Adios
import Verif.Props.DgCommands
import Verif.Props.AdiosDiag
/-! # Properties of the datasets made from ADIOS frames (C128) -/

namespace Pgkyl
namespace Adios
open Spec
open GkylReader (linspace linspace_get linspace_length ghostBounds)

theorem copyAttr_get (attrs c : Dict String) (a key k : String) :
    Dict.get? (copyAttr attrs a key c) k =
      if k = key then (match Dict.get? attrs a with | some v => some v | none => Dict.get? c k) else Dict.get? c k := by
  unfold copyAttr
  cases Dict.get? attrs a with
  | none => simp
  | some v => simp only [Dict.get?_set]

theorem copyModal_get (attrs c : Dict String) (a key k : String) (hk : key ≠ "is_modal") :
    Dict.get? (copyModal attrs a key c) k =
      if k = key then (match Dict.get? attrs a with | some v => some v | none => Dict.get? c k)
      else if k = "is_modal" then (match Dict.get? attrs a with | some _ => some "True" | none => Dict.get? c k)
      else Dict.get? c k := by
  unfold copyModal
  cases Dict.get? attrs a with
  | none => simp
  | some v =>
    simp only [Dict.get?_set]
    by_cases h : k = key
    · subst h; simp [hk]
    · simp [h]

section
variable {F : Type}

theorem copyVar_get (shw : NArr F → String) (vars : Dict (NArr F)) (c : Dict String) (a k : String) :
    Dict.get? (copyVar shw vars a c) k =
      if k = a then (match Dict.get? vars a with | some v => some (shw v) | none => Dict.get? c k) else Dict.get? c k := by
  unfold copyVar
  cases Dict.get? vars a with
  | none => simp
  | some v => simp only [Dict.get?_set]

/-- The keys that can be in a context before the metadata are read. -/
def Early (c : Dict String) : Prop := ∀ k, k ≠ "grid_type" → k ≠ "var_names" → Dict.get? c k = none

/-- The metadata, possibly with the list of names for the message. -/
structure FrameMeta0 (shw : NArr F → String) (f : File F) (c : Dict String) : Prop where
  attrs : ∀ p ∈ attrKeys, Dict.get? c p.2 = Dict.get? f.attrs p.1
  time : Dict.get? c "time" = (Dict.get? f.vars "time").map shw
  frame : Dict.get? c "frame" = (Dict.get? f.vars "frame").map shw
  modal : Dict.get? c "is_modal" =
    if Dict.get? f.attrs "polyOrder" = none ∧ Dict.get? f.attrs "basisType" = none then none else some "True"
  only : ∀ k, k ≠ "grid_type" → k ≠ "var_names" → k ∉ attrKeys.map Prod.snd → k ∉ ["time", "frame", "is_modal"] →
    Dict.get? c k = none

theorem frameMeta_ok (shw : NArr F → String) (f : File F) {c : Dict String} (hc : Early c) :
    FrameMeta0 shw f (frameMeta shw f c) where
  attrs := by
    intro p hp
    simp only [attrKeys, List.mem_cons, List.not_mem_nil, or_false] at hp
    rcases hp with rfl | rfl | rfl | rfl | rfl | rfl <;>
      simp only [frameMeta, copyVar_get, copyAttr_get, copyModal_get, ne_eq, String.reduceEq, not_false_eq_true, if_false, if_true,
        reduceIte] <;>
      (rw [hc _ (by decide) (by decide)]; split <;> simp_all)
  time := by
    simp only [frameMeta, copyVar_get, copyAttr_get, copyModal_get, ne_eq, String.reduceEq, not_false_eq_true, if_false, if_true,
        reduceIte]
    rw [hc _ (by decide) (by decide)]; split <;> simp_all
  frame := by
    simp only [frameMeta, copyVar_get, copyAttr_get, copyModal_get, ne_eq, String.reduceEq, not_false_eq_true, if_false, if_true,
        reduceIte]
    rw [hc _ (by decide) (by decide)]; split <;> simp_all
  modal := by
    simp only [frameMeta, copyVar_get, copyAttr_get, copyModal_get, ne_eq, String.reduceEq, not_false_eq_true, if_false, if_true,
        reduceIte]
    rw [hc _ (by decide) (by decide)]
    cases Dict.get? f.attrs "polyOrder" <;> cases Dict.get? f.attrs "basisType" <;> (simp)
  only := by
    intro k h1 h2 h3 h4
    simp only [attrKeys, List.map_cons, List.map_nil, List.mem_cons, List.not_mem_nil, or_false, not_or] at h3 h4
    simp only [frameMeta, copyVar_get, copyAttr_get, copyModal_get, ne_eq, String.reduceEq, not_false_eq_true, if_false, h3, h4]
    exact hc k h1 h2

theorem frameMeta_names (shw : NArr F → String) (f : File F) (c : Dict String) :
    Dict.get? (frameMeta shw f c) "var_names" = Dict.get? c "var_names" := by
  simp only [frameMeta, copyVar_get, copyAttr_get, copyModal_get, ne_eq, String.reduceEq, not_false_eq_true, if_false]

theorem frameMeta_set {shw : NArr F → String} {f : File F} {c : Dict String} (h : FrameMeta shw f c) (v : String) :
    FrameMeta shw f (Dict.set c "grid_type" v) where
  attrs := by
    intro p hp
    rw [← h.attrs p hp]
    simp only [attrKeys, List.mem_cons, List.not_mem_nil, or_false] at hp
    rcases hp with rfl | rfl | rfl | rfl | rfl | rfl <;> exact Dict.get?_set_ne _ _ (by decide)
  time := by rw [← h.time]; exact Dict.get?_set_ne _ _ (by decide)
  frame := by rw [← h.frame]; exact Dict.get?_set_ne _ _ (by decide)
  modal := by rw [← h.modal]; exact Dict.get?_set_ne _ _ (by decide)
  only := fun k h1 h2 h3 => by rw [Dict.get?_set_ne _ _ h1]; exact h.only k h1 h2 h3

theorem frameMeta_del {shw : NArr F → String} {f : File F} {c : Dict String} (h : FrameMeta0 shw f c) :
    FrameMeta shw f (Dict.del c "var_names") where
  attrs := by
    intro p hp
    rw [← h.attrs p hp]
    simp only [attrKeys, List.mem_cons, List.not_mem_nil, or_false] at hp
    rcases hp with rfl | rfl | rfl | rfl | rfl | rfl <;> rw [Dict.get?_del, if_neg (by decide)]
  time := by rw [← h.time, Dict.get?_del, if_neg (by decide)]
  frame := by rw [← h.frame, Dict.get?_del, if_neg (by decide)]
  modal := by rw [← h.modal, Dict.get?_del, if_neg (by decide)]
  only := fun k h1 h2 h3 => by
    rw [Dict.get?_del]
    split
    · rfl
    · rename_i hk; exact h.only k h1 hk h2 h3

theorem early_start (vars : Dict (NArr F)) (name : String) : Early (noteMissing vars name [("grid_type", "uniform")]) := by
  intro k h1 h2
  have h0 : Dict.get? [("grid_type", "uniform")] k = none := by
    simp only [Dict.get?]; rw [if_neg (Ne.symm h1)]
  unfold noteMissing
  split
  · exact h0
  · rw [Dict.get?_set_ne _ _ h2, h0]

theorem prompt_ok {vars : Dict (NArr F)} {wrong rest : List String} {a : String} {v : NArr F}
    (hw : ∀ x ∈ wrong, Dict.get? vars x = none) (ha : Dict.get? vars a = some v) : prompt vars (wrong ++ a :: rest) = .ok v := by
  induction wrong with
  | nil => simp [prompt, ha]
  | cons x xs ih =>
    simp only [List.cons_append, prompt, hw x (by simp)]
    exact ih fun y hy => hw y (by simp [hy])

theorem pickVar_ok {f : File F} {name : String} {click : Option (List String)} {v : NArr F}
    (h : VariableIs f.vars name click v) (shw : NArr F → String) :
    ∃ c', pickVar f.vars name click (frameMeta shw f (noteMissing f.vars name [("grid_type", "uniform")])) = .ok (v, c') ∧
      FrameMeta shw f c' := by
  have hc := frameMeta_ok shw f (early_start f.vars name)
  cases h with
  | named h _ =>
    refine ⟨_, by simp only [pickVar, h], hc.attrs, hc.time, hc.frame, hc.modal, fun k h1 h2 h3 => ?_⟩
    by_cases hk : k = "var_names"
    · subst hk
      rw [frameMeta_names, noteMissing, h]
      rfl
    · exact hc.only k h1 hk h2 h3
  | typed h wrong rest hw ha =>
    refine ⟨Dict.del _ "var_names", ?_, frameMeta_del hc⟩
    simp only [pickVar, h, prompt_ok hw ha, bind, Except.bind, pure, Except.pure]

theorem isFrame_dispatch [Add F] [Sub F] [Mul F] [Div F] [IntCast F] [LT F] [DecidableLT F] {f : File F} (h : IsFrameFile f)
    (pf : List Char → Option F) (shw : NArr F → String) (zs : List (Option (IdxArg F))) (comp : Option (IdxArg F))
    (name : String) (c2p : Option (NArr F)) (click : Option (List String)) (tag label : List Char) :
    ofFile pf shw zs comp name c2p click tag label f = ofFrame pf shw zs comp name c2p click tag label f := by
  unfold ofFile
  rw [if_neg]
  simp only [List.any_eq_true, decide_eq_true_eq, not_exists, not_and]
  exact h

theorem isHistory_dispatch [Add F] [Sub F] [Mul F] [Div F] [IntCast F] [LT F] [DecidableLT F] {f : File F} {q : String × NArr F}
    (hq : q ∈ f.vars) (h : "TimeMesh".toList <:+: q.1.toList)
    (pf : List Char → Option F) (shw : NArr F → String) (zs : List (Option (IdxArg F))) (comp : Option (IdxArg F))
    (name : String) (c2p : Option (NArr F)) (click : Option (List String)) (tag label : List Char) :
    ofFile pf shw zs comp name c2p click tag label f = ofHistory tag label f.vars := by
  unfold ofFile
  rw [if_pos]
  simp only [List.any_eq_true, decide_eq_true_eq]
  exact ⟨q, hq, h⟩

end

section field
variable {F : Type} [_root_.Field F] [LinearOrder F] [IsStrictOrderedRing F]

theorem recordedComps_snoc {F : Type} {a : NArr F} {ns : List Nat} {n : Nat} (h : a.shape = ns ++ [n]) : recordedComps a = .ok n := by
  simp [recordedComps, h]

omit [IsStrictOrderedRing F] in
/-- Without a selection nothing is restricted. -/
theorem whole_of_unselected {axes : List (UniAxis F)} (hax : ∀ a ∈ axes, a.OK ∧ UniAxis.Closed a.z) {n : Nat}
    (hn : axes.length ≤ n) (hz : (((axes.map (·.z)).take n).any Option.isSome) = false) :
    ∀ a ∈ axes, a.lo = 0 ∧ a.hi = a.cells := by
  rw [List.take_of_length_le (by simpa using hn)] at hz
  intro a ha
  have h1 : a.z = none := by
    cases hzz : a.z with
    | none => rfl
    | some z =>
      rw [List.any_eq_false] at hz
      exact absurd (by rw [hzz]; rfl) (hz a.z (List.mem_map.2 ⟨a, ha, rfl⟩))
  have := (hax a ha).1.2.2
  rw [h1] at this
  exact denotes_none this

omit [LinearOrder F] [IsStrictOrderedRing F] in
theorem adjusted_whole {f : File F} {axes : List (UniAxis F)} (h1 : f.lower = axes.map (·.lower))
    (h2 : f.upper = axes.map (·.upper)) (h3 : f.cells = axes.map (·.cells)) (n : Nat) :
    (adjusted f (axes.map (·.cells) ++ [n])).map Prod.fst = axes.map (·.lower) ∧
      (adjusted f (axes.map (·.cells) ++ [n])).map Prod.snd = axes.map (·.upper) := by
  unfold adjusted
  rw [h1, h2, h3]
  clear h1 h2 h3
  induction axes with
  | nil => exact ⟨rfl, rfl⟩
  | cons a as ih =>
    have hg : ghostBounds (a.cells : Int) a.cells a.lower a.upper = (a.lower, a.upper) := by simp [ghostBounds]
    simp only [List.map_cons, List.zip_cons_cons, List.cons_append, List.zipWith_cons_cons, hg]
    exact ⟨by rw [ih.1], by rw [ih.2]⟩

/-- The dataset of a frame. -/
theorem frame_data (pf : List Char → Option F) (shw : NArr F → String) {f : File F} (hfr : IsFrameFile f) {name : String}
    {click : Option (List String)} {var : NArr F} (hv : VariableIs f.vars name click var) {axes : List (UniAxis F)} {nc : Nat}
    (hf : IsFrame ⟨f.lower, f.upper, f.cells, var⟩ axes nc) (hax : ∀ a ∈ axes, a.OK ∧ UniAxis.Closed a.z) (hnc : 0 < nc)
    {comp : Option (IdxArg F)} {ca cb : Nat} (hcd : Denotes ([] : List F) nc comp ca cb) (hcc : UniAxis.Closed comp)
    (tag label : List Char) :
    ∃ data other, ofFile pf shw (axes.map (·.z)) comp name none click tag label f = .ok
        { grid := some (axes.map fun a => NArr.ofList a.partNodes), values := some data
          ctx := { cells := some (axes.map (·.cells)), numComps := some (cb - ca), lower := some (axes.map (·.lower))
                   upper := some (axes.map (·.upper)), other := other }
          tag := tag, customLabel := label } ∧
      IsField data (axes.map fun a => a.hi - a.lo) (cb - ca)
        (fun i k => (var.get? (List.zipWith (· + ·) i (axes.map (·.lo)) ++ [ca + k])).getD 0) ∧
      (∀ i k, inRange (axes.map fun a => a.hi - a.lo) i = true → k < cb - ca →
        (var.get? (List.zipWith (· + ·) i (axes.map (·.lo)) ++ [ca + k])).isSome) ∧
      FrameMeta shw f other ∧ Dict.get? other "grid_type" = some "uniform" := by
  obtain ⟨data, h1, h2, h3, h4⟩ := C52_load_partial pf hf hax hnc hcd hcc
  have hsome : ∀ i k, inRange (axes.map fun a => a.hi - a.lo) i = true → k < cb - ca →
      (data.get? (i ++ [k])).isSome := fun i k hi hk =>
    NArr.get?_isSome h2 (by rw [h3]; exact inRange_snoc_iff.2 ⟨hi, hk⟩)
  obtain ⟨l1, l2, l3, l4, l5⟩ := hf
  obtain ⟨c, hpick, hmeta⟩ := pickVar_ok hv shw
  refine ⟨data, Dict.set c "grid_type" "uniform", ?_, ⟨h2, h3, fun i hi k hk => ?_⟩, fun i k hi hk => ?_, ?_, Dict.get?_set_self _ _ _⟩
  rotate_left
  · have := hsome i k hi hk
    rw [h4 i k hi hk] at this ⊢
    obtain ⟨y, hy⟩ := Option.isSome_iff_exists.1 this
    rw [hy]; rfl
  · rw [← h4 i k hi hk]; exact hsome i k hi hk
  rotate_left
  · rw [isFrame_dispatch hfr]
    simp only [ofFrame, hpick, h1, frameGrid, recordedComps_snoc h3, bind, Except.bind, pure, Except.pure, List.map_map]
    congr 2
    unfold meshCtx
    simp only [Option.isSome_none, Bool.or_false]
    split
    · simp only at l1 l2 l3
      rw [l1, l2, l3]
    · rename_i hsel
      simp only [Bool.not_eq_true, Bool.or_eq_false_iff] at hsel
      have hw := whole_of_unselected hax (by rw [l5]; simp) hsel.1
      have hcells : (axes.map fun a => a.hi - a.lo) = axes.map (·.cells) :=
        List.map_congr_left fun a ha => by rw [(hw a ha).1, (hw a ha).2, Nat.sub_zero]
      obtain ⟨b1, b2⟩ := adjusted_whole (f := f) l1 l2 l3 (cb - ca)
      rw [h3, hcells, b1, b2]
      simp only at l3
      rw [l3, List.take_left' (by simp)]
  · exact frameMeta_set hmeta _

/-- C128, for the loaded numbers, the mesh, the metadata, and what the dataset says about itself as long as no axis is
restricted: the dataset of a frame holds exactly the selected cells and components of the variable on the nodes that bound
these cells, and has the metadata of the file. -/
theorem C128_frame_partial (pf : List Char → Option F) (shw : NArr F → String) {f : File F} (hfr : IsFrameFile f) {name : String}
    {click : Option (List String)} {var : NArr F} (hv : VariableIs f.vars name click var) {axes : List (UniAxis F)} {nc : Nat}
    (hf : IsFrame ⟨f.lower, f.upper, f.cells, var⟩ axes nc) (hax : ∀ a ∈ axes, a.OK ∧ UniAxis.Closed a.z) (hnc : 0 < nc)
    {comp : Option (IdxArg F)} {ca cb : Nat} (hcd : Denotes ([] : List F) nc comp ca cb) (hcc : UniAxis.Closed comp)
    (tag label : List Char) :
    ∃ d v, ofFile pf shw (axes.map (·.z)) comp name none click tag label f = .ok d ∧
      d.grid = some (axes.map fun a => NArr.ofList a.partNodes) ∧ d.values = some v ∧
      v.shape = axes.map (fun a => a.hi - a.lo) ++ [cb - ca] ∧
      (∀ i k, inRange (axes.map fun a => a.hi - a.lo) i = true → k < cb - ca → ∃ y, v.get? (i ++ [k]) = some y ∧
        var.get? (List.zipWith (· + ·) i (axes.map (·.lo)) ++ [ca + k]) = some y) ∧
      d.numComps = cb - ca ∧ d.numDims = axes.length ∧ FrameMeta shw f d.ctx.other ∧
      Dict.get? d.ctx.other "grid_type" = some "uniform" ∧ d.tag = tag ∧ d.status = true ∧
      ((∀ a ∈ axes, a.lo = 0 ∧ a.hi = a.cells) → d.numCells = some (axes.map fun a => a.hi - a.lo) ∧
        d.bounds = .ok (some (axes.map (·.lower), axes.map (·.upper)))) := by
  obtain ⟨data, other, h1, h2, h3, h4, h5⟩ := frame_data pf shw hfr hv hf hax hnc hcd hcc tag label
  refine ⟨_, data, h1, rfl, rfl, h2.shape, fun i k hi hk => ?_, ?_, ?_, h4, h5, rfl, rfl, fun hw => ⟨?_, rfl⟩⟩
  · obtain ⟨y, hy⟩ := Option.isSome_iff_exists.1 (h3 i k hi hk)
    refine ⟨y, ?_, hy⟩
    rw [h2.get i hi k hk, hy]; rfl
  · have hlt := denotes_lt hnc hcd
    obtain ⟨m, hm⟩ : ∃ m, cb - ca = m + 1 := ⟨cb - ca - 1, by omega⟩
    simp only [GData.numComps, hm]
  · simp [GData.numDims, GData.numCells]
  · simp only [GData.numCells]
    congr 1
    exact List.map_congr_left fun a ha => by rw [(hw a ha).1, (hw a ha).2, Nat.sub_zero]

/-- Full C128 is false of the code: a dataset of which only some of the cells are loaded says that it has all the cells of the
file, and the bounds of the whole domain. -/
theorem C128_part_fails (pf : List Char → Option F) (shw : NArr F → String) {f : File F} (hfr : IsFrameFile f) {name : String}
    {click : Option (List String)} {var : NArr F} (hv : VariableIs f.vars name click var) {axes : List (UniAxis F)} {nc : Nat}
    (hf : IsFrame ⟨f.lower, f.upper, f.cells, var⟩ axes nc) (hax : ∀ a ∈ axes, a.OK ∧ UniAxis.Closed a.z) (hnc : 0 < nc)
    {comp : Option (IdxArg F)} {ca cb : Nat} (hcd : Denotes ([] : List F) nc comp ca cb) (hcc : UniAxis.Closed comp)
    (tag label : List Char) {a : UniAxis F} (ha : a ∈ axes) (hpart : a.hi - a.lo ≠ a.cells) :
    ∃ d v, ofFile pf shw (axes.map (·.z)) comp name none click tag label f = .ok d ∧ d.values = some v ∧
      d.numCells = some (axes.map (·.cells)) ∧ d.numCells ≠ some v.shape.dropLast ∧
      d.bounds = .ok (some (axes.map (·.lower), axes.map (·.upper))) := by
  obtain ⟨data, other, h1, h2, -⟩ := frame_data pf shw hfr hv hf hax hnc hcd hcc tag label
  refine ⟨_, data, h1, rfl, rfl, fun h => ?_, rfl⟩
  rw [h2.shape, List.dropLast_concat] at h
  simp only [GData.numCells, Option.some.injEq] at h
  exact hpart (List.map_inj_left.1 h a ha).symm

omit [IsStrictOrderedRing F] in
/-- C128: in a script a variable that is not there is refused (with an exception that does not name the variable). -/
theorem C128_unknown_variable (pf : List Char → Option F) (shw : NArr F → String) {f : File F} (hfr : IsFrameFile f)
    {name : String} (hv : Dict.get? f.vars name = none) (zs : List (Option (IdxArg F))) (comp : Option (IdxArg F))
    (c2p : Option (NArr F)) (tag label : List Char) :
    ofFile pf shw zs comp name c2p none tag label f = .error .unboundLocal := by
  rw [isFrame_dispatch hfr]
  simp only [ofFrame, pickVar, hv, bind, Except.bind]

/-- C128: with a mapping file and no selection of cells, the grid has for each direction its own coefficients, and the data
are those of the frame. -/
theorem C128_mapped (pf : List Char → Option F) (shw : NArr F → String) {f : File F} (hfr : IsFrameFile f) {name : String}
    {click : Option (List String)} {var : NArr F} (hv : VariableIs f.vars name click var) {axes : List (UniAxis F)} {nc : Nat}
    (hf : IsFrame ⟨f.lower, f.upper, f.cells, var⟩ axes nc) (hax : ∀ a ∈ axes, a.OK ∧ a.z = none) (hne : axes ≠ []) (hnc : 0 < nc)
    {comp : Option (IdxArg F)} {ca cb : Nat} (hcd : Denotes ([] : List F) nc comp ca cb) (hcc : UniAxis.Closed comp)
    {map : NArr F} (hm : map.WF) {nk : Nat} {ns : List Nat} (hms : map.shape = ns ++ [axes.length * nk]) (tag label : List Char) :
    ∃ d g v, ofFile pf shw (axes.map (·.z)) comp name (some map) click tag label f = .ok d ∧
      d.grid = some g ∧ g.length = axes.length ∧
      (∀ i a, g[i]? = some a → a.WF ∧ a.shape = ns ++ [nk] ∧
        ∀ idx k, inRange ns idx = true → k < nk → a.get? (idx ++ [k]) = map.get? (idx ++ [i * nk + k])) ∧
      d.values = some v ∧ v.shape = axes.map (·.cells) ++ [cb - ca] ∧
      (∀ i k, inRange (axes.map (·.cells)) i = true → k < cb - ca → v.get? (i ++ [k]) = var.get? (i ++ [ca + k])) ∧
      d.numComps = cb - ca ∧ d.numCells = some (axes.map (·.cells)) ∧
      d.bounds = .ok (some (axes.map (·.lower), axes.map (·.upper))) ∧ FrameMeta shw f d.ctx.other ∧
      Dict.get? d.ctx.other "grid_type" = some "c2p" ∧ d.tag = tag ∧ d.status = true := by
  have hclosed : ∀ a ∈ axes, a.OK ∧ UniAxis.Closed a.z := fun a ha =>
    ⟨(hax a ha).1, by rw [(hax a ha).2]; exact ⟨fun k h => (by cases h), nofun⟩⟩
  have hw : ∀ a ∈ axes, a.lo = 0 ∧ a.hi = a.cells := fun a ha => by
    have := (hax a ha).1.2.2
    rw [(hax a ha).2] at this
    exact denotes_none this
  obtain ⟨data, h1, h2, h3, h4⟩ := C52_load_partial pf hf hclosed hnc hcd hcc
  have hzs : ∀ z ∈ axes.map (·.z), z = none := fun z hz => by
    obtain ⟨a, ha, rfl⟩ := List.mem_map.1 hz
    exact (hax a ha).2
  obtain ⟨g, g1, g2, g3⟩ := C52_mapped_whole pf hm hms (List.length_pos_iff.2 hne) hzs
  obtain ⟨c, hpick, hmeta⟩ := pickVar_ok hv shw
  have hcells : (axes.map fun a => a.hi - a.lo) = axes.map (·.cells) :=
    List.map_congr_left fun a ha => by rw [(hw a ha).1, (hw a ha).2, Nat.sub_zero]
  obtain ⟨l1, l2, l3, l4, l5⟩ := hf
  simp only at l1 l2 l3 l5
  have hdims : f.cells.length = axes.length := by rw [l3]; simp
  obtain ⟨d, hd⟩ : ∃ d : GData F, d =
      { grid := some g, values := some data
        ctx := { cells := some f.cells, lower := some f.lower, upper := some f.upper, numComps := some (cb - ca)
                 other := Dict.set c "grid_type" "c2p" }
        tag := tag, customLabel := label } := ⟨_, rfl⟩
  refine ⟨d, g, data, ?_, by rw [hd], g2, g3, by rw [hd], by rw [h3, hcells], fun i k hi hk => ?_, ?_, ?_, ?_, ?_, ?_,
    by rw [hd], by rw [hd]⟩
  · rw [isFrame_dispatch hfr, hd]
    simp only [ofFrame, hpick, h1, frameGrid, hdims, g1, recordedComps_snoc h3, bind, Except.bind, pure, Except.pure,
      meshCtx, Option.isSome_some, Bool.or_true, if_true]
  · rw [h4 i k (by rw [hcells]; exact hi) hk]
    congr 2
    have hlo : axes.map (·.lo) = List.replicate axes.length 0 :=
      List.eq_replicate_iff.2 ⟨by simp, fun x hx => by
        obtain ⟨a, ha, rfl⟩ := List.mem_map.1 hx
        exact (hw a ha).1⟩
    have hil : i.length = axes.length := by simpa using inRange_length hi
    rw [hlo, ← hil]
    clear * - 
    induction i with
    | nil => rfl
    | cons x xs ih => simp [List.replicate_succ, ih]
  · have hlt := denotes_lt hnc hcd
    obtain ⟨m, hm⟩ : ∃ m, cb - ca = m + 1 := ⟨cb - ca - 1, by omega⟩
    simp only [hd, GData.numComps, hm]
  · rw [hd]; exact congrArg some l3
  · rw [hd]; simp only [GData.bounds, l1, l2]
  · rw [hd]; exact frameMeta_set hmeta _
  · rw [hd]; exact Dict.get?_set_self _ _ _

omit [IsStrictOrderedRing F] in
theorem axesOC_none (pf : List Char → Option F) : ∀ (ns : List Nat) (zs : List (Option (IdxArg F))) (grid : Option (List (NArr F))),
    (∀ z ∈ zs, z = none) → ∃ l, axesOC pf ns zs grid = .ok l
  | [], _, _, _ => ⟨[], rfl⟩
  | n :: ns, zs, grid, h => by
    obtain ⟨l, hl⟩ := axesOC_none pf ns zs.tail (grid.map List.tail) fun z hz => h z (List.mem_of_mem_tail hz)
    have h0 : zs.headD none = none := by
      cases zs with
      | nil => rfl
      | cons z zs => exact h z (by simp)
    exact ⟨(0, (n : Int)) :: l, by simp only [axesOC, axisOC, h0, hl, bind, Except.bind, pure, Except.pure]⟩

/-- Full C128 is false of the code: a frame that is stored with `e` cells more than the domain has, as ghost cells around it, is put on
a mesh inside the domain: the half of the ghost cells (at the lower end rounded up) is taken off the domain instead of added to it;
its recorded bounds are the wrong ones, too. -/
theorem C128_ghost_fails (pf : List Char → Option F) (shw : NArr F → String) {f : File F} (hfr : IsFrameFile f) {name : String}
    {click : Option (List String)} {var : NArr F} (hv : VariableIs f.vars name click var) {axes : List (UniAxis F)} {nc e : Nat}
    (h1 : f.lower = axes.map (·.lower)) (h2 : f.upper = axes.map (·.upper)) (h3 : f.cells = axes.map (·.cells))
    (hs : var.shape = axes.map (fun a => a.cells + e) ++ [nc]) (he : 0 < e)
    (hax : ∀ a ∈ axes, 0 < a.cells ∧ a.lower < a.upper ∧ a.z = none) (tag label : List Char) :
    ∃ (d : GData F) (gr : List (NArr F)), ofFile pf shw (axes.map (·.z)) none name none click tag label f = .ok d ∧
      d.grid = some gr ∧ d.values = some var ∧ gr.length = axes.length ∧
      d.numCells = some (axes.map fun a => a.cells + e) ∧
      d.bounds = .ok (some (axes.map (fun a => a.lower + (((e + 1) / 2 : Nat) : F) * ((a.upper - a.lower) / (a.cells : F))),
        axes.map (fun a => a.upper - ((e / 2 : Nat) : F) * ((a.upper - a.lower) / (a.cells : F))))) ∧
      ∀ (i : Nat) (a : UniAxis F), axes[i]? = some a → ∃ x : NArr F, gr[i]? = some x ∧ x.shape = [a.cells + e + 1] ∧
        x.get? [0] = some (a.lower + (((e + 1) / 2 : Nat) : F) * ((a.upper - a.lower) / (a.cells : F))) ∧
        ∀ y, x.get? [0] = some y → a.lower < y := by
  have hzs : ∀ z ∈ axes.map (·.z), z = none := fun z hz => by
    obtain ⟨a, ha, rfl⟩ := List.mem_map.1 hz
    exact (hax a ha).2.2
  have hany : ((axes.map (·.z)).take (var.shape.length - 1)).any Option.isSome = false := by
    rw [List.any_eq_false]
    intro z hz
    rw [hzs z (List.mem_of_mem_take hz)]
    simp
  obtain ⟨l, hl⟩ := axesOC_none pf var.shape.dropLast (axes.map (·.z))
    (some (uniformGrid ⟨f.lower, f.upper, f.cells, var⟩)) hzs
  obtain ⟨c, hpick, -⟩ := pickVar_ok hv shw
  have hlf : loadFrame pf ⟨f.lower, f.upper, f.cells, var⟩ (axes.map (·.z)) none =
      .ok (axes.map fun a => gridAxis (a.lower, a.upper, (a.cells : Int)) (a.cells + e), var) := by
    simp only [loadFrame, createOffsetCount, hl, compOC, hany, Bool.false_or, Option.isSome_none, Bool.false_eq_true, if_false,
      readBlock, bind, Except.bind, pure, Except.pure]
    congr 2
    rw [h1, h2, h3, hs]
    clear * -
    induction axes with
    | nil => rfl
    | cons a as ih =>
      simp only [List.map_cons, List.zip_cons_cons, List.zipWith_cons_cons, List.cons_append, restrict] at ih ⊢
      rw [ih]
  have hnodes : ∀ a ∈ axes, gridAxis (a.lower, a.upper, (a.cells : Int)) (a.cells + e) =
      linspace (a.lower + (((e + 1) / 2 : Nat) : F) * ((a.upper - a.lower) / (a.cells : F))) (a.upper - ((e / 2 : Nat) : F) * ((a.upper - a.lower) / (a.cells : F)))
        (a.cells + e + 1) := by
    intro a _
    have e1 : ((a.cells : Int) - ((a.cells + e : Nat) : Int)) / 2 = -(((e + 1) / 2 : Nat) : Int) := by push_cast; omega
    have e2 : ((a.cells : Int) - ((a.cells + e : Nat) : Int)) - -(((e + 1) / 2 : Nat) : Int) = -((e / 2 : Nat) : Int) := by push_cast; omega
    simp only [gridAxis, ghostBounds]
    rw [if_pos (by push_cast; omega), e1, e2]
    simp only [Int.cast_neg, Int.cast_natCast]
    congr 1 <;> ring
  have hadj : (adjusted f var.shape).map Prod.fst = axes.map (fun a => a.lower + (((e + 1) / 2 : Nat) : F) * ((a.upper - a.lower) / (a.cells : F))) ∧
      (adjusted f var.shape).map Prod.snd = axes.map (fun a => a.upper - ((e / 2 : Nat) : F) * ((a.upper - a.lower) / (a.cells : F))) := by
    unfold adjusted
    rw [h1, h2, h3, hs]
    clear * - he
    induction axes with
    | nil => exact ⟨rfl, rfl⟩
    | cons a as ih =>
      have e1 : ((a.cells : Int) - ((a.cells + e : Nat) : Int)) / 2 = -(((e + 1) / 2 : Nat) : Int) := by push_cast; omega
      have e2 : ((a.cells : Int) - ((a.cells + e : Nat) : Int)) - -(((e + 1) / 2 : Nat) : Int) = -((e / 2 : Nat) : Int) := by push_cast; omega
      have hgb : ghostBounds (a.cells : Int) (a.cells + e) a.lower a.upper =
          (a.lower + (((e + 1) / 2 : Nat) : F) * ((a.upper - a.lower) / (a.cells : F)), a.upper - ((e / 2 : Nat) : F) * ((a.upper - a.lower) / (a.cells : F))) := by
        simp only [ghostBounds]
        rw [if_pos (by push_cast; omega), e1, e2]
        simp only [Int.cast_neg, Int.cast_natCast]
        congr 1 <;> ring
      simp only [List.map_cons, List.zip_cons_cons, List.cons_append, List.zipWith_cons_cons, hgb]
      exact ⟨by rw [ih.1], by rw [ih.2]⟩
  have hd : ∃ ctx : Ctx F, ofFile pf shw (axes.map (·.z)) none name none click tag label f = .ok
      { grid := some ((axes.map fun a => gridAxis (a.lower, a.upper, (a.cells : Int)) (a.cells + e)).map NArr.ofList)
        values := some var, ctx := ctx, tag := tag, customLabel := label } ∧
      ctx.cells = some (var.shape.take f.cells.length) ∧ ctx.lower = some ((adjusted f var.shape).map Prod.fst) ∧
      ctx.upper = some ((adjusted f var.shape).map Prod.snd) := by
    rw [isFrame_dispatch hfr]
    simp only [ofFrame, hpick, hlf, frameGrid, recordedComps_snoc hs, bind, Except.bind, pure, Except.pure]
    refine ⟨_, rfl, ?_⟩
    simp only [meshCtx, hany, Option.isSome_none, Bool.or_false, Bool.false_eq_true, if_false, and_self]
  obtain ⟨ctx, hd, c1, c2, c3⟩ := hd
  refine ⟨_, _, hd, rfl, rfl, ?_, ?_, ?_, fun i a hi => ?_⟩
  · simp
  · rw [hs, h3, List.take_left' (by simp)] at c1
    simp only [GData.numCells, c1]
  · simp only [GData.bounds, c2, c3, hadj.1, hadj.2]
  · have ha := List.mem_of_getElem? hi
    obtain ⟨hc, hlt, -⟩ := hax a ha
    have hget : (NArr.ofList (linspace (a.lower + (((e + 1) / 2 : Nat) : F) * ((a.upper - a.lower) / (a.cells : F)))
        (a.upper - ((e / 2 : Nat) : F) * ((a.upper - a.lower) / (a.cells : F))) (a.cells + e + 1))).get? [0] =
        some (a.lower + (((e + 1) / 2 : Nat) : F) * ((a.upper - a.lower) / (a.cells : F))) := by
      have := linspace_get (a.lower + (((e + 1) / 2 : Nat) : F) * ((a.upper - a.lower) / (a.cells : F)))
        (a.upper - ((e / 2 : Nat) : F) * ((a.upper - a.lower) / (a.cells : F))) (m := a.cells + e) (i := 0) (by omega) (by omega)
      rw [NArr.ofList_get?, this]
      simp
    refine ⟨NArr.ofList (gridAxis (a.lower, a.upper, (a.cells : Int)) (a.cells + e)),
      by rw [List.getElem?_map, List.getElem?_map, hi]; rfl, ?_, ?_, ?_⟩
    · rw [hnodes a ha]; simp [NArr.ofList, linspace_length]
    · rw [hnodes a ha]; exact hget
    · intro y hy
      rw [hnodes a ha, hget] at hy
      obtain rfl := Option.some.inj hy
      have hcF : (0 : F) < a.cells := by exact_mod_cast hc
      have hgF : (0 : F) < (((e + 1) / 2 : Nat) : F) := by exact_mod_cast (show 0 < (e + 1) / 2 by omega)
      have : 0 < (((e + 1) / 2 : Nat) : F) * ((a.upper - a.lower) / (a.cells : F)) := mul_pos hgF (div_pos (sub_pos.2 hlt) hcF)
      linarith

omit [LinearOrder F] [IsStrictOrderedRing F] in
theorem part_mesh (axes : List (UniAxis F)) : IsMesh (axes.map fun a => NArr.ofList a.partNodes) (framePart axes) := by
  induction axes with
  | nil => exact .nil
  | cons a as ih =>
    refine .cons ⟨?_, ?_⟩ ih
    · simp [NArr.ofList, UniAxis.partNodes]
    · simp only [NArr.ofList, UniAxis.partNodes]
      refine List.map_congr_left fun i _ => ?_
      simp only [UniAxis.node, Axis.node]
      push_cast
      ring

/-- **C128.**  A frame with the coefficients of an expansion, whose attributes tell order and basis: loading any part of it
and interpolating without any option gives, at the midpoint of every refined cell, the value there of the expansion with the
coefficients that the variable has in the cell. -/
theorem C128_interpolate (pf : List Char → Option F) (shw : NArr F → String) {f : File F} (hfr : IsFrameFile f) {name : String}
    {click : Option (List String)} {var : NArr F} (hv : VariableIs f.vars name click var) {axes : List (UniAxis F)} {nc : Nat}
    (hf : IsFrame ⟨f.lower, f.upper, f.cells, var⟩ axes nc) (hax : ∀ a ∈ axes, a.OK ∧ UniAxis.Closed a.z) (hne : axes ≠ [])
    (hnc : 0 < nc) {comp : Option (IdxArg F)} {ca cb : Nat} (hcd : Denotes ([] : List F) nc comp ca cb)
    (hcc : UniAxis.Closed comp) {p : Nat} {b : String} (hp : 1 ≤ p)
    (hpo : Dict.get? f.attrs "polyOrder" = some (String.ofList (dec p))) (hb : Dict.get? f.attrs "basisType" = some b)
    {fns : List Dg.Poly} (hq : (frameCase var axes ca cb p b fns).Supported) (h5 : Except Err (List (List F)))
    (tag label : List Char) :
    ∃ d g v r, ofFile pf shw (axes.map (·.z)) comp name none click tag label f = .ok d ∧
      Cmd.interpolateOf h5 none none none d = .ok (g, v) ∧ d.push g v = .ok r ∧
      (frameCase var axes ca cb p b fns).Interpolated d r := by
  obtain ⟨data, other, h1, h2, -, h4, h5'⟩ := frame_data pf shw hfr hv hf hax hnc hcd hcc tag label
  have hmesh := part_mesh axes
  have hlt := denotes_lt hnc hcd
  have hfits : (frameCase var axes ca cb p b fns).Fits none none none
      { grid := some (axes.map fun a => NArr.ofList a.partNodes), values := some data
        ctx := { cells := some (axes.map (·.cells)), numComps := some (cb - ca), lower := some (axes.map (·.lower))
                 upper := some (axes.map (·.upper)), other := other }
        tag := tag, customLabel := label } := by
    refine ⟨⟨⟨_, ⟨rfl, by simp [frameCase], (Cmd.mesh_length hmesh).2, data, rfl, h2⟩, hmesh⟩, ⟨?_, ?_⟩, h5', ?_, ?_, ?_⟩,
      ⟨.inr ⟨rfl, ?_, hp⟩, .inr ⟨rfl, ?_, ?_⟩, .inr ⟨rfl, rfl⟩, ?_⟩, hq⟩
    · simp [GData.numDims, GData.numCells, frameCase]
    · obtain ⟨m, hm⟩ : ∃ m, cb - ca = m + 1 := ⟨cb - ca - 1, by omega⟩
      simp only [GData.numComps, frameCase, hm]
    · simp [frameCase, framePart]
    · intro a ha
      obtain ⟨u, hu, rfl⟩ := List.mem_map.1 ha
      obtain ⟨⟨k1, k2, -⟩, -⟩ := hax u hu
      have : (u.cells : F) ≠ 0 := by exact_mod_cast (by omega : u.cells ≠ 0)
      exact div_ne_zero (sub_ne_zero.2 k2.ne') this
    · simp only [frameCase, List.length_map]
      exact List.length_pos_iff.2 hne
    · exact (h4.attrs ("polyOrder", "poly_order") (by simp [attrKeys])).trans hpo
    · exact (h4.attrs ("basisType", "basis_type") (by simp [attrKeys])).trans hb
    · rw [h4.modal, if_neg (by simp [hpo])]
    · simp only [frameCase]; omega
  obtain ⟨g, v, e1, e2⟩ := interpolate_stored h5 hfits
  obtain ⟨r, e3, e4⟩ := e2 _ rfl
  exact ⟨_, g, v, r, h1, e1, e3, e4 _ hfits⟩

omit [IsStrictOrderedRing F] in
/-- **C128.**  A file with the pieces of a history is loaded as one dataset with one dimension: all times are its grid, all
rows its values; the options that select cells, components or a variable do not matter. -/
theorem C128_history (pf : List Char → Option F) (shw : NArr F → String) {f : File F} {nc : Nat} {p : Piece F}
    {ps : List (Piece F)} (hvars : HasPieces (f.vars.map fun q => q.1.toList) (p :: ps)) (ho : InOrder (p :: ps))
    (hok : ∀ q ∈ p :: ps, q.OK nc) (hnc : 0 < nc)
    (htimes : ∀ q ∈ p :: ps, ∃ a, Dict.get? f.vars (String.ofList q.timeName) = some a ∧ q.TimesIn a)
    (hfirst : ∃ a, Dict.get? f.vars (String.ofList p.dataName) = some a ∧ p.RowsIn nc a)
    (hrest : ∀ q ∈ ps, ∃ a, Dict.get? f.vars (String.ofList q.dataName) = some a ∧ (q.RowsIn nc a ∨ q.FlatIn nc a))
    (zs : List (Option (IdxArg F))) (comp : Option (IdxArg F)) (name : String) (c2p : Option (NArr F))
    (click : Option (List String)) (tag label : List Char) :
    ∃ d grid values, ofFile pf shw zs comp name c2p click tag label f = .ok d ∧ d.grid = some [grid] ∧ d.values = some values ∧
      IsWholeHistory (p :: ps) nc grid values ∧ d.numComps = nc ∧
      d.numCells = some [((p :: ps).flatMap Piece.times).length] ∧ d.numDims = 1 ∧ d.tag = tag ∧ d.status = true := by
  obtain ⟨q, hq, hpre⟩ : ∃ q ∈ f.vars, "TimeMesh".toList <:+: q.1.toList := by
    obtain ⟨others, -, hp⟩ := hvars
    have : p.timeName ∈ f.vars.map fun q => q.1.toList := hp.symm.subset (by simp)
    obtain ⟨q, hq, e⟩ := List.mem_map.1 this
    exact ⟨q, hq, by rw [e]; exact ⟨[], p.numText, rfl⟩⟩
  obtain ⟨grid, values, h1, h2, h3⟩ := C113_history_partial (read := readVar f.vars) hvars ho hok
    (fun q hq => by obtain ⟨a, e, h⟩ := htimes q hq; exact ⟨a, by simp only [readVar, e], h⟩)
    (by obtain ⟨a, e, h⟩ := hfirst; exact ⟨a, by simp only [readVar, e], h⟩)
    (fun q hq => by obtain ⟨a, e, h⟩ := hrest q hq; exact ⟨a, by simp only [readVar, e], h⟩)
  obtain ⟨d, hdef⟩ : ∃ d : GData F, d = {
    grid := some [grid], values := some values
    ctx := { numComps := some nc, other := [("grid_type", "uniform")] }, tag := tag, customLabel := label } := ⟨_, rfl⟩
  have hcells : d.numCells = some [((p :: ps).flatMap Piece.times).length] := by
    rw [hdef]
    simp only [GData.numCells, Option.map_some, h2.shape, List.dropLast]
  refine ⟨d, grid, values, ?_, by rw [hdef], by rw [hdef], h2, ?_, hcells, ?_, by rw [hdef], by rw [hdef]⟩
  · rw [isHistory_dispatch hq hpre, hdef]
    clear hpre
    simp only [ofHistory, h1, h3, bind, Except.bind, pure, Except.pure]
  · obtain ⟨m, rfl⟩ : ∃ m, nc = m + 1 := ⟨nc - 1, by omega⟩
    simp only [hdef, GData.numComps]
  · simp [GData.numDims, hcells]

end field

/-! ### Examples -/

namespace AdiosDataEx
open AdiosEx

/-- two by three cells with four coefficients each -/
def var : NArr ℚ := ⟨[2, 3, 4], (List.range 24).map fun k => (k : ℚ)⟩
def file : File ℚ where
  lower := [0, -3]
  upper := [2, 3]
  cells := [2, 3]
  attrs := [("polyOrder", "1"), ("basisType", "serendipity"), ("charge", "-1.0")]
  vars := [("CartGridField", var), ("time", ⟨[], [5]⟩)]

theorem isFrameFile : IsFrameFile file := by
  intro p hp
  simp only [file, List.mem_cons, List.not_mem_nil, or_false] at hp
  rcases hp with rfl | rfl <;> decide +kernel

def axs : List (UniAxis ℚ) := [ax (some (.int 1)) 1 2, ay (some (.float (5/2))) 2 3]
theorem isFrame' : IsFrame ⟨file.lower, file.upper, file.cells, var⟩ axs 4 := ⟨rfl, rfl, rfl, by show _ = _; decide +kernel, rfl⟩

/-- The hypotheses of `C128_frame_partial` and `C128_part_fails`: one of six cells is loaded, and the dataset says that it
has all six. -/
example (pf : List Char → Option ℚ) : ∃ d v, ofFile pf (fun _ => "t") [some (.int 1), some (.float (5/2))] none "CartGridField"
      none none [] [] file = .ok d ∧ d.values = some v ∧ d.numCells = some [2, 3] ∧ d.numCells ≠ some v.shape.dropLast ∧
      d.bounds = .ok (some ([0, -3], [2, 3])) :=
  C128_part_fails pf (fun _ => "t") isFrameFile (.named (by decide +kernel) none) isFrame' ok (by decide)
    (comp := none) .all ⟨nofun, nofun⟩ [] [] (a := ay (some (.float (5/2))) 2 3) (by simp [axs]) (by decide)

/-- Those of `C128_interpolate`, with a name that is typed at the prompt. -/
example (pf : List Char → Option ℚ) : ∃ d g v r, ofFile pf (fun _ => "t") [some (.int 1), some (.float (5/2))] none "Field"
      none (some ["x", "CartGridField"]) [] [] file = .ok d ∧
      Cmd.interpolateOf (.error .fail) none none none d = .ok (g, v) ∧ d.push g v = .ok r ∧
      (frameCase var axs 0 4 1 "serendipity" DgEx.fns).Interpolated d r :=
  C128_interpolate pf (fun _ => "t") isFrameFile
    (.typed (by decide +kernel) ["x"] [] (by simp [file, Dict.get?]) (by decide +kernel)) isFrame' ok (by simp [axs]) (by decide)
    (comp := none) .all ⟨nofun, nofun⟩ le_rfl (by decide +kernel) (by decide +kernel)
    { fns := DgEx.fns_interp, line := fun h => by simp [frameCase, axs] at h, zero := fun h => by simp [frameCase] at h
      fields := by show 1 ≤ DgEx.fns.length ∧ DgEx.fns.length ≤ 4; rw [DgEx.fns_length]; decide } (.error .fail) [] []

/-- Those of `C128_unknown_variable`. -/
example (pf : List Char → Option ℚ) : ofFile pf (fun _ => "t") [] none "Field" none none [] [] file = .error .unboundLocal :=
  C128_unknown_variable pf (fun _ => "t") isFrameFile (by decide +kernel) [] none none [] []

/-- Those of `C128_mapped`. -/
example (pf : List Char → Option ℚ) : ∃ d g v, ofFile pf (fun _ => "t") [none, none] none "CartGridField"
      (some ⟨[2, 3, 4], (List.range 24).map fun k => (k : ℚ)⟩) none [] [] file = .ok d ∧ d.grid = some g ∧ g.length = 2 ∧
      d.values = some v := by
  obtain ⟨d, g, v, h1, h2, h3, -, h4, -⟩ := C128_mapped pf (fun _ => "t") isFrameFile
    (name := "CartGridField") (click := none) (var := var) (.named (by decide +kernel) none)
    (axes := [ax none 0 2, ay none 0 3]) (nc := 4) ⟨rfl, rfl, rfl, by show _ = _; decide +kernel, rfl⟩
    (by
      intro a ha
      simp only [List.mem_cons, List.not_mem_nil, or_false] at ha
      rcases ha with rfl | rfl
      · exact ⟨⟨by decide, by norm_num [ax], .all⟩, rfl⟩
      · exact ⟨⟨by decide, by norm_num [ay], .all⟩, rfl⟩)
    (by simp) (by decide) (comp := none) .all ⟨nofun, nofun⟩
    (map := ⟨[2, 3, 4], (List.range 24).map fun k => (k : ℚ)⟩) (by show _ = _; decide +kernel) (nk := 2) (ns := [2, 3]) rfl [] []
  exact ⟨d, g, v, h1, h2, h3, h4⟩

/-- Those of `C128_ghost_fails`: one axis with two cells and a ghost cell on each side, on a domain from 0 to 2; the mesh
begins at 1. -/
example (pf : List Char → Option ℚ) : ∃ (d : GData ℚ) (gr : List (NArr ℚ)) (x : NArr ℚ), ofFile pf (fun _ => "t") [none] none "CartGridField" none none [] []
      ⟨[0], [2], [2], [], [("CartGridField", ⟨[4, 1], [7, 1, 2, 7]⟩)]⟩ = .ok d ∧ d.grid = some gr ∧ gr[0]? = some x ∧
      x.get? [0] = some 1 := by
  obtain ⟨d, gr, h1, h2, -, -, h3⟩ := C128_ghost_fails pf (fun _ => "t")
    (f := ⟨[0], [2], [2], [], [("CartGridField", ⟨[4, 1], [7, 1, 2, 7]⟩)]⟩) (name := "CartGridField") (click := none)
    (by
      intro p hp
      simp only [List.mem_cons, List.not_mem_nil, or_false] at hp
      subst hp
      decide +kernel)
    (.named (v := ⟨[4, 1], [7, 1, 2, 7]⟩) (by simp [Dict.get?]) none) (axes := [ax none 0 2]) (nc := 1) (e := 2) rfl rfl rfl rfl
    (by decide) (by
      intro a ha
      simp only [List.mem_cons, List.not_mem_nil, or_false] at ha
      subst ha
      exact ⟨by decide, by norm_num [ax], rfl⟩) [] []
  obtain ⟨x, k1, -, k2, -⟩ := h3.2.2 0 (ax none 0 2) rfl
  refine ⟨d, gr, x, h1, h2, k1, ?_⟩
  rw [k2]
  norm_num [ax]

/-- The pieces of the example of C113 as a file. -/
def historyFile : File ℚ where
  lower := []
  upper := []
  cells := []
  attrs := []
  vars := [("TimeMesh", ⟨[2], [0, 1]⟩), ("TimeMesh10", ⟨[2], [3, 4]⟩), ("TimeMesh2", ⟨[], [2]⟩), ("Data", ⟨[2, 1], [5, 6]⟩),
    ("Data10", ⟨[2], [8, 9]⟩), ("Data2", ⟨[], [7]⟩), ("version", ⟨[], [1]⟩)]

/-- The hypotheses of `C128_history`. -/
example (pf : List Char → Option ℚ) : ∃ d grid values, ofFile pf (fun _ => "t") [some (.int 0)] none "x" none none [] [] historyFile =
      .ok d ∧ d.grid = some [grid] ∧ d.values = some values ∧ IsWholeHistory DiagEx.pieces 1 grid values ∧ d.numComps = 1 ∧
      d.numCells = some [5] ∧ d.numDims = 1 ∧ d.tag = [] ∧ d.status = true :=
  C128_history pf (fun _ => "t") (f := historyFile) (p := DiagEx.pieces.head (by decide)) (ps := DiagEx.pieces.tail)
    ⟨["version".toList], by decide +kernel, by decide +kernel⟩ DiagEx.order (by simp [Piece.OK, DiagEx.pieces]) (by decide)
    (by
      simp only [DiagEx.pieces, List.head_cons, List.tail_cons, List.forall_mem_cons]
      exact ⟨⟨⟨[2], [0, 1]⟩, by decide +kernel, rfl, .inl rfl⟩, ⟨⟨[], [2]⟩, by decide +kernel, rfl, .inr ⟨rfl, rfl⟩⟩,
        ⟨⟨[2], [3, 4]⟩, by decide +kernel, rfl, .inl rfl⟩, by simp⟩)
    ⟨⟨[2, 1], [5, 6]⟩, by decide +kernel, rfl, rfl⟩
    (by
      simp only [DiagEx.pieces, List.tail_cons, List.forall_mem_cons]
      exact ⟨⟨⟨[], [7]⟩, by decide +kernel, .inr ⟨rfl, rfl, .inr ⟨rfl, rfl⟩⟩⟩,
        ⟨⟨[2], [8, 9]⟩, by decide +kernel, .inr ⟨rfl, rfl, .inl rfl⟩⟩, by simp⟩)
    _ none "x" none none [] []

end AdiosDataEx
end Adios
end Pgkyl
