import Mathlib.Algebra.Order.Field.Basic
import Mathlib.Tactic.FieldSimp
import Mathlib.Tactic.Ring
import Mathlib.Tactic.Positivity
import Verif.Model.Adios
import Verif.Spec.Adios
import Verif.Props.Idx
import Verif.Lemmas.Select
import Verif.Lemmas.GkylOpen
/-! # C52: partial loading of ADIOS files -/

namespace Pgkyl
open Spec Adios NArr
open GkylReader (linspace linspace_get linspace_length ghostBounds)

section order
variable {F : Type} [LinearOrder F]

theorem denotes_lt {nodes : List F} {n : Nat} {z : Option (IdxArg F)} {a b : Nat} (hn : 0 < n)
    (h : Denotes nodes n z a b) : a < b := by
  cases h <;> omega

theorem denotes_none {nodes : List F} {n a b : Nat} (h : Denotes nodes n none a b) : a = 0 ∧ b = n := by
  cases h; exact ⟨rfl, rfl⟩

/-- the offset and count of a selection, with a grid of `n + 1` nodes -/
theorem offsetCount_denotes (pf : List Char → Option F) {nodes : List F} {n : Nat} {z : IdxArg F} {a b : Nat}
    (hs : Increasing nodes) (hl : nodes.length = n + 1) (h : Denotes nodes n (some z) a b)
    (hc : UniAxis.Closed (some z)) :
    (idxParser pf z (some (NArr.ofList nodes)) false >>= offsetCount) = .ok ((a : Int), ((b - a : Nat) : Int)) := by
  cases h with
  | index i h => simp [idxParser, offsetCount, bind, Except.bind]
  | indexStr i h => simp [C10_index_string, offsetCount, bind, Except.bind]
  | range a b h hb => simp [C10_slice_string, offsetCount, bind, Except.bind]; omega
  | «from» a h => exact absurd rfl (hc.1 a)
  | whole => exact absurd rfl hc.2
  | upto b h hb => simp [C10_open_start, offsetCount, bind, Except.bind]
  | coord c i hcl h =>
    have h2 : 2 ≤ nodes.length := by
      obtain ⟨lo, hi, h1, h2, -⟩ := h
      have := (List.getElem?_eq_some_iff.1 h2).1
      omega
    obtain ⟨j, hj, hcell⟩ := C09_coordinate_selects_containing_cell pf nodes hs h2 c
    rw [hj, C09_cell_unique hs h hcell]
    simp [offsetCount, bind, Except.bind]
  | nodalCoord c i hcl h hi => omega

/-- the same for the components, which have no coordinates -/
theorem offsetCount_comp (pf : List Char → Option F) {nc : Nat} {comp : Option (IdxArg F)} {a b : Nat}
    (h : Denotes ([] : List F) nc comp a b) (hc : UniAxis.Closed comp) :
    compOC pf nc comp = .ok ((a : Int), ((b - a : Nat) : Int)) := by
  cases h with
  | all => simp [compOC]
  | index i h => simp [compOC, idxParser, offsetCount, bind, Except.bind]
  | indexStr i h => simp [compOC, C10_index_string, offsetCount, bind, Except.bind]
  | range a b h hb => simp [compOC, C10_slice_string, offsetCount, bind, Except.bind]; omega
  | «from» a h => exact absurd rfl (hc.1 a)
  | whole => exact absurd rfl hc.2
  | upto b h hb => simp [compOC, C10_open_start, offsetCount, bind, Except.bind]
  | coord c i hcl h => simp at hcl
  | nodalCoord c i hcl h hi => simp at hcl; omega

/-- an open stop asks for one cell more than there is -/
theorem offsetCount_open (pf : List Char → Option F) (nodes : List F) (a : Nat) :
    (idxParser pf (.str (dec a ++ [':'])) (some (NArr.ofList nodes)) false >>= offsetCount) =
      .ok ((a : Int), (nodes.length : Int) - a) := by
  simp [C10_open_stop, offsetCount, bind, Except.bind]

end order

section field
variable {F : Type} [_root_.Field F] [LinearOrder F] [IsStrictOrderedRing F]

theorem Spec.UniAxis.nodes_eq (a : UniAxis F) (hn : 0 < a.cells) :
    linspace a.lower a.upper (a.cells + 1) = a.nodes := by
  apply List.ext_getElem?
  intro i
  by_cases hi : i ≤ a.cells
  · rw [linspace_get _ _ hn hi]
    simp [UniAxis.nodes, UniAxis.node, List.getElem?_range (show i < a.cells + 1 by omega)]
  · rw [List.getElem?_eq_none (by rw [linspace_length]; omega),
      List.getElem?_eq_none (by simp [UniAxis.nodes]; omega)]

theorem Spec.UniAxis.nodes_increasing (a : UniAxis F) (hn : 0 < a.cells) (h : a.lower < a.upper) :
    Increasing a.nodes := by
  have hd : 0 < (a.upper - a.lower) / (a.cells : F) :=
    div_pos (sub_pos.2 h) (by exact_mod_cast hn)
  unfold Increasing UniAxis.nodes
  rw [List.pairwise_map]
  refine List.Pairwise.imp ?_ List.pairwise_lt_range
  intro i j hij
  have : (i : F) < (j : F) := by exact_mod_cast hij
  simp only [UniAxis.node]
  have := mul_lt_mul_of_pos_right this hd
  linarith

omit [LinearOrder F] [IsStrictOrderedRing F] in
theorem Spec.UniAxis.nodes_length (a : UniAxis F) : a.nodes.length = a.cells + 1 := by simp [UniAxis.nodes]

theorem axesOC_ok (pf : List Char → Option F) {axes : List (UniAxis F)}
    (h : ∀ a ∈ axes, a.OK ∧ UniAxis.Closed a.z) :
    axesOC pf (axes.map (·.cells)) (axes.map (·.z)) (some (axes.map fun a => NArr.ofList a.nodes)) =
      .ok (axes.map fun a => ((a.lo : Int), ((a.hi - a.lo : Nat) : Int))) := by
  induction axes with
  | nil => rfl
  | cons a as ih =>
    obtain ⟨⟨hn, hlu, hd⟩, hc⟩ := h a (by simp)
    have ih := ih fun b hb => h b (by simp [hb])
    have h0 : axisOC pf a.cells a.z (some ((a :: as).map fun a => NArr.ofList a.nodes)) =
        .ok ((a.lo : Int), ((a.hi - a.lo : Nat) : Int)) := by
      cases hz : a.z with
      | none =>
        rw [hz] at hd
        have := denotes_none hd
        simp [this, axisOC]
      | some z =>
        rw [hz] at hd hc
        exact offsetCount_denotes pf (a.nodes_increasing hn hlu) a.nodes_length hd hc
    simp only [List.map_cons] at h0
    simp only [List.map_cons, axesOC, List.headD_cons, List.tail_cons, Option.map_some, h0, ih, bind, Except.bind, pure,
      Except.pure]

omit [_root_.Field F] [LinearOrder F] [IsStrictOrderedRing F] in
theorem readBlock_some {a : NArr F} {rs : List (Nat × Nat)} (hl : rs.length = a.shape.length)
    (h : ∀ p ∈ rs.zip a.shape, p.1.1 < p.1.2 ∧ p.1.2 ≤ p.2) :
    readBlock a (some (rs.map fun r => ((r.1 : Int), ((r.2 - r.1 : Nat) : Int)))) = .ok (a.slice rs) := by
  unfold readBlock
  simp only
  rw [if_pos]
  · congr 2
    rw [List.map_map]
    conv_rhs => rw [← List.map_id rs]
    apply List.map_congr_left
    intro r hr
    obtain ⟨i, hi, hri⟩ := List.mem_iff_getElem.1 hr
    have hlt := (h (rs[i], a.shape[i]'(by omega)) (by
      rw [List.mem_iff_getElem]
      exact ⟨i, by simp; omega, by simp⟩)).1
    rw [hri] at hlt
    simp only at hlt
    simp only [Function.comp, id]
    ext
    · simp
    · simp; omega
  · refine ⟨by simpa using hl, ?_⟩
    rw [List.all_eq_true]
    intro p hp
    rw [List.zip_map_left, List.mem_map] at hp
    obtain ⟨q, hq, rfl⟩ := hp
    obtain ⟨h1, h2⟩ := h q hq
    simp only [Prod.map, id, decide_eq_true_eq]
    omega

omit [_root_.Field F] [LinearOrder F] [IsStrictOrderedRing F] in
theorem slice_get? {a : NArr F} (hw : a.WF) {rs : List (Nat × Nat)} (hl : rs.length = a.shape.length)
    (h : ∀ p ∈ rs.zip a.shape, p.1.2 ≤ p.2) :
    (a.slice rs).WF ∧ (a.slice rs).shape = rs.map (fun r => r.2 - r.1) ∧
      ∀ idx, inRange (rs.map fun r => r.2 - r.1) idx = true →
        (a.slice rs).get? idx = a.get? (List.zipWith (· + ·) idx (rs.map (·.1))) := by
  have hsl : a.slice rs = NArr.ofFn (rs.map fun r => r.2 - r.1)
      fun idx => a.get? (List.zipWith (· + ·) idx (rs.map (·.1))) := by
    simp [NArr.slice, List.drop_eq_nil_of_le (le_of_eq hl.symm)]
  have hr : ∀ idx, inRange (rs.map fun r => r.2 - r.1) idx = true →
      inRange a.shape (List.zipWith (· + ·) idx (rs.map (·.1))) = true := by
    clear hsl
    generalize a.shape = sh at *
    induction rs generalizing sh with
    | nil => intro idx hi; cases sh with
      | nil => cases idx <;> simp [inRange] at *
      | cons _ _ => simp at hl
    | cons r rs ih => intro idx hi; cases sh with
      | nil => simp at hl
      | cons n ns =>
        cases idx with
        | nil => simp [inRange] at hi
        | cons i is =>
          simp only [List.map_cons, inRange, Bool.and_eq_true, decide_eq_true_eq] at hi
          have h0 := h (r, n) (by simp)
          simp only [List.map_cons, List.zipWith_cons_cons, inRange, Bool.and_eq_true, decide_eq_true_eq]
          simp only at h0
          exact ⟨by omega, ih ns (by simpa using hl) (fun p hp => h p (by simp [hp])) is hi.2⟩
  have hsome : ∀ idx, inRange (rs.map fun r => r.2 - r.1) idx = true →
      (a.get? (List.zipWith (· + ·) idx (rs.map (·.1)))).isSome := fun idx hi => get?_isSome hw (hr idx hi)
  rw [hsl]
  exact ⟨ofFn_WF hsome, rfl, fun idx hi => ofFn_get? hsome hi⟩

theorem gridAxis_part {a : UniAxis F} (hn : 0 < a.cells) (hlt : a.lo < a.hi) :
    gridAxis (restrict a.lower a.upper a.cells (some ((a.lo : Int), ((a.hi - a.lo : Nat) : Int)))) (a.hi - a.lo) =
      a.partNodes := by
  have hc : (a.cells : F) ≠ 0 := by exact_mod_cast (by omega : a.cells ≠ 0)
  have hd : ((a.hi - a.lo : Nat) : F) ≠ 0 := by exact_mod_cast (by omega : a.hi - a.lo ≠ 0)
  simp only [gridAxis, restrict, ghostBounds, ne_eq, not_true_eq_false, if_false]
  apply List.ext_getElem?
  intro i
  by_cases hi : i ≤ a.hi - a.lo
  · rw [linspace_get _ _ (by omega) hi]
    simp only [UniAxis.partNodes, UniAxis.node, List.getElem?_map,
      List.getElem?_range (show i < a.hi - a.lo + 1 by omega), Option.map_some, Option.some.injEq, Int.cast_natCast]
    push_cast
    field_simp
    ring
  · rw [List.getElem?_eq_none (by rw [linspace_length]; omega),
      List.getElem?_eq_none (by simp [UniAxis.partNodes]; omega)]

theorem gridAxis_whole {a : UniAxis F} (hn : 0 < a.cells) (h0 : a.lo = 0) (h1 : a.hi = a.cells) :
    gridAxis (restrict a.lower a.upper a.cells none) (a.hi - a.lo) = a.partNodes := by
  simp only [gridAxis, restrict, ghostBounds, h0, h1, Nat.sub_zero, ne_eq, not_true_eq_false, if_false]
  rw [a.nodes_eq hn, UniAxis.nodes, UniAxis.partNodes, h0, h1]
  simp

/-- The frame read from a file whose bounds, cells and variable are those of the axes. -/
def IsFrame (f : Frame F) (axes : List (UniAxis F)) (nc : Nat) : Prop :=
  f.lower = axes.map (·.lower) ∧ f.upper = axes.map (·.upper) ∧ f.cells = axes.map (·.cells) ∧ f.var.WF ∧
    f.var.shape = axes.map (·.cells) ++ [nc]

/-- C52 for selections other than `'a:'` (which the code gets wrong): a whole or partial load returns exactly the
selected block of the variable, and the nodes bounding it. -/
theorem C52_load_partial (pf : List Char → Option F) {f : Frame F} {axes : List (UniAxis F)} {nc : Nat}
    (hf : IsFrame f axes nc) (hax : ∀ a ∈ axes, a.OK ∧ UniAxis.Closed a.z) (hnc : 0 < nc)
    {comp : Option (IdxArg F)} {ca cb : Nat} (hcd : Denotes ([] : List F) nc comp ca cb)
    (hcc : UniAxis.Closed comp) :
    ∃ data, loadFrame pf f (axes.map (·.z)) comp = .ok (axes.map (·.partNodes), data) ∧ data.WF ∧
      data.shape = axes.map (fun a => a.hi - a.lo) ++ [cb - ca] ∧
      ∀ idx k, inRange (axes.map fun a => a.hi - a.lo) idx = true → k < cb - ca →
        data.get? (idx ++ [k]) = f.var.get? (List.zipWith (· + ·) idx (axes.map (·.lo)) ++ [ca + k]) := by
  obtain ⟨h1, h2, h3, hw, hs⟩ := hf
  have hclt := denotes_lt hnc hcd
  have hcle := denotes_le hcd
  have hgrid : uniformGrid f = axes.map fun a => NArr.ofList a.nodes := by
    rw [uniformGrid, h1, h2, h3]
    clear h1 h2 h3 hs
    induction axes with
    | nil => rfl
    | cons a as ih =>
      simp only [List.map_cons, List.zip_cons_cons]
      rw [ih fun b hb => hax b (by simp [hb]), a.nodes_eq (hax a (by simp)).1.1]
  set rs : List (Nat × Nat) := axes.map (fun a => (a.lo, a.hi)) ++ [(ca, cb)] with hrs
  have hl : rs.length = f.var.shape.length := by simp [hrs, hs]
  have hb : ∀ p ∈ rs.zip f.var.shape, p.1.1 < p.1.2 ∧ p.1.2 ≤ p.2 := by
    intro p hp
    rw [hrs, hs, List.zip_append (by simp)] at hp
    rcases List.mem_append.1 hp with hp | hp
    · rw [List.zip_map_left, List.zip_map_right] at hp
      simp only [List.map_map, List.mem_map] at hp
      obtain ⟨q, hq, rfl⟩ := hp
      have hqq : q.1 = q.2 := by
        clear * - hq
        induction axes with
        | nil => simp at hq
        | cons a as ih => 
          simp only [List.zip_cons_cons, List.mem_cons] at hq
          rcases hq with rfl | hq
          · rfl
          · exact ih hq
      obtain ⟨⟨hn, -, hd⟩, -⟩ := hax q.1 (List.of_mem_zip hq).1
      simp only [Function.comp, Prod.map, id, ← hqq]
      exact ⟨denotes_lt hn hd, denotes_le hd⟩
    · simp at hp; subst hp; exact ⟨hclt, hcle⟩
  obtain ⟨hsw, hss, hsg⟩ := slice_get? hw hl fun p hp => (hb p hp).2
  refine ⟨f.var.slice rs, ?_, hsw, by rw [hss, hrs]; simp [Function.comp_def], ?_⟩
  · have hoc : axesOC pf f.var.shape.dropLast (axes.map (·.z)) (some (uniformGrid f)) =
        .ok (axes.map fun a => ((a.lo : Int), ((a.hi - a.lo : Nat) : Int))) := by
      rw [hs, hgrid, List.dropLast_concat, axesOC_ok pf hax]
    have hcp := offsetCount_comp pf hcd hcc
    have hlast : f.var.shape.getLastD 0 = nc := by rw [hs]; simp [List.getLastD_eq_getLast?]
    have hrs' : (axes.map fun a => ((a.lo : Int), ((a.hi - a.lo : Nat) : Int))) ++
        [((ca : Int), ((cb - ca : Nat) : Int))] = rs.map fun r => ((r.1 : Int), ((r.2 - r.1 : Nat) : Int)) := by
      simp [hrs]
    have hsh : (f.var.slice rs).shape = axes.map (fun a => a.hi - a.lo) ++ [cb - ca] := by rw [hss, hrs]; simp [Function.comp_def]
    simp only [loadFrame, createOffsetCount, hoc, hlast, hcp, bind, Except.bind, pure, Except.pure]
    by_cases hany : ((axes.map (·.z)).take (f.var.shape.length - 1)).any Option.isSome || comp.isSome
    · simp only [hany, if_true]
      rw [hrs', readBlock_some hl hb]
      simp only [Except.ok.injEq, Prod.mk.injEq, and_true]
      rw [hsh, ← hrs', h3, h1, h2]
      simp only [List.length_map]
      rw [List.take_left' (by simp)]
      clear * - hax
      induction axes with
      | nil => rfl
      | cons a as ih =>
        simp only [List.map_cons, List.zip_cons_cons, List.zipWith_cons_cons, List.cons_append]
        rw [ih fun b hb => hax b (by simp [hb])]
        obtain ⟨⟨hn, -, hd⟩, -⟩ := hax a (by simp)
        rw [gridAxis_part hn (denotes_lt hn hd)]
    · simp only [hany, if_false, Bool.false_eq_true]
      rw [hs] at hany
      simp only [List.length_append, List.length_map, List.length_singleton, Nat.add_sub_cancel] at hany
      rw [List.take_of_length_le (by simp)] at hany
      simp only [Bool.or_eq_true, not_or, List.any_eq_true, List.mem_map, not_exists, not_and, Bool.not_eq_true,
        Option.isSome_eq_false_iff, Option.isNone_iff_eq_none, forall_exists_index, and_imp,
        forall_apply_eq_imp_iff₂] at hany
      obtain ⟨hz, hcn⟩ := hany
      have hw0 : ∀ a ∈ axes, a.lo = 0 ∧ a.hi = a.cells := fun a ha => by
        have := (hax a ha).1.2.2
        rw [hz a ha] at this
        exact denotes_none this
      rw [hcn] at hcd
      obtain ⟨e1, e2⟩ := denotes_none hcd
      have hall : rs = f.var.shape.map fun n => (0, n) := by
        rw [hrs, hs, List.map_append, List.map_map, e1, e2]
        congr 1
        exact List.map_congr_left fun a ha => by rw [(hw0 a ha).1, (hw0 a ha).2]; rfl
      rw [hall, slice_all hw]
      simp only [readBlock, Except.ok.injEq, Prod.mk.injEq, and_true]
      rw [hs, h3, h1, h2]
      clear * - hax hw0
      induction axes with
      | nil => rfl
      | cons a as ih =>
        simp only [List.map_cons, List.zip_cons_cons, List.zipWith_cons_cons, List.cons_append]
        rw [ih (fun b hb => hax b (by simp [hb])) fun b hb => hw0 b (by simp [hb])]
        obtain ⟨⟨hn, -, hd⟩, -⟩ := hax a (by simp)
        obtain ⟨e1, e2⟩ := hw0 a (by simp)
        have := gridAxis_whole hn e1 e2
        rw [e1, e2, Nat.sub_zero] at this
        rw [this]
  · intro idx k hi hk
    have hlen := inRange_length hi
    rw [hsg]
    · rw [hrs, List.map_append, List.map_map]
      simp only [List.map_cons, List.map_nil]
      rw [List.zipWith_append (by simpa using hlen)]
      simp [Nat.add_comm, Function.comp_def]
    · rw [inRange_iff_forall₂] at hi ⊢
      rw [hrs, List.map_append, List.map_map]
      exact List.rel_append hi (by simpa using hk)

omit [IsStrictOrderedRing F] in
theorem axesOC_open (pf : List Char → Option F) {axes : List (UniAxis F)} {i : Nat} {a : UniAxis F}
    (hi : axes[i]? = some a) {k : Nat} (hz : a.z = some (.str (dec k ++ [':'])))
    {l : List (Int × Int)}
    (h : axesOC pf (axes.map (·.cells)) (axes.map (·.z)) (some (axes.map fun a => NArr.ofList a.nodes)) = .ok l) :
    l[i]? = some ((k : Int), (a.cells : Int) + 1 - k) := by
  induction axes generalizing i l with
  | nil => simp at hi
  | cons b bs ih =>
    simp only [List.map_cons, axesOC, List.headD_cons, List.tail_cons, Option.map_some, bind, Except.bind] at h
    cases hoc : axisOC pf b.cells b.z (some (NArr.ofList b.nodes :: bs.map fun a => NArr.ofList a.nodes)) with
    | error e => rw [hoc] at h; simp at h
    | ok oc =>
      rw [hoc] at h
      simp only at h
      cases hl' : axesOC pf (bs.map (·.cells)) (bs.map (·.z)) (some (bs.map fun a => NArr.ofList a.nodes)) with
      | error e => rw [hl'] at h; simp at h
      | ok l' =>
        rw [hl'] at h
        simp only [pure, Except.pure, Except.ok.injEq] at h
        subst h
        cases i with
        | zero =>
          simp only [List.getElem?_cons_zero, Option.some.injEq] at hi ⊢
          subst hi
          rw [hz] at hoc
          have := (offsetCount_open pf b.nodes k).symm.trans hoc
          simp only [Except.ok.injEq] at this
          rw [← this, b.nodes_length]
          push_cast
          rfl
        | succ i => simpa using ih (by simpa using hi) hl'

/-- Full C52 is false of the code: a selection `'a:'` on an axis never loads, for any field and any `a`, since it asks
for a cell beyond the end (the axis has one node more than cells). -/
theorem C52_open_stop_fails (pf : List Char → Option F) {f : Frame F} {axes : List (UniAxis F)} {nc : Nat}
    (hf : IsFrame f axes nc) (hn : ∀ a ∈ axes, 0 < a.cells) {i : Nat} {a : UniAxis F} (hi : axes[i]? = some a)
    {k : Nat} (hz : a.z = some (.str (dec k ++ [':']))) (comp : Option (IdxArg F)) :
    ∃ e, loadFrame pf f (axes.map (·.z)) comp = .error e := by
  obtain ⟨h1, h2, h3, hw, hs⟩ := hf
  have hgrid : uniformGrid f = axes.map fun a => NArr.ofList a.nodes := by
    rw [uniformGrid, h1, h2, h3]
    clear * - hn
    induction axes with
    | nil => rfl
    | cons a as ih =>
      simp only [List.map_cons, List.zip_cons_cons]
      rw [ih fun b hb => hn b (by simp [hb]), a.nodes_eq (hn a (by simp))]
  simp only [loadFrame, createOffsetCount, hgrid, hs, List.dropLast_concat, bind, Except.bind]
  cases hoc : axesOC pf (axes.map (·.cells)) (axes.map (·.z)) (some (axes.map fun a => NArr.ofList a.nodes)) with
  | error e => exact ⟨e, rfl⟩
  | ok l =>
    have hli := axesOC_open pf hi hz hoc
    simp only
    cases compOC pf ((axes.map (·.cells) ++ [nc]).getLastD 0) comp with
    | error e => exact ⟨e, rfl⟩
    | ok c =>
      have hany : (((axes.map (·.z)).take ((axes.map (·.cells) ++ [nc]).length - 1)).any Option.isSome ||
          comp.isSome) = true := by
        rw [List.take_of_length_le (by simp)]
        simp only [Bool.or_eq_true, List.any_eq_true, List.mem_map]
        exact Or.inl ⟨a.z, ⟨a, List.mem_of_getElem? hi, rfl⟩, by rw [hz]; rfl⟩
      simp only [hany, if_true, pure, Except.pure, readBlock, hs]
      rw [if_neg]
      · exact ⟨_, rfl⟩
      · rintro ⟨hl, hall⟩
        rw [List.all_eq_true] at hall
        have hil := (List.getElem?_eq_some_iff.1 hli).1
        have hia := (List.getElem?_eq_some_iff.1 hi).1
        have := hall (((k : Int), (a.cells : Int) + 1 - k), a.cells) (by
          apply List.mem_of_getElem? (i := i)
          rw [List.getElem?_zip_eq_some]
          refine ⟨?_, ?_⟩
          · rw [List.getElem?_append_left hil, hli]
          · rw [List.getElem?_append_left (by simpa using hia), List.getElem?_map, hi]; rfl)
        simp only [decide_eq_true_eq] at this
        omega

omit [_root_.Field F] [IsStrictOrderedRing F] in
/-- With a mapping file, every selection on an axis fails. -/
theorem C52_mapped_selection_fails (pf : List Char → Option F) (map : NArr F) (dims : Nat) {zs : List (Option (IdxArg F))}
    {i : Nat} {z : IdxArg F} (hz : zs[i]? = some (some z)) (hi : i + 1 < map.shape.length) :
    c2pGrid pf map dims zs = .error .typeError := by
  have key : ∀ (ns : List Nat) (zs : List (Option (IdxArg F))) (i : Nat), zs[i]? = some (some z) → i < ns.length →
      axesOC pf ns zs none = .error .typeError := by
    intro ns
    induction ns with
    | nil => intro zs i _ h; simp at h
    | cons n ns ih =>
      intro zs i h h'
      cases zs with
      | nil => simp at h
      | cons y ys =>
        cases i with
        | zero =>
          simp only [List.getElem?_cons_zero, Option.some.injEq] at h
          subst h
          rfl
        | succ i =>
          have := ih ys i (by simpa using h) (by simpa using h')
          cases y with
          | none =>
            simp only [axesOC, axisOC, List.headD_cons, List.tail_cons, Option.map_none, this, bind, Except.bind]
          | some y => rfl
  simp only [c2pGrid, createOffsetCount, bind, Except.bind]
  rw [key _ zs i hz (by simp; omega)]

omit [_root_.Field F] [IsStrictOrderedRing F] in
/-- Without a selection on an axis, the grid of a mapped file has one array of coefficients per direction, together
all of them. -/
theorem C52_mapped_whole (pf : List Char → Option F) {map : NArr F} (hw : map.WF) {dims nk : Nat} {ns : List Nat}
    (hs : map.shape = ns ++ [dims * nk]) (hd : 0 < dims) {zs : List (Option (IdxArg F))}
    (hz : ∀ z ∈ zs, z = none) :
    ∃ g, c2pGrid pf map dims zs = .ok g ∧ g.length = dims ∧ ∀ d a, g[d]? = some a → a.WF ∧ a.shape = ns ++ [nk] ∧
      ∀ idx k, inRange ns idx = true → k < nk → a.get? (idx ++ [k]) = map.get? (idx ++ [d * nk + k]) := by
  have hax : ∀ (ns : List Nat) (zs : List (Option (IdxArg F))), (∀ z ∈ zs, z = none) →
      ∃ l, axesOC pf ns zs none = .ok l := by
    intro ns
    induction ns with
    | nil => intro zs _; exact ⟨_, rfl⟩
    | cons n ns ih =>
      intro zs h
      obtain ⟨l, hl⟩ := ih zs.tail fun z hz => h z (List.mem_of_mem_tail hz)
      cases zs with
      | nil => simp only [axesOC, axisOC, List.headD_nil, hl, bind, Except.bind, pure, Except.pure, Option.map_none]
               exact ⟨_, rfl⟩
      | cons y ys =>
        have : y = none := h y (by simp)
        subst this
        simp only [axesOC, axisOC, List.headD_cons, hl, bind, Except.bind, pure, Except.pure, Option.map_none]
        exact ⟨_, rfl⟩
  obtain ⟨l, hl⟩ := hax map.shape.dropLast zs hz
  have hany : ((zs.take (map.shape.length - 1)).any Option.isSome || (none : Option (IdxArg F)).isSome) = false := by
    simp only [Option.isSome_none, Bool.or_false, List.any_eq_false]
    intro z h
    rw [hz z (List.mem_of_mem_take h)]; simp
  have hlast : map.shape.getLastD 0 = dims * nk := by rw [hs]; simp [List.getLastD_eq_getLast?]
  have hg : c2pGrid pf map dims zs = .ok ((List.range dims).map fun d =>
      map.slice ((map.shape.dropLast.map fun n => (0, n)) ++
        [(d * map.shape.getLastD 0 / dims, (d + 1) * map.shape.getLastD 0 / dims)])) := by
    simp only [c2pGrid, createOffsetCount, hl, compOC, bind, Except.bind, pure, Except.pure, hany, readBlock,
      Bool.false_eq_true, if_false]
  refine ⟨_, hg, by simp, ?_⟩
  · intro d a ha
    simp only [List.getElem?_map, Option.map_eq_some_iff] at ha
    obtain ⟨d', hd', rfl⟩ := ha
    obtain ⟨hlt, rfl⟩ : d < dims ∧ d' = d := by
      rw [List.getElem?_eq_some_iff] at hd'
      obtain ⟨h, e⟩ := hd'
      simp at h e
      exact ⟨h, e.symm⟩
    have e1 : d' * (dims * nk) / dims = d' * nk := by
      rw [Nat.mul_left_comm, Nat.mul_div_cancel_left _ hd]
    have e2 : (d' + 1) * (dims * nk) / dims = (d' + 1) * nk := by
      rw [Nat.mul_left_comm, Nat.mul_div_cancel_left _ hd]
    rw [hlast, e1, e2, hs, List.dropLast_concat]
    have hle : (d' + 1) * nk ≤ dims * nk := Nat.mul_le_mul_right _ hlt
    have hsub : (d' + 1) * nk - d' * nk = nk := by rw [Nat.succ_mul]; omega
    obtain ⟨w1, w2, w3⟩ := slice_get? hw (rs := (ns.map fun n => (0, n)) ++ [(d' * nk, (d' + 1) * nk)])
      (by simp [hs]) (by
        intro p hp
        rw [hs, List.zip_append (by simp)] at hp
        rcases List.mem_append.1 hp with hp | hp
        · rw [List.zip_map_left, List.mem_map] at hp
          obtain ⟨q, hq, rfl⟩ := hp
          have : q.1 = q.2 := by
            clear * - hq
            induction ns with
            | nil => simp at hq
            | cons a as ih =>
              simp only [List.zip_cons_cons, List.mem_cons] at hq
              rcases hq with rfl | hq
              · rfl
              · exact ih hq
          simp [Prod.map, this]
        · simp at hp; subst hp; exact hle)
    have hshape : (((ns.map fun n => (0, n)) ++ [(d' * nk, (d' + 1) * nk)]).map fun r : Nat × Nat => r.2 - r.1) =
        ns ++ [nk] := by simp [hsub, Function.comp_def]
    rw [hshape] at w2 w3
    refine ⟨w1, w2, fun idx k hi hk => ?_⟩
    rw [w3 _ (by
      rw [inRange_iff_forall₂] at hi ⊢
      exact List.rel_append hi (by simpa using hk))]
    congr 1
    have hlen := inRange_length hi
    rw [List.map_append, List.map_map, List.zipWith_append (by simpa using hlen)]
    congr 1
    · exact zip_zeros hlen
    · simp [Nat.add_comm]

/-! Non-vacuity: a 2 × 3 field with two components; the second component of the last column by coordinate and by
index, and the loads that fail. -/
namespace AdiosEx

def ax (z : Option (IdxArg ℚ)) (lo hi : Nat) : UniAxis ℚ := ⟨0, 2, 2, z, lo, hi⟩
def ay (z : Option (IdxArg ℚ)) (lo hi : Nat) : UniAxis ℚ := ⟨-3, 3, 3, z, lo, hi⟩

def frame : Frame ℚ where
  lower := [0, -3]
  upper := [2, 3]
  cells := [2, 3]
  var := ⟨[2, 3, 2], [1, 2, 3, 4, 5, 6, 7, 8, 9, 10, 11, 12]⟩

theorem isFrame (z z' : Option (IdxArg ℚ)) (a b a' b' : Nat) : IsFrame frame [ax z a b, ay z' a' b'] 2 :=
  ⟨rfl, rfl, rfl, rfl, rfl⟩

theorem ok : ∀ a ∈ [ax (some (.int 1)) 1 2, ay (some (.float (5/2))) 2 3], a.OK ∧ UniAxis.Closed a.z := by
  intro a ha
  simp only [List.mem_cons, List.not_mem_nil, or_false] at ha
  rcases ha with rfl | rfl
  · exact ⟨⟨by decide, by norm_num [ax], .index 1 (by decide)⟩, fun k h => by simp [ax] at h, by simp [ax]⟩
  · refine ⟨⟨by decide, by norm_num [ay], .coord _ 2 (by simp [UniAxis.nodes, ay]) ?_⟩, fun k h => by simp [ay] at h, by simp [ay]⟩
    refine ⟨1, 3, ?_, ?_, Or.inl (by norm_num), Or.inr (by simp [UniAxis.nodes, ay])⟩ <;>
      norm_num [UniAxis.nodes, UniAxis.node, ay, List.range_succ]

example (pf : List Char → Option ℚ) : ∃ data, loadFrame pf frame [some (.int 1), some (.float (5/2))]
    (some (.str (dec 1))) = .ok ([[1, 2], [1, 3]], data) ∧ data.get? [0, 0, 0] = some 12 := by
  obtain ⟨data, h1, -, -, h2⟩ := C52_load_partial pf (isFrame _ _ _ _ _ _) ok (by decide) (.indexStr 1 (by decide))
    ⟨fun k h => by
      simp only [Option.some.injEq, IdxArg.str.injEq] at h
      have := congrArg List.getLast? h
      rw [List.getLast?_append] at this
      simp [dec] at this
      exact absurd this (by decide), by
      simp only [ne_eq, Option.some.injEq, IdxArg.str.injEq]; decide⟩
  refine ⟨data, ?_, ?_⟩
  · refine h1.trans ?_
    norm_num [UniAxis.partNodes, UniAxis.node, ax, ay, List.range_succ]
  · exact h2 [0, 0] 0 rfl (by decide)

example (pf : List Char → Option ℚ) : ∃ e, loadFrame pf frame [none, some (.str "1:".toList)] none = .error e :=
  C52_open_stop_fails pf (isFrame none (some (.str (dec 1 ++ [':']))) 0 2 1 3)
    (by simp [ax, ay]) (i := 1) rfl rfl none

example (pf : List Char → Option ℚ) : ∃ g, c2pGrid pf ⟨[2, 4], [1, 2, 3, 4, 5, 6, 7, 8]⟩ 2 [none] = .ok g ∧
    g.length = 2 := by
  obtain ⟨g, h, hl, -⟩ := C52_mapped_whole pf (map := ⟨[2, 4], [1, 2, 3, 4, 5, 6, 7, 8]⟩) rfl (dims := 2) (nk := 2)
    (ns := [2]) rfl (by decide) (zs := [none]) (by simp)
  exact ⟨g, h, hl⟩

end AdiosEx

end field
end Pgkyl
