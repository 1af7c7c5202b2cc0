import Verif.Spec.Hist
import Verif.Lemmas.GData
import Mathlib.Order.Lattice
import Mathlib.Order.Defs.LinearOrder
/-! # C20, C21: datasets over histories of calls -/

namespace Pgkyl
open Spec

/-! ## C20 -/

section C20
variable {F : Type} [LinearOrder F]

theorem minima_spec : ∀ {n : Nat} {gs : List (NArr F)} {l : List F}, GData.minima n gs = .ok l →
    l.length = n ∧ ∀ k, k < n → ∃ a m, gs[k]? = some a ∧ l[k]? = some m ∧ IsMinOf m a
  | 0, gs, l, h => by simp only [GData.minima, Except.ok.injEq] at h; subst h; simp
  | n + 1, [], l, h => by simp [GData.minima] at h
  | n + 1, g :: gs, l, h => by
    simp only [GData.minima] at h
    cases hm : g.data.min? with
    | none => rw [hm] at h; simp at h
    | some m =>
      rw [hm] at h
      cases hr : GData.minima n gs with
      | error e => rw [hr] at h; simp [bind, Except.bind] at h
      | ok l' =>
        rw [hr] at h
        simp only [bind, Except.bind, pure, Except.pure, Except.ok.injEq] at h
        subst h
        obtain ⟨h1, h2⟩ := minima_spec hr
        refine ⟨by simp [h1], fun k hk => ?_⟩
        cases k with
        | zero => exact ⟨g, m, rfl, rfl, List.min?_eq_some_iff.1 hm⟩
        | succ k =>
          obtain ⟨a, m', e1, e2, e3⟩ := h2 k (by omega)
          exact ⟨a, m', by simpa using e1, by simpa using e2, e3⟩

theorem maxima_spec : ∀ {n : Nat} {gs : List (NArr F)} {l : List F}, GData.maxima n gs = .ok l →
    l.length = n ∧ ∀ k, k < n → ∃ a m, gs[k]? = some a ∧ l[k]? = some m ∧ IsMaxOf m a
  | 0, gs, l, h => by simp only [GData.maxima, Except.ok.injEq] at h; subst h; simp
  | n + 1, [], l, h => by simp [GData.maxima] at h
  | n + 1, g :: gs, l, h => by
    simp only [GData.maxima] at h
    cases hm : g.data.max? with
    | none => rw [hm] at h; simp at h
    | some m =>
      rw [hm] at h
      cases hr : GData.maxima n gs with
      | error e => rw [hr] at h; simp [bind, Except.bind] at h
      | ok l' =>
        rw [hr] at h
        simp only [bind, Except.bind, pure, Except.pure, Except.ok.injEq] at h
        subst h
        obtain ⟨h1, h2⟩ := maxima_spec hr
        refine ⟨by simp [h1], fun k hk => ?_⟩
        cases k with
        | zero => exact ⟨g, m, rfl, rfl, List.max?_eq_some_iff.1 hm⟩
        | succ k =>
          obtain ⟨a, m', e1, e2, e3⟩ := h2 k (by omega)
          exact ⟨a, m', by simpa using e1, by simpa using e2, e3⟩

/-- The counters describe the values, when there are values. -/
def Described (d : GData F) : Prop := ∀ v, d.values = some v →
  ∃ nc, v.shape.getLast? = some nc ∧ d.ctx.cells = some v.shape.dropLast ∧ d.ctx.numComps = some nc

omit [LinearOrder F] in
theorem described_setValues {d d' : GData F} {v : NArr F} (h : d.setValues v = .ok d') :
    Described d' ∧ d'.values = some v := by
  obtain ⟨nc, hnc, rfl⟩ := GData.setValues_eq_ok h
  refine ⟨fun v' hv' => ?_, rfl⟩
  cases hv'
  exact ⟨nc, hnc, rfl, rfl⟩

theorem described_setGrid {d d' : GData F} {g : List (NArr F)} (hd : Described d)
    (h : d.setGrid g = .ok d') : Described d' ∧ d'.values = d.values := by
  obtain ⟨l, u, _, _, rfl⟩ := GData.setGrid_eq_ok h
  exact ⟨fun v hv => hd v hv, rfl⟩

theorem described_run {d d' : GData F} {ops : List (DataOp F)} (hd : Described d)
    (h : runOps d ops = .ok d') : Described d' := by
  induction ops generalizing d with
  | nil =>
    simp only [runOps, List.foldlM_nil, pure, Except.pure, Except.ok.injEq] at h
    exact h ▸ hd
  | cons op ops ih =>
    simp only [runOps, List.foldlM_cons, bind, Except.bind] at h
    cases op with
    | setValues v =>
      simp only at h
      cases h1 : d.setValues v with
      | error e => rw [h1] at h; cases h
      | ok d1 => rw [h1] at h; exact ih (described_setValues h1).1 h
    | setGrid g =>
      simp only at h
      cases h1 : d.setGrid g with
      | error e => rw [h1] at h; cases h
      | ok d1 => rw [h1] at h; exact ih (described_setGrid hd h1).1 h
    | push g v =>
      simp only [GData.push, bind, Except.bind] at h
      cases h1 : d.setValues v with
      | error e => rw [h1] at h; cases h
      | ok d1 =>
        rw [h1] at h
        simp only at h
        cases h2 : d1.setGrid g with
        | error e => rw [h2] at h; cases h
        | ok d2 =>
          rw [h2] at h
          exact ih (described_setGrid (described_setValues h1).1 h2).1 h

/-- C20: whatever calls are made on a new dataset (which may start with any inherited metadata), as
soon as it holds values, `num_cells`, `num_comps` and `num_dims` are those of the values. -/
theorem C20_counters_describe_values (tag label : List Char) (ctx : Ctx F) (ops : List (DataOp F))
    (d : GData F) (h : runOps (GData.new tag label ctx) ops = .ok d) (v : NArr F)
    (hv : d.values = some v) :
    ∃ cells nc, v.shape = cells ++ [nc] ∧ d.numCells = some cells ∧ d.numComps = nc ∧
      d.numDims = cells.length := by
  have hd : Described d := described_run (by intro v hv; simp [GData.new] at hv) h
  obtain ⟨nc, h1, h2, h3⟩ := hd v hv
  refine ⟨v.shape.dropLast, nc, ?_, ?_, ?_, ?_⟩
  · obtain ⟨hne, hlast⟩ := List.getLast?_eq_some_iff.1 h1
    rw [hlast]; simp
  · simp [GData.numCells, h2]
  · cases nc with
    | zero =>
      simp only [GData.numComps, h3, hv]
      rw [List.getLastD_eq_getLast?, h1]; rfl
    | succ n => simp [GData.numComps, h3]
  · simp [GData.numDims, GData.numCells, h2]

/-- C20: if moreover the last call was `set_grid` or `push`, the bounds are the extrema of the
current grid along each axis of the values. -/
theorem C20_bounds_are_extrema (tag label : List Char) (ctx : Ctx F) (ops : List (DataOp F))
    (g : List (NArr F)) (op : DataOp F) (hop : op = .setGrid g ∨ ∃ v, op = .push g v)
    (d : GData F) (h : runOps (GData.new tag label ctx) (ops ++ [op]) = .ok d) (v : NArr F)
    (hv : d.values = some v) :
    d.grid = some g ∧ ∃ lo up, d.bounds = .ok (some (lo, up)) ∧
      lo.length = v.shape.length - 1 ∧ up.length = v.shape.length - 1 ∧
      ∀ k, k < v.shape.length - 1 → ∃ a l u, g[k]? = some a ∧ lo[k]? = some l ∧ up[k]? = some u ∧
        IsMinOf l a ∧ IsMaxOf u a := by
  simp only [runOps, List.foldlM_append, bind, Except.bind] at h
  cases h0 : runOps (GData.new tag label ctx) ops with
  | error e => simp only [runOps] at h0; rw [h0] at h; cases h
  | ok d0 =>
    have hd0 : Described d0 := described_run (by intro v hv; simp [GData.new] at hv) h0
    simp only [runOps] at h0
    rw [h0] at h
    simp only [List.foldlM_cons, List.foldlM_nil, bind, Except.bind] at h
    have key : ∃ d1 : GData F, Described d1 ∧ d1.setGrid g = .ok d := by
      rcases hop with rfl | ⟨v', rfl⟩
      · simp only at h
        cases h1 : d0.setGrid g with
        | error e => rw [h1] at h; cases h
        | ok d1 =>
          rw [h1] at h
          simp only [pure, Except.pure, Except.ok.injEq] at h
          subst h
          exact ⟨d0, hd0, h1⟩
      · simp only [GData.push, bind, Except.bind] at h
        cases h1 : d0.setValues v' with
        | error e => rw [h1] at h; cases h
        | ok d1 =>
          rw [h1] at h
          simp only at h
          cases h2 : d1.setGrid g with
          | error e => rw [h2] at h; cases h
          | ok d2 =>
            rw [h2] at h
            simp only [pure, Except.pure, Except.ok.injEq] at h
            subst h
            exact ⟨d1, (described_setValues h1).1, h2⟩
    obtain ⟨d1, hd1, h1⟩ := key
    have hv1 := (described_setGrid hd1 h1).2
    obtain ⟨l, u, hl, hu, rfl⟩ := GData.setGrid_eq_ok h1
    have hv' : d1.values = some v := hv
    obtain ⟨nc, e1, e2, e3⟩ := hd1 v hv'
    have hnd : d1.numDims = v.shape.length - 1 := by
      simp [GData.numDims, GData.numCells, e2]
    rw [hnd] at hl hu
    obtain ⟨a1, a2⟩ := minima_spec hl
    obtain ⟨b1, b2⟩ := maxima_spec hu
    refine ⟨rfl, l, u, rfl, a1, b1, fun k hk => ?_⟩
    obtain ⟨a, m, f1, f2, f3⟩ := a2 k hk
    obtain ⟨a', m', g1, g2, g3⟩ := b2 k hk
    rw [f1] at g1; cases g1
    exact ⟨a, m, m', f1, f2, g2, f3, g3⟩

/-- Non-trivial history for C20: inherited metadata of another shape, then two pushes. -/
example : ∃ d : GData Int, runOps (GData.new [] [] { cells := some [9, 9], numComps := some 7 })
    [.push [NArr.ofList [0, 1]] ⟨[1, 1], [5]⟩,
     .setValues ⟨[2, 1], [5, 6]⟩, .setGrid [NArr.ofList [4, 2, 3]]] = .ok d ∧
    d.values = some ⟨[2, 1], [5, 6]⟩ ∧ d.ctx.lower = some [2] ∧ d.ctx.upper = some [4] := by
  exact ⟨_, rfl, rfl, rfl, rfl⟩

end C20

/-! ## C21 -/

section C21
variable {F : Type} [Min F] [Max F] [Add F] [Mul F] [Div F] [IntCast F]

namespace World

/-- Every object has its own dictionary. -/
structure Inv (w : World F) : Prop where
  lt : ∀ o ∈ w.objs, o.ctxRef < w.ctxs.length
  nodup : (w.objs.map Obj.ctxRef).Nodup

omit [Min F] [Max F] [Add F] [Mul F] [Div F] [IntCast F]

/-- `w'` differs from `w` in metadata only at object `k`. -/
structure Local (w w' : World F) (k : Nat) : Prop where
  refs : w'.objs.map Obj.ctxRef = w.objs.map Obj.ctxRef
  len : w'.ctxs.length = w.ctxs.length
  same : ∀ r, (∀ o, w.objs[k]? = some o → o.ctxRef ≠ r) → w'.ctxs[r]? = w.ctxs[r]?

theorem Local.refl (w : World F) (k : Nat) : Local w w k := ⟨rfl, rfl, fun _ _ => rfl⟩

theorem getElem?_map_ref (w : World F) (k : Nat) :
    (w.objs.map Obj.ctxRef)[k]? = (w.objs[k]?).map Obj.ctxRef := by simp

theorem Local.trans {w w₁ w₂ : World F} {k : Nat} (h : Local w w₁ k) (h' : Local w₁ w₂ k) :
    Local w w₂ k := by
  refine ⟨h'.refs.trans h.refs, h'.len.trans h.len, fun r hr => ?_⟩
  rw [h'.same r, h.same r hr]
  intro o ho
  have e := congrArg (fun l => l[k]?) h.refs
  simp only [getElem?_map_ref, ho, Option.map_some] at e
  cases ho' : w.objs[k]? with
  | none => rw [ho'] at e; cases e
  | some o' =>
    rw [ho'] at e
    simp only [Option.map_some, Option.some.injEq] at e
    rw [e]; exact hr o' ho'

theorem local_setCtx (w : World F) (k : Nat) (c : Ctx F) : Local w (w.setCtx k c) k := by
  unfold setCtx
  cases ho : w.objs[k]? with
  | none => exact Local.refl w k
  | some o =>
    refine ⟨rfl, by simp, fun r hr => ?_⟩
    have := hr o ho
    simp only [List.getElem?_set_ne this]

theorem map_modify_ref (l : List (Obj F)) (k : Nat) (f : Obj F → Obj F) (hf : ∀ o, (f o).ctxRef = o.ctxRef) :
    (l.modify k f).map Obj.ctxRef = l.map Obj.ctxRef := by
  induction l generalizing k with
  | nil => simp
  | cons a l ih =>
    cases k with
    | zero => simp [hf]
    | succ k => simp [ih]

theorem local_setObj (w : World F) (k : Nat) (f : Obj F → Obj F) (hf : ∀ o, (f o).ctxRef = o.ctxRef) :
    Local w (w.setObj k f) k :=
  ⟨map_modify_ref _ _ _ hf, rfl, fun _ _ => rfl⟩

theorem local_grids (w : World F) (k : Nat) (g : List (List (NArr F))) : Local w { w with grids := g } k :=
  ⟨rfl, rfl, fun _ _ => rfl⟩

theorem local_setValues {w w' : World F} {k : Nat} {v : NArr F} (h : w.setValues k v = .ok w') :
    Local w w' k := by
  unfold setValues at h
  split at h
  · cases h
  · simp only [bind, Except.bind] at h
    split at h
    · cases h
    · cases h
      exact (local_setCtx _ _ _).trans (local_setObj _ _ _ fun _ => rfl)

variable [Min F] [Max F]

theorem local_setGridNew {w w' : World F} {k : Nat} {g : List (NArr F)} (h : w.setGridNew k g = .ok w') :
    Local w w' k := by
  unfold setGridNew at h
  split at h
  · cases h
  · simp only [bind, Except.bind] at h
    split at h
    · cases h
    · cases h
      exact ((local_setCtx _ _ _).trans
        (local_setObj _ _ (fun o => { o with gridRef := some w.grids.length }) fun _ => rfl)).trans
        (local_grids _ _ _)

theorem local_setGridOf {w w' : World F} {k j : Nat} (h : w.setGridOf k j = .ok w') :
    Local w w' k := by
  unfold setGridOf at h
  split at h
  · split at h
    · cases h
    · split at h
      · cases h
      · simp only [bind, Except.bind] at h
        split at h
        · cases h
        · cases h
          exact (local_setCtx _ _ _).trans (local_setObj _ _ _ fun _ => rfl)
  · cases h

variable [Add F] [Mul F] [Div F] [IntCast F]

theorem local_step (w : World F) (op : Op F) (k : Nat) (hk : op.target = some k) :
    Local w (w.step op) k := by
  cases op with
  | create src => simp [Op.target] at hk
  | setValues k' v =>
    simp only [Op.target, Option.some.injEq] at hk; subst hk
    simp only [step]
    split
    · rename_i h; exact local_setValues h
    · exact Local.refl _ _
  | setGridNew k' g =>
    simp only [Op.target, Option.some.injEq] at hk; subst hk
    simp only [step]
    split
    · rename_i h; exact local_setGridNew h
    · exact Local.refl _ _
  | setGridOf k' j =>
    simp only [Op.target, Option.some.injEq] at hk; subst hk
    simp only [step]
    split
    · rename_i h; exact local_setGridOf h
    · exact Local.refl _ _
  | push k' g v =>
    simp only [Op.target, Option.some.injEq] at hk; subst hk
    simp only [step]
    split
    · rename_i w' h
      simp only [bind, Except.bind] at h
      split at h
      · cases h
      · rename_i w1 h1
        exact (local_setValues h1).trans (local_setGridNew h)
    · exact Local.refl _ _
  | setKey k' key val =>
    simp only [Op.target, Option.some.injEq] at hk; subst hk
    simp only [step, setKey]
    split
    · exact Local.refl _ _
    · exact local_setCtx _ _ _
  | writeTxt k' =>
    simp only [Op.target, Option.some.injEq] at hk; subst hk
    simp only [step, World.writeTxt]
    split
    · split
      · exact local_grids _ _ _
      · exact Local.refl _ _
    · exact Local.refl _ _

omit [Min F] [Max F] [Add F] [Mul F] [Div F] [IntCast F] in
theorem Inv.of_local {w w' : World F} {k : Nat} (h : w.Inv) (hl : Local w w' k) : w'.Inv := by
  refine ⟨fun o ho => ?_, by rw [hl.refs]; exact h.nodup⟩
  have : o.ctxRef ∈ w'.objs.map Obj.ctxRef := List.mem_map.2 ⟨o, ho, rfl⟩
  rw [hl.refs] at this
  obtain ⟨o', ho', e⟩ := List.mem_map.1 this
  rw [← e, hl.len]; exact h.lt o' ho'

omit [Min F] [Max F] [Add F] [Mul F] [Div F] [IntCast F] in
theorem Inv.create {w : World F} (h : w.Inv) (src : Option Nat) : (w.create src).Inv := by
  refine ⟨fun o ho => ?_, ?_⟩
  · simp only [World.create, List.mem_append, List.mem_singleton] at ho
    simp only [World.create, List.length_append, List.length_singleton]
    rcases ho with ho | rfl
    · have := h.lt o ho; omega
    · simp
  · simp only [World.create, List.map_append, List.map_singleton]
    rw [List.nodup_append]
    refine ⟨h.nodup, by simp, ?_⟩
    intro a ha b hb
    simp only [List.mem_singleton] at hb
    subst hb
    obtain ⟨o, ho, rfl⟩ := List.mem_map.1 ha
    have := h.lt o ho
    omega

theorem Inv.step {w : World F} (h : w.Inv) (op : Op F) : (w.step op).Inv := by
  cases hop : op.target with
  | some k => exact h.of_local (local_step w op k hop)
  | none => cases op <;> simp [Op.target] at hop; exact h.create _

theorem inv_run (ops : List (Op F)) : ((ops.foldl step ({} : World F))).Inv := by
  suffices ∀ w : World F, w.Inv → (ops.foldl step w).Inv from
    this _ ⟨by simp, by simp⟩
  induction ops with
  | nil => intro w hw; exact hw
  | cons op ops ih => intro w hw; exact ih _ (hw.step op)

theorem step_keeps_ctx {w : World F} (hi : w.Inv) (op : Op F) {k : Nat} (hk : op.target ≠ some k)
    {d : GData F} (hd : w.view k = some d) :
    ∃ d', (w.step op).view k = some d' ∧ d'.ctx = d.ctx := by
  unfold view at hd
  cases ho : w.objs[k]? with
  | none => rw [ho] at hd; cases hd
  | some o =>
    rw [ho] at hd
    simp only [Option.some.injEq] at hd
    subst hd
    cases hop : op.target with
    | none =>
      cases op with
      | create src =>
        have hlt : k < w.objs.length := (List.getElem?_eq_some_iff.1 ho).1
        have ho' : (w.step (.create src)).objs[k]? = some o := by
          simp only [step, World.create]
          rw [List.getElem?_append_left hlt]; exact ho
        refine ⟨_, by unfold view; rw [ho'], ?_⟩
        simp only [step, World.create]
        rw [List.getElem?_append_left (hi.lt o (List.mem_of_getElem? ho))]
      | _ => simp [Op.target] at hop
    | some j =>
      have hloc := local_step w op j hop
      have hj : j ≠ k := fun h => hk (h ▸ hop)
      have e := congrArg (fun l => l[k]?) hloc.refs
      simp only [getElem?_map_ref, ho, Option.map_some] at e
      cases ho' : (w.step op).objs[k]? with
      | none => rw [ho'] at e; cases e
      | some o' =>
        rw [ho'] at e
        simp only [Option.map_some, Option.some.injEq] at e
        refine ⟨_, by unfold view; rw [ho'], ?_⟩
        simp only [e]
        rw [hloc.same]
        intro oj hoj heq
        have h1 := List.getElem?_eq_some_iff.1 ho
        have h2 := List.getElem?_eq_some_iff.1 hoj
        have hn := hi.nodup
        have hlen1 : k < (w.objs.map Obj.ctxRef).length := by simpa using h1.1
        have hlen2 : j < (w.objs.map Obj.ctxRef).length := by simpa using h2.1
        have := (List.Nodup.getElem_inj_iff hn (hi := hlen2) (hj := hlen1)).1 (by
          simp only [List.getElem_map, h1.2, h2.2]; exact heq)
        exact hj this

end World

/-- C21: after any history of operations, a further sequence of operations on *other* datasets
(including creating new ones from this one's metadata) leaves the metadata dataset `k` reports
unchanged. -/
theorem C21_metadata_not_shared (hist ops : List (World.Op F)) (k : Nat) (d : GData F)
    (hd : (hist.foldl World.step {}).view k = some d) (hops : ∀ op ∈ ops, op.target ≠ some k) :
    ∃ d', (ops.foldl World.step (hist.foldl World.step {})).view k = some d' ∧ d'.ctx = d.ctx := by
  have hi := World.inv_run hist
  generalize hist.foldl World.step {} = w at hd hi
  induction ops generalizing w d with
  | nil => exact ⟨d, hd, rfl⟩
  | cons op ops ih =>
    obtain ⟨d1, h1, h2⟩ := World.step_keeps_ctx hi op (hops op (by simp)) hd
    obtain ⟨d2, h3, h4⟩ := ih d1 (fun o ho => hops o (by simp [ho])) _ h1 (hi.step op)
    exact ⟨d2, h3, h4.trans h2⟩

/-- C21: a dataset created with `ctx=other.ctx` starts with the same metadata (and without data). -/
theorem C21_starts_equal (hist : List (World.Op F)) (j : Nat) (d : GData F)
    (hd : (hist.foldl World.step {}).view j = some d) :
    ((hist.foldl World.step {}).step (.create (some j))).view (hist.foldl World.step {}).objs.length =
      some { ctx := d.ctx } := by
  generalize hist.foldl World.step ({} : World F) = w at hd
  simp only [World.step, World.create, hd]
  unfold World.view
  simp

theorem World.dict_get_set {V : Type} (key : String) (val : V) : ∀ (o : Dict V) (key' : String),
    Dict.get? (Dict.set o key val) key' = if key' = key then some val else Dict.get? o key'
  | [], key' => by
    simp only [Dict.set, Dict.get?, eq_comm (a := key)]
  | (k', v') :: o, key' => by
    unfold Dict.set
    split
    · rename_i h
      subst h
      simp only [Dict.get?, eq_comm (a := k')]
      split <;> rfl
    · rename_i h
      simp only [Dict.get?, World.dict_get_set key val o key']
      by_cases h1 : k' = key'
      · subst h1
        rw [if_pos rfl, if_neg h, if_pos rfl]
      · rw [if_neg h1, if_neg h1]

/-- C21: after any history, an assignment to a key of the metadata of a dataset is what this dataset reports for the key; it reports the
same as before for all others, and the same data. -/
theorem C21_own_key (hist : List (World.Op F)) (k : Nat) (d : GData F) (hd : (hist.foldl World.step {}).view k = some d)
    (key val : String) : ∃ other, ((hist.foldl World.step {}).step (.setKey k key val)).view k =
      some { d with ctx := { d.ctx with other := other } } ∧
    Dict.get? other key = some val ∧ ∀ key' ≠ key, Dict.get? other key' = Dict.get? d.ctx.other key' := by
  have hi := World.inv_run hist
  generalize hist.foldl World.step ({} : World F) = w at hd hi
  refine ⟨Dict.set d.ctx.other key val, ?_, by rw [World.dict_get_set, if_pos rfl],
    fun key' h => by rw [World.dict_get_set, if_neg h]⟩
  simp only [World.step, World.setKey, hd]
  unfold World.setCtx
  unfold World.view at hd ⊢
  cases ho : w.objs[k]? with
  | none => rw [ho] at hd; cases hd
  | some o =>
    rw [ho] at hd
    cases hd
    have hlt := hi.lt o (List.mem_of_getElem? ho)
    simp only [ho, List.getElem?_set_self hlt, Option.getD_some]

/-- Non-trivial case: two keys, one after the other. -/
example :
    let w := List.foldl World.step ({} : World Rat) [World.Op.create none, .setKey 0 "time" "1", .setKey 0 "frame" "2", .setKey 0 "time" "3"]
    (w.view 0).map (fun d => (Dict.get? d.ctx.other "time", Dict.get? d.ctx.other "frame")) = some (some "3", some "2") := by
  decide +kernel

/-- Non-trivial case for C21: dataset 1 is derived from dataset 0, then dataset 0 changes shape. -/
example :
    let w := List.foldl World.step ({} : World Rat)
      [World.Op.create none, .setValues 0 ⟨[2, 1], [1, 2]⟩, .create (some 0)]
    let w' := w.step (.setValues 0 ⟨[1, 3], [1, 2, 3]⟩)
    (w.view 1).map (fun d => d.ctx.cells) = some (some [2]) ∧
    (w'.view 0).map (fun d => d.ctx.cells) = some (some [1]) ∧
    (w'.view 1).map (fun d => d.ctx.cells) = some (some [2]) := by
  decide +kernel

end C21
end Pgkyl
