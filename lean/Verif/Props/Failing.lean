import Mathlib.Algebra.Ring.Rat
import Mathlib.Algebra.Order.Ring.Unbundled.Rat
import Verif.Lemmas.Failing
/-!
# C160: what a call that raises leaves behind

`select`, `integrate` and the diagnostics compute first and store last, so a call that raises while computing leaves the dataset
as it was.  `push` itself stores the values before it looks at the grid.
-/

namespace Pgkyl
open Spec Inp Failing

section
variable {F : Type} [Min F] [Max F]

/-- C160: the outcomes with the state are those of the other properties: the same dataset if nothing is raised, the same
exception if something is. -/
theorem C160_push_agrees (d : GData F) (g : List (NArr F)) (v : NArr F) : Agrees (d.push g v) _root_.id (Failing.push d g v) :=
  push_agrees d g v

theorem C160_select_agrees [LT F] [DecidableLT F] (pf : List Char → Option F) (d : GData F) (comp : Option (IdxArg F))
    (zs : List (Option (IdxArg F))) :
    Agrees (Pgkyl.select pf d comp zs true) (fun r => r.2.2) (Failing.select pf d comp zs) := by
  obtain ⟨h1, h2, h3⟩ := select_rejects pf d comp zs
  unfold Failing.select
  cases hs : Pgkyl.select pf d comp zs false with
  | error e =>
    rw [h3 e hs]
    exact ⟨fun a h => (by cases h), fun e h => (by cases h; rfl)⟩
  | ok r =>
    obtain ⟨k1, k2⟩ := push_agrees d r.1 r.2.1
    cases hp : d.push r.1 r.2.1 with
    | error e =>
      rw [h2 r hs e hp]
      exact ⟨fun a h => (by cases h), fun e h => (by cases h; exact k2 _ hp)⟩
    | ok d' =>
      rw [h1 r hs d' hp]
      exact ⟨fun a h => (by cases h; exact k1 _ hp), fun e h => (by cases h)⟩

theorem C160_integrate_agrees [Add F] [Sub F] [Mul F] [Div F] [Zero F] [IntCast F] (d : GData F) (axis : Calculus.AxisArg) :
    Agrees (Calculus.integrate d axis true) (fun r => r.2.2) (Failing.integrate d axis) := by
  obtain ⟨h1, h2, h3⟩ := integrate_rejects d axis
  unfold Failing.integrate
  cases hs : Calculus.integrate d axis false with
  | error e =>
    rw [h3 e hs]
    exact ⟨fun a h => (by cases h), fun e h => (by cases h; rfl)⟩
  | ok r =>
    obtain ⟨k1, k2⟩ := push_agrees d r.1 r.2.1
    cases hp : d.push r.1 r.2.1 with
    | error e =>
      rw [h2 r hs e hp]
      exact ⟨fun a h => (by cases h), fun e h => (by cases h; exact k2 _ hp)⟩
    | ok d' =>
      rw [h1 r hs d' hp]
      exact ⟨fun a h => (by cases h; exact k1 _ hp), fun e h => (by cases h)⟩

/-- C160: a `push` that raises has stored the values and the grid all the same, and kept the old bounds. -/
theorem C160_push_fails {d : GData F} {g : List (NArr F)} {v : NArr F} (hv : v.shape ≠ []) {e : Err}
    (h : d.push g v = .error e) :
    (Failing.push d g v).error = some e ∧ (Failing.push d g v).state.values = some v ∧
      (Failing.push d g v).state.grid = some g ∧ (Failing.push d g v).state.ctx.lower = d.ctx.lower ∧
      (Failing.push d g v).state.ctx.upper = d.ctx.upper := by
  have he := (push_agrees d g v).2 e h
  rw [push_left hv he]
  exact ⟨he, rfl, rfl, rfl, rfl⟩

/-- C160: a `push` of values without axes raises IndexError and has stored them, with an empty list of cells; the grid is as it
was. -/
theorem C160_push_scalar_fails {d : GData F} {v : NArr F} (g : List (NArr F)) (hv : v.shape = []) :
    (Failing.push d g v).error = some .indexError ∧ (Failing.push d g v).state.values = some v ∧
      (Failing.push d g v).state.ctx.cells = some [] ∧ (Failing.push d g v).state.grid = d.grid := by
  have h : d.setValues v = .error .indexError := by unfold GData.setValues; rw [hv]; rfl
  unfold Failing.push Failing.setValues
  rw [h, hv]
  exact ⟨rfl, rfl, rfl, rfl⟩

/-- C160, `select(data, ..., overwrite=True)`: it does all of its work or leaves the dataset as it was, if every axis of what is
asked for has a node left. -/
theorem C160_select_partial [LT F] [DecidableLT F] (pf : List Char → Option F) (d : GData F) (comp : Option (IdxArg F))
    (zs : List (Option (IdxArg F))) (hn : ∀ g v d', Pgkyl.select pf d comp zs false = .ok (g, v, d') → ∀ a ∈ g, a.data ≠ []) :
    AllOrNothing d (Failing.select pf d comp zs) := by
  intro e he
  unfold Failing.select at he ⊢
  cases hs : Pgkyl.select pf d comp zs false with
  | error e => rfl
  | ok r =>
    obtain ⟨g, v, d'⟩ := r
    rw [hs] at he
    obtain ⟨h1, h2⟩ := select_rank hs
    rw [push_nodes ⟨h2, hn g v d' hs⟩ h1] at he
    cases he

/-- C160: if an axis of what is asked for has no node, the call raises ValueError and the dataset holds the selection already,
with the bounds it had before. -/
theorem C160_select_fails [LT F] [DecidableLT F] (pf : List Char → Option F) {d d' : GData F} {comp : Option (IdxArg F)}
    {zs : List (Option (IdxArg F))} {g : List (NArr F)} {v : NArr F}
    (hs : Pgkyl.select pf d comp zs false = .ok (g, v, d')) (hn : ∃ a ∈ g.take (v.shape.length - 1), a.data = []) :
    (Failing.select pf d comp zs).error = some .valueError ∧ (Failing.select pf d comp zs).state.values = some v ∧
      (Failing.select pf d comp zs).state.grid = some g ∧ (Failing.select pf d comp zs).state.ctx.lower = d.ctx.lower ∧
      (Failing.select pf d comp zs).state.ctx.upper = d.ctx.upper := by
  obtain ⟨h1, h2⟩ := select_rank hs
  have := C160_push_fails (d := d) h1 (push_empty h1 h2 hn)
  unfold Failing.select
  rw [hs]
  exact this

/-- The data has a coordinate array per axis, one node longer than there are cells. -/
structure CellData (d : GData F) (axes : List (List F)) (cells : List Nat) (v : NArr F) : Prop where
  grid : d.grid = some (axes.map NArr.ofList)
  values : d.values = some v
  shape : v.shape.dropLast = cells
  fits : List.Forall₂ (fun (a : List F) (n : Nat) => a.length = n + 1 ∧ 0 < n) axes cells

omit [Min F] [Max F] in
theorem cut_nodes [LT F] [DecidableLT F] {pf : List Char → Option F} : ∀ {d : Nat} {axes : List (List F)} {cells : List Nat}
    {zs : List (Option (IdxArg F))} {sels : List AxisSel},
    List.Forall₂ (fun (a : List F) (n : Nat) => a.length = n + 1 ∧ 0 < n) axes cells →
    (∀ z ∈ zs, z = none ∨ ∃ x, z = some (.float x)) → axesSel pf true d cells (axes.map NArr.ofList) zs = .ok sels →
    ∀ a ∈ List.zipWith (fun (g : NArr F) s => g.ix (s :: (g.shape.drop 1).map List.range)) (axes.map NArr.ofList)
      (sels.map (·.g)), a.data ≠ []
  | _, [], [], _, _, _, _, h => by cases h; simp
  | d, x :: axes, n :: cells, zs, sels, .cons ⟨h1, h2⟩ hr, hz, h => by
    obtain ⟨s, hs, h⟩ := bind_ok h
    obtain ⟨ss, hss, h⟩ := bind_ok h
    cases h
    intro a ha
    rw [List.map_cons, List.map_cons, List.zipWith_cons_cons, List.mem_cons] at ha
    rcases ha with rfl | ha
    · obtain ⟨i, m, hi, hm, hg⟩ : ∃ i m, i + m ≤ x.length ∧ 0 < m ∧ s.g = List.range' i m := by
        have hz0 : zs.headD none = none ∨ ∃ x, zs.headD none = some (.float x) := by
          cases zs with
          | nil => exact .inl rfl
          | cons z zs => exact hz z (by simp)
        rcases hz0 with h0 | ⟨c, h0⟩
        · rw [h0] at hs
          simp only [axisSel, gridLen, NArr.ofList, if_true, List.getElem?_cons_zero, bind, Except.bind, pure, Except.pure] at hs
          cases hs
          exact ⟨0, x.length, by omega, by omega, by rw [← List.range_eq_range']⟩
        · rw [h0] at hs
          obtain ⟨i, hi, hg⟩ := coordinate_cell h1 h2 d c hs
          exact ⟨i, 2, by omega, by omega, hg⟩
      show ((NArr.ofList x).ix (s.g :: _)).data ≠ []
      have hsh : ((NArr.ofList x).shape.drop 1).map List.range = [] := by simp [NArr.ofList]
      rw [hsh, hg, NArr.ix_ofList x i m hi]
      intro he
      have := congrArg List.length he
      simp only [NArr.ofList, List.length_take, List.length_drop, List.length_nil] at this
      omega
    · refine cut_nodes hr (fun z hm => hz z ?_) hss a ha
      exact List.mem_of_mem_tail hm

/-- C160, `select(data, comp, z0=…, …, overwrite=True)` at coordinates: on data with values in cells, where every argument of an
axis is a coordinate or `None`, it does all of its work or leaves the dataset as it was, whatever the components asked for. -/
theorem C160_select_coordinates [LT F] [DecidableLT F] (pf : List Char → Option F) {d : GData F} {axes : List (List F)}
    {cells : List Nat} {v : NArr F} (hd : CellData d axes cells v) (comp : Option (IdxArg F)) {zs : List (Option (IdxArg F))}
    (hz : ∀ z ∈ zs, z = none ∨ ∃ x, z = some (.float x)) : AllOrNothing d (Failing.select pf d comp zs) := by
  refine C160_select_partial pf d comp zs fun g w d' h => ?_
  obtain ⟨hg, hv, hc, hf⟩ := hd
  unfold Pgkyl.select at h
  cases axes with
  | nil =>
    rw [hg, hv] at h
    cases h
  | cons x axes =>
    rw [hg, hv] at h
    simp only [List.map_cons, if_false, Bool.false_eq_true, hc] at h
    split_ifs at h
    obtain ⟨sels, hs, h⟩ := bind_ok h
    obtain ⟨cs, -, h⟩ := bind_ok h
    cases h
    have hu : ((NArr.ofList x).shape.length == 1) = true := rfl
    rw [hu] at hs ⊢
    have hl := (axesSel_length hs).1
    have hl' := hf.length_eq
    unfold cutGrid
    rw [if_pos rfl, List.drop_of_length_le, List.append_nil]
    · exact cut_nodes hf (fun z hm => hz z (List.mem_of_mem_take hm)) hs
    · simp only [List.length_cons, List.length_map] at hl hl' ⊢
      omega

section
variable [Add F] [Sub F] [Mul F] [Div F] [Zero F] [IntCast F]

/-- C160, `integrate(data, axis, overwrite=True)`: it does all of its work or leaves the dataset as it was, for every data with a
node on each axis. -/
theorem C160_integrate {d : GData F} {g : List (NArr F)} {v : NArr F} (hg : d.grid = some g) (hv : d.values = some v)
    (hs : v.shape ≠ []) (hn : HasNodes g (v.shape.length - 1)) (axis : Calculus.AxisArg) :
    AllOrNothing d (Failing.integrate d axis) := by
  intro e he
  unfold Failing.integrate at he ⊢
  cases h : Calculus.integrate d axis false with
  | error e => rfl
  | ok r =>
    obtain ⟨g', w, d'⟩ := r
    rw [h] at he
    obtain ⟨h1, h2⟩ := integrate_nodes hg hv hn h
    rw [push_nodes (by rw [h1]; exact h2) (fun h0 => hs (List.length_eq_zero_iff.1 (by rw [← h1, h0]; rfl)))] at he
    cases he

theorem C160_diagnostic_agrees (sqrt : F → F) (t : Tool F) {x : Input F} {l : List (NArr F)} {v : NArr F}
    (h : StandsFor x (.list l) v) (o : GData F) :
    (∀ r o', t.run sqrt x (some o) = .ok (.list l, r, some o') → diagnostic sqrt t x o = ⟨o', none⟩) ∧
      ∀ e, t.run sqrt x (some o) = .error e → (diagnostic sqrt t x o).error = some e := by
  unfold diagnostic
  rw [run_eq (parse_standsFor h), run_eq (parse_standsFor h)]
  cases onValues sqrt t v with
  | error e => exact ⟨fun r o' h => (by cases h), fun e h => (by cases h; rfl)⟩
  | ok r =>
    rw [ok_bind, ok_bind]
    obtain ⟨k1, k2⟩ := push_agrees o l r
    constructor
    · intro r' o' h
      obtain ⟨o'', h1, h2⟩ := bind_ok h
      cases h2
      exact k1 _ h1
    · intro e h
      refine k2 _ ?_
      show o.push l r = _
      have h : (o.push l r >>= fun o' => Except.ok (PyGrid.list l, r, some o')) = Except.error e := h
      cases hp : o.push l r with
      | error e' => rw [hp] at h; cases h; rfl
      | ok o' => rw [hp] at h; cases h

/-- C160, a diagnostic with a dataset for its output: it does all of its work or leaves that dataset as it was, for every
argument with a node on each axis. -/
theorem C160_diagnostic (sqrt : F → F) (t : Tool F) {x : Input F} {l : List (NArr F)} {v : NArr F} (h : StandsFor x (.list l) v)
    (hs : v.shape ≠ []) (hn : HasNodes l (v.shape.length - 1)) (o : GData F) : AllOrNothing o (diagnostic sqrt t x o) := by
  intro e he
  unfold diagnostic at he ⊢
  rw [run_eq (parse_standsFor h)] at he ⊢
  cases hr : onValues sqrt t v with
  | error e => rfl
  | ok r =>
    rw [hr, ok_bind] at he
    have h1 := onValues_rank rfl sqrt t r hr
    have he : (Failing.push o l r).error = some e := he
    rw [push_nodes (by rw [h1]; exact hn) (fun h0 => hs (List.length_eq_zero_iff.1 (by rw [← h1, h0]; rfl)))] at he
    cases he

/-- C160: a diagnostic of an array of values alone, where there is at least one axis, raises IndexError and has replaced the
values and the grid of the dataset for its output. -/
theorem C160_diagnostic_fails (sqrt : F → F) (t : Tool F) {v r : NArr F} (h : onValues sqrt t v = .ok r) (hs : 2 ≤ v.shape.length)
    (o : GData F) :
    (diagnostic sqrt t (.array v) o).error = some .indexError ∧ (diagnostic sqrt t (.array v) o).state.values = some r ∧
      (diagnostic sqrt t (.array v) o).state.grid = some [] := by
  have h1 := onValues_rank rfl sqrt t r h
  have hne : r.shape ≠ [] := fun h0 => by rw [h0] at h1; simp only [List.length_nil] at h1; omega
  have hp : o.push [] r = .error .indexError := by
    obtain ⟨nc, hnc⟩ : ∃ nc, r.shape.getLast? = some nc := ⟨_, List.getLast?_eq_some_getLast hne⟩
    unfold GData.push
    rw [GData.setValues_ok hnc]
    show GData.setGrid _ [] = _
    unfold GData.setGrid
    have : GData.numDims { o with
        values := some r
        ctx := { o.ctx with cells := some r.shape.dropLast, numComps := some nc } } = r.shape.length - 2 + 1 := by
      simp [GData.numDims, GData.numCells]
      omega
    rw [this]
    rfl
  unfold diagnostic
  rw [run_eq (parse_standsFor (StandsFor.array v)), h, ok_bind]
  obtain ⟨k1, k2, k3, -⟩ := C160_push_fails (d := o) hne hp
  exact ⟨k1, k2, k3⟩

end
end

/-! ### Cases -/

/-- Three cells, one component. -/
def failData : GData ℚ :=
  { grid := some [NArr.ofList [0, 1, 2, 3]], values := some ⟨[3, 1], [5, 6, 7]⟩,
    ctx := { cells := some [3], numComps := some 1, lower := some [0], upper := some [3], other := [] },
    tag := "default".toList, label := [], customLabel := [], fileName := [], status := true }

example : CellData failData [[0, 1, 2, 3]] [3] ⟨[3, 1], [5, 6, 7]⟩ :=
  ⟨rfl, rfl, rfl, .cons ⟨rfl, by decide⟩ .nil⟩

/-- `select(data, comp=4, z0=1.5, overwrite=True)` raises, and the dataset is as it was. -/
example : (Failing.select (fun _ => none) failData (some (.int 4)) [some (.float (3 / 2))]).error = some .indexError ∧
    (Failing.select (fun _ => none) failData (some (.int 4)) [some (.float (3 / 2))]).state = failData := by
  decide +kernel

/-- `select(data, z0=-1, overwrite=True)`, the last cell as NumPy counts, raises ValueError, and the values of the dataset are
gone, while its bounds still say 0 and 3. -/
theorem C160_select_last_fails :
    (Failing.select (fun _ => none) failData none [some (.int (-1))]).error = some .valueError ∧
      (Failing.select (fun _ => none) failData none [some (.int (-1))]).state.values = some ⟨[0, 1], []⟩ ∧
      (Failing.select (fun _ => none) failData none [some (.int (-1))]).state.ctx.lower = some [0] ∧
      (Failing.select (fun _ => none) failData none [some (.int (-1))]).state.ctx.upper = some [3] := by
  decide +kernel

/-- `integrate(data, axis=1, overwrite=True)`: there is no second axis; it raises and leaves the dataset as it was. -/
example : HasNodes [NArr.ofList [(0 : ℚ), 1, 2, 3]] 1 ∧
    (Failing.integrate failData (.int 1)).error = some .indexError ∧ (Failing.integrate failData (.int 1)).state = failData :=
  ⟨⟨by decide, by simp [NArr.ofList]⟩, by decide +kernel, by decide +kernel⟩

/-- `get_vx(data, out_mom=data)`: there is one component only; it raises and leaves the dataset as it was. -/
example : (diagnostic _root_.id (.velocity 1) (.gdata failData) failData).error = some .indexError ∧
    (diagnostic _root_.id (.velocity 1) (.gdata failData) failData).state = failData := by
  decide +kernel

/-- `get_density(data.values, out_mom=data)` -/
example : onValues (F := ℚ) _root_.id .density ⟨[3, 1], [5, 6, 7]⟩ = .ok ⟨[3, 1], [5, 6, 7]⟩ := by decide +kernel

end Pgkyl
