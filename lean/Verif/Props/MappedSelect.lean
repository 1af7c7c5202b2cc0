import Verif.Lemmas.MappedSelect
/-! # C11, C54: selections on mapped grids -/

namespace Pgkyl
open Spec
variable {F : Type} [LinearOrder F]

/-- C11 on mapped grids: a selection by index returns exactly the selected cells and components, and of every array of node
coordinates the block of nodes of the selected cells; the dataset is left alone. -/
theorem C11_select_mapped_partial (pf : List Char → Option F) (data : GData F) (a0 : MapAxis F) (axes : List (MapAxis F))
    (grids : List (NArr F)) (nc : Nat) (values : NArr F) (h : HasMap data (a0 :: axes) grids nc values)
    (hax : ∀ a ∈ a0 :: axes, a.OK a0.m) (comp : Option (IdxArg F)) (cs : List Nat) (hc : CompDenotes nc comp cs)
    (rest : List (Option (IdxArg F))) :
    ∃ out gridsOut, select pf data comp ((a0 :: axes).map (·.z) ++ rest) false = .ok (gridsOut, out, data) ∧
      List.Forall₂ (fun g g' => IsWindow g g' ((a0 :: axes).map (·.lo)) ((a0 :: axes).map (·.nodesOut))) grids gridsOut ∧
      out.WF ∧ out.shape = (a0 :: axes).map (fun a => a.hi - a.lo) ++ [cs.length] ∧
      ∀ idx k c, inRange ((a0 :: axes).map fun a => a.hi - a.lo) idx = true → cs[k]? = some c →
        out.get? (idx ++ [k]) = values.get? (List.zipWith (· + ·) idx ((a0 :: axes).map (·.lo)) ++ [c]) := by
  obtain ⟨hg, hcount, hnodes, hv, hw, hs, hd, h2, h6⟩ := h
  generalize hax' : a0 :: axes = as at *
  cases grids with
  | nil => simp at hcount; omega
  | cons g gs =>
  have hlen : values.shape.length = data.numDims + 1 := by rw [hs, hd]; simp
  have hdl : values.shape.dropLast = as.map (·.n) := by rw [hs, List.dropLast_concat]
  have hlast : values.shape.getLastD 0 = nc := by rw [hs, List.getLastD_concat]
  obtain ⟨rest', hrest'⟩ : ∃ rest', List.take 6 (as.map (·.z) ++ rest) = as.map (·.z) ++ rest' :=
    ⟨rest.take (6 - as.length), by
      rw [List.take_append, List.take_of_length_le (by simpa using h6)]; simp⟩
  have hgs : g.shape = as.map (·.m) := (hnodes g (by simp)).2
  have hu : (g.shape.length == 1) = false := by
    rw [hgs]; simp; omega
  have hsel := axesSel_mapped pf (all := as.map (·.m)) (first := a0.m) (tl := axes.map (·.m)) (by rw [← hax']; rfl) rest' as (g :: gs) []
    hcount hax (fun x hx => (hnodes x hx).2) rfl
  simp only [List.length_nil] at hsel
  have hf := vals_forall₂ hax (compDenotes_lt hc)
  have hfs := hf
  rw [← hs] at hfs
  have hsh : ((as.map fun a => List.range' a.lo (a.hi - a.lo)) ++ [cs]).map List.length =
      as.map (fun a => a.hi - a.lo) ++ [cs.length] := by simp
  have hzip : (as.map fun a => List.range' a.lo (a.hi - a.lo)) =
      List.zipWith List.range' (as.map (·.lo)) (as.map fun a => a.hi - a.lo) := by
    clear * -
    induction as with
    | nil => rfl
    | cons a as ih => simp only [List.map_cons, List.zipWith_cons_cons, ih]
  refine ⟨_, cutGrid false (as.map fun a => List.range' a.lo a.nodesOut) (g :: gs), ?_, ?_, NArr.ix_WF hw hfs,
    by rw [NArr.ix_shape, hsh], ?_⟩
  · simp only [select, hg, hv]
    rw [if_neg (not_not.2 hlen), hdl, hlast, hrest', compSel_denotes pf hc, hu, hsel]
    simp only [bind, Except.bind, pure, Except.pure, List.map_map, Function.comp_def, Bool.false_eq_true, if_false]
  · have hgl : (as.map fun a => List.range' a.lo a.nodesOut).length = (g :: gs).length := by rw [hcount]; simp
    simp only [cutGrid, Bool.false_eq_true, if_false, hgl, List.take_length, List.drop_length, List.append_nil]
    rw [List.forall₂_map_right_iff, List.forall₂_same]
    intro x hx
    obtain ⟨hxw, hxs⟩ := hnodes x hx
    rw [List.drop_eq_nil_of_le (by rw [hxs, hcount]; simp), List.map_nil, List.append_nil, zip_nodes]
    exact isWindow_ix hxw (by simp) (by rw [hxs]; exact nodes_forall₂ hax)
  · intro idx k c hidx hk
    have hkl := (List.getElem?_eq_some_iff.1 hk).1
    rw [NArr.ix_get? hw hfs (by rw [hsh]; exact inRange_snoc hidx hkl)]
    have hil : idx.length = as.length := by simpa using inRange_length hidx
    rw [pick_append (by simp [hil]), hzip, pick_range' (by simp) hidx]
    simp [pick, hk]

/-- C11 fails for coordinates: on a mapped grid every selection by coordinate raises an error, on any axis. -/
theorem C11_mapped_coordinate_fails (pf : List Char → Option F) (data : GData F) (a0 : MapAxis F) (axes : List (MapAxis F))
    (grids : List (NArr F)) (nc : Nat) (values : NArr F) (h : HasMap data (a0 :: axes) grids nc values)
    (comp : Option (IdxArg F)) (c : F) (d : Nat) (hd : d < axes.length + 1) (rest : List (Option (IdxArg F))) :
    select pf data comp (List.replicate d none ++ some (.float c) :: rest) false = .error .valueError := by
  obtain ⟨hg, hcount, hnodes, hv, hw, hs, hdm, h2, h6⟩ := h
  generalize hax' : a0 :: axes = as at *
  have hasl : as.length = axes.length + 1 := by rw [← hax']; rfl
  cases grids with
  | nil => simp at hcount; omega
  | cons g gs =>
  have hlen : values.shape.length = data.numDims + 1 := by rw [hs, hdm]; simp
  have hdl : values.shape.dropLast = as.map (·.n) := by rw [hs, List.dropLast_concat]
  have hgs : g.shape = as.map (·.m) := (hnodes g (by simp)).2
  have hu : (g.shape.length == 1) = false := by
    rw [hgs]; simp; omega
  have key : ∀ (as' : List (MapAxis F)) (gs' : List (NArr F)) (d k : Nat) (rest : List (Option (IdxArg F))),
      d < as'.length → gs'.length = as'.length → (∀ x ∈ gs', x.shape.length = as.length) → k + as'.length = as.length →
      axesSel pf false k (as'.map (·.n)) gs' (List.replicate d none ++ some (.float c) :: rest) = .error .valueError := by
    intro as'
    induction as' with
    | nil => intro gs' d k rest h; simp at h
    | cons a as' ih =>
      intro gs' d k rest hd hl hx hk
      cases gs' with
      | nil => simp at hl
      | cons x gs' =>
        have hxl := hx x (by simp)
        simp only [List.length_cons] at hk hd hl
        have hgl : gridLen false k x = .ok x.shape[k] := by
          simp only [gridLen, Bool.false_eq_true, if_false]
          rw [List.getElem?_eq_getElem (by omega)]
        cases d with
        | zero =>
          have hsr : ∀ nodal, lookup (some x) nodal c = .error .valueError := by
            intro nodal
            have : searchArr (some x) c = .error .valueError := by
              simp only [searchArr]; rw [if_neg (by omega)]
            unfold lookup findCellIndex findNearestIndex
            cases nodal <;> simp only [this, bind, Except.bind, if_true, Bool.false_eq_true, if_false]
          simp only [List.replicate_zero, List.nil_append, List.map_cons, axesSel, List.headD_cons, axisSel, hgl, idxParser, hsr,
            bind, Except.bind]
        | succ d =>
          simp only [List.replicate_succ, List.cons_append, List.map_cons, axesSel, List.headD_cons, axisSel, hgl, bind, Except.bind,
            pure, Except.pure, List.tail_cons]
          rw [ih gs' d (k + 1) rest (by omega) (by omega) (fun x hx' => hx x (by simp [hx'])) (by omega)]
  have htake : List.take 6 (List.replicate d none ++ some (.float c) :: rest) =
      List.replicate d none ++ some (IdxArg.float c) :: rest.take (5 - d) := by
    rw [List.take_append, List.take_of_length_le (by simp; omega), List.length_replicate]
    have : 6 - d = (5 - d) + 1 := by omega
    rw [this, List.take_succ_cons]
  simp only [select, hg, hv]
  rw [if_neg (not_not.2 hlen), hdl, hu, htake, key as (g :: gs) d 0 _ (by omega) hcount
    (fun x hx => by rw [(hnodes x hx).2]; simp) (by omega)]
  rfl

/-- C54 fails on mapped grids in general: an open end `'a:'` on an axis with more cells than there are nodes along the first
axis stops at that number of nodes; the cells from there on are lost. -/
theorem C54_open_stop_mapped_fails (pf : List Char → Option F) (d : Nat) (g : NArr F) {first n m a : Nat} {rest : List Nat}
    (hg : g.shape = first :: rest) (hd : g.shape[d]? = some m) (hm : first < n) :
    (axisSel pf false d g n (some (.str (dec a ++ [':'])))).map (·.v) = .ok (List.range' a (first - a)) := by
  have hgl : gridLen false d g = .ok m := by simp [gridLen, hd]
  simp only [axisSel, hgl, bind, Except.bind, open_stop_first pf a g _ hg, pure, Except.pure, Except.map, slicePos_nat]
  rw [Nat.min_eq_left (by omega)]

/-- C11 on mapped grids: not vacuous: 2 x 2 cells of a mapped grid, the second row. -/
def exMap : GData Int :=
  { grid := some [⟨[3, 3], [0, 0, 0, 1, 1, 1, 2, 2, 2]⟩, ⟨[3, 3], [0, 1, 2, 0, 2, 4, 0, 3, 6]⟩]
    values := some ⟨[2, 2, 1], [10, 11, 20, 21]⟩
    ctx := { cells := some [2, 2], numComps := some 1 } }

example : HasMap exMap [⟨2, 3, some (.int 1), 1, 2⟩, ⟨2, 3, some (.str (dec 0 ++ [':'])), 0, 2⟩]
    [⟨[3, 3], [0, 0, 0, 1, 1, 1, 2, 2, 2]⟩, ⟨[3, 3], [0, 1, 2, 0, 2, 4, 0, 3, 6]⟩] 1 ⟨[2, 2, 1], [10, 11, 20, 21]⟩ ∧
    ∀ a ∈ ([⟨2, 3, some (.int 1), 1, 2⟩, ⟨2, 3, some (.str (dec 0 ++ [':'])), 0, 2⟩] : List (MapAxis Int)), a.OK 3 := by
  refine ⟨⟨rfl, rfl, ?_, rfl, rfl, rfl, rfl, by decide, by decide⟩, ?_⟩
  · intro g hg
    simp only [List.mem_cons, List.not_mem_nil, or_false] at hg
    rcases hg with rfl | rfl <;> exact ⟨rfl, rfl⟩
  · intro a ha
    simp only [List.mem_cons, List.not_mem_nil, or_false] at ha
    rcases ha with rfl | rfl
    · exact ⟨Or.inl rfl, .index 1 (by decide), by decide⟩
    · exact ⟨Or.inl rfl, .from 0 (by decide) (by decide), by decide⟩

example : select (fun _ => none) exMap none [some (.int 1), some (.str "0:".toList)] false =
    .ok ([⟨[2, 3], [1, 1, 1, 2, 2, 2]⟩, ⟨[2, 3], [0, 2, 4, 0, 3, 6]⟩], ⟨[1, 2, 1], [20, 21]⟩, exMap) := by rfl

end Pgkyl
