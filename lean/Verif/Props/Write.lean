import Verif.Spec.Write
import Verif.Lemmas.StoreCmd
import Verif.Props.DataSpace
import Verif.Lemmas.NArr
import Mathlib.Algebra.Order.Field.Basic
import Mathlib.Tactic.FieldSimp
/-! # C22–C25: text output, side effects of writing, names of files -/

namespace Pgkyl
open Spec

/-! ## C22 -/

section C22
variable {F : Type} [_root_.Field F]

theorem txtIndex_ravel : ∀ {cells idx : List Nat}, inRange cells idx = true →
    txtIndex (txtBasis cells) (ravel cells idx) = idx
  | [], [], _ => rfl
  | [], _ :: _, h => by simp [inRange] at h
  | _ :: _, [], h => by simp [inRange] at h
  | n :: ns, i :: is, h => by
    simp only [inRange, Bool.and_eq_true, decide_eq_true_eq] at h
    have hr := ravel_lt h.2
    simp only [txtBasis, txtIndex, ravel]
    have h1 : (i * ns.prod + ravel ns is) / ns.prod = i := by
      rw [Nat.mul_comm, Nat.mul_add_div (by omega), Nat.div_eq_of_lt hr]; simp
    have h2 : (i * ns.prod + ravel ns is) % ns.prod = ravel ns is := by
      rw [Nat.mul_comm, Nat.mul_add_mod, Nat.mod_eq_of_lt hr]
    rw [h1, h2, txtIndex_ravel h.2]

theorem centres_getElem? {nodes : List F} {i : Nat} (h : i + 1 < nodes.length) :
    (centres nodes)[i]? = some (midpoint nodes i) := by
  have h0 : i < nodes.length := by omega
  simp only [centres, List.getElem?_zipWith, List.getElem?_tail, List.getElem?_dropLast,
    if_pos (show i < nodes.length - 1 by omega), List.getElem?_eq_getElem h,
    List.getElem?_eq_getElem h0]
  congr 1
  simp only [midpoint, List.getD_eq_getElem?_getD, List.getElem?_eq_getElem h,
    List.getElem?_eq_getElem h0, Option.getD_some]
  push_cast
  ring

theorem centreAxes_ok : ∀ (axes : List (List F)),
    centreAxes axes.length (axes.map NArr.ofList) = .ok (axes.map fun a => NArr.ofList (centres a))
  | [] => rfl
  | a :: axes => by
    simp only [List.length_cons, List.map_cons, centreAxes, NArr.ofList_shape, centreAxes_ok axes]
    rfl

theorem txtCoords_ok : ∀ {axes : List (List F)} {cells idx : List Nat},
    axes.map List.length = cells.map (· + 1) → inRange cells idx = true →
    txtCoords (axes.map fun a => NArr.ofList (centres a)) idx = .ok (cellCentre axes idx)
  | [], [], [], _, _ => rfl
  | _, [], _ :: _, _, h => by simp [inRange] at h
  | _, _ :: _, [], _, h => by simp [inRange] at h
  | [], _ :: _, _, h, _ => by simp at h
  | _ :: _, [], [], h, _ => by simp at h
  | a :: axes, n :: cells, i :: idx, hl, h => by
    simp only [List.map_cons, List.cons.injEq] at hl
    simp only [inRange, Bool.and_eq_true, decide_eq_true_eq] at h
    have hi : i + 1 < a.length := by rw [hl.1]; omega
    simp only [List.map_cons, txtCoords, NArr.ofList, centres_getElem? hi]
    have := txtCoords_ok hl.2 h.2
    simp only [NArr.ofList] at this
    rw [this]
    rfl

/-- C22: `write(extension='txt')` of a cell-centred dataset succeeds with one line per cell; the line
at a cell's C-order position holds the cell's centre coordinates followed by its components. -/
theorem C22_text_rows (d : GData F) (axes : List (List F)) (cells : List Nat) (nc : Nat) (v : NArr F)
    (h : CellCentred d axes cells nc v) (hnc : 0 < nc) :
    ∃ lines, (writeTxt d).1 = .ok lines ∧ lines.length = cells.prod ∧
      ∀ idx, inRange cells idx = true → ∃ comps : List F,
        lines[ravel cells idx]? = some (cellCentre axes idx ++ comps) ∧ comps.length = nc ∧
        ∀ c, c < nc → comps[c]? = v.get? (idx ++ [c]) := by
  have hax : axes.length = cells.length := by
    have := congrArg List.length h.nodes; simpa using this
  have hnd : d.numDims = axes.length := by
    simp [GData.numDims, h.numCells, hax]
  have hline : ∀ idx, inRange cells idx = true → ∃ comps : List F,
      txtLine (axes.map fun a => NArr.ofList (centres a)) v (txtBasis cells) nc (ravel cells idx) =
        .ok (cellCentre axes idx ++ comps) ∧ comps.length = nc ∧
      ∀ c, c < nc → comps[c]? = v.get? (idx ++ [c]) := by
    intro idx hidx
    have hin : ∀ c, c < nc → inRange v.shape (idx ++ [c]) = true := by
      intro c hc
      rw [h.shape, inRange_iff_forall₂]
      exact List.rel_append (inRange_iff_forall₂.1 hidx) (by simpa using hc)
    have hsome : ∀ c ∈ List.range nc, (v.get? (idx ++ [c])).isSome := fun c hc =>
      NArr.get?_isSome h.wf (hin c (List.mem_range.1 hc))
    refine ⟨(List.range nc).map fun c => (v.get? (idx ++ [c])).getD 0, ?_, by simp, ?_⟩
    · simp only [txtLine, txtIndex_ravel hidx, txtCoords_ok h.nodes hidx, bind, Except.bind,
        if_neg (show ¬ nc = 0 by omega)]
      rw [Space.mapM_ok_of_forall (g := fun c => (v.get? (idx ++ [c])).getD 0)]
      · rfl
      · intro c hc
        obtain ⟨x, hx⟩ := Option.isSome_iff_exists.1 (hsome c hc)
        rw [hx]; rfl
    · intro c hc
      rw [List.getElem?_map, List.getElem?_range hc]
      obtain ⟨x, hx⟩ := Option.isSome_iff_exists.1 (hsome c (List.mem_range.2 hc))
      simp [hx]
  have hall : ∀ k ∈ List.range cells.prod, ∃ row,
      txtLine (axes.map fun a => NArr.ofList (centres a)) v (txtBasis cells) nc k = .ok row := by
    intro k hk
    obtain ⟨idx, h1, h2⟩ := exists_ravel_eq (List.mem_range.1 hk)
    obtain ⟨comps, h3, _⟩ := hline idx h1
    rw [h2] at h3; exact ⟨_, h3⟩
  have hmap : ∃ lines, (List.range cells.prod).mapM
      (txtLine (axes.map fun a => NArr.ofList (centres a)) v (txtBasis cells) nc) = .ok lines ∧
      lines = (List.range cells.prod).map fun k =>
        match txtLine (axes.map fun a => NArr.ofList (centres a)) v (txtBasis cells) nc k with
        | .ok row => row
        | .error _ => [] := by
    refine ⟨_, Space.mapM_ok_of_forall (fun k hk => ?_), rfl⟩
    obtain ⟨row, hrow⟩ := hall k hk
    rw [hrow]
  obtain ⟨lines, hl1, hl2⟩ := hmap
  refine ⟨lines, ?_, ?_, ?_⟩
  · simp only [writeTxt, h.numCells, h.grid, h.values, hnd, centreAxes_ok, h.numComps]
    exact hl1
  · rw [hl2]; simp
  · intro idx hidx
    obtain ⟨comps, h3, h4, h5⟩ := hline idx hidx
    refine ⟨comps, ?_, h4, h5⟩
    rw [hl2, List.getElem?_map, List.getElem?_range (ravel_lt hidx)]
    simp only [Option.map_some, h3]

/-- C22: every line is the line of exactly one cell. -/
theorem C22_each_cell_once (cells : List Nat) (k : Nat) (hk : k < cells.prod) :
    ∃! idx, inRange cells idx = true ∧ ravel cells idx = k := by
  obtain ⟨idx, h1, h2⟩ := exists_ravel_eq hk
  exact ⟨idx, ⟨h1, h2⟩, fun j hj => ravel_injective hj.1 h1 (hj.2.trans h2.symm)⟩

/-- Non-trivial case for C22: a 2x1 grid with two components. -/
example : CellCentred (F := Rat)
    { grid := some [NArr.ofList [0, 1, 3], NArr.ofList [5, 6]], values := some ⟨[2, 1, 2], [1, 2, 3, 4]⟩ }
    [[0, 1, 3], [5, 6]] [2, 1] 2 ⟨[2, 1, 2], [1, 2, 3, 4]⟩ :=
  ⟨rfl, rfl, rfl, rfl, rfl, rfl, rfl⟩

end C22

/-! ## C23 -/

section C23
variable {F : Type} [Add F] [Mul F] [Div F] [IntCast F]

theorem writeTxt_frame (d : GData F) :
    (writeTxt d).2 = { d with grid := (writeTxt d).2.grid } := by
  unfold writeTxt
  split
  · split <;> rfl
  · rfl

/-- C23 for text output, the part that holds: the values and the metadata of every dataset, and the
grids of all datasets that do not share the written dataset's grid list, are as before.
Missing: the grid of the written dataset itself (counterexample below). -/
theorem C23_txt_changes_only_grid_partial (w : World F) (k j : Nat) (d : GData F)
    (hd : w.view j = some d) :
    ∃ d', (w.writeTxt k).2.view j = some d' ∧ d'.values = d.values ∧ d'.ctx = d.ctx ∧
      ((∀ ok oj, w.objs[k]? = some ok → w.objs[j]? = some oj → ok.gridRef ≠ oj.gridRef) →
        d'.grid = d.grid) := by
  cases hok : w.objs[k]? with
  | none =>
    refine ⟨d, ?_, rfl, rfl, fun _ => rfl⟩
    have : w.view k = none := by simp [World.view, hok]
    simp only [World.writeTxt, this]; exact hd
  | some ok =>
    cases hoj : w.objs[j]? with
    | none => simp [World.view, hoj] at hd
    | some oj =>
      have hv : ∃ dk, w.view k = some dk := by simp [World.view, hok]
      obtain ⟨dk, hdk⟩ := hv
      cases hg : ok.gridRef with
      | none =>
        refine ⟨d, ?_, rfl, rfl, fun _ => rfl⟩
        simp only [World.writeTxt, hdk, hok, hg]; exact hd
      | some g =>
        cases hl : (writeTxt dk).2.grid with
        | none =>
          refine ⟨d, ?_, rfl, rfl, fun _ => rfl⟩
          simp only [World.writeTxt, hdk, hok, hg, hl]; exact hd
        | some l =>
          have hw : (w.writeTxt k).2 = { w with grids := w.grids.set g l } := by
            simp only [World.writeTxt, hdk, hok, hg, hl]
          rw [hw]
          simp only [World.view, hoj, Option.some.injEq] at hd ⊢
          subst hd
          refine ⟨_, rfl, rfl, rfl, fun hne => ?_⟩
          have hne := hne ok oj rfl rfl
          cases hgj : oj.gridRef with
          | none => rfl
          | some r =>
            simp only [Option.bind_some]
            rw [List.getElem?_set_ne]
            rintro rfl
            exact hne (hg.trans hgj.symm)

/-- C23, the code disagrees: writing a text file replaces the dataset's grid (and that of every
dataset sharing the list) by cell centres.  Object 1 shares object 0's grid list. -/
theorem C23_txt_counterexample :
    ∃ w : World Rat, (w.view 0).bind GData.grid = some [NArr.ofList [0, 1, 2]] ∧
      (w.view 1).bind GData.grid = some [NArr.ofList [0, 1, 2]] ∧
      ((w.writeTxt 0).2.view 0).bind GData.grid = some [NArr.ofList [1 / 2, 3 / 2]] ∧
      ((w.writeTxt 0).2.view 1).bind GData.grid = some [NArr.ofList [1 / 2, 3 / 2]] := by
  refine ⟨{ grids := [[NArr.ofList [0, 1, 2]]], ctxs := [{}, {}],
            objs := [{ gridRef := some 0, values := some ⟨[2, 1], [7, 8]⟩, ctxRef := 0 },
                     { gridRef := some 0, values := some ⟨[2, 1], [7, 8]⟩, ctxRef := 1 }] }, ?_⟩
  decide +kernel

end C23

section C23b
variable {F : Type} [_root_.Field F]

theorem length_centres (a : List F) : (centres a).length = a.length - 1 := by
  simp only [centres, List.length_zipWith, List.length_tail, List.length_dropLast]; omega

/-- C23, consequence: after a successful text output of a cell-centred dataset with at least one axis
and no empty axis, a second text output always fails. -/
theorem C23_second_txt_fails (d : GData F) (axes : List (List F)) (cells : List Nat) (nc : Nat)
    (v : NArr F) (h : CellCentred d axes cells nc v) (hne : cells ≠ []) (hpos : ∀ n ∈ cells, 0 < n) :
    ∃ e, (writeTxt (writeTxt d).2).1 = .error e := by
  have hax : axes.length = cells.length := by
    have := congrArg List.length h.nodes; simpa using this
  have hnd : d.numDims = axes.length := by
    simp [GData.numDims, h.numCells, hax]
  have h2 : (writeTxt d).2 = { d with grid := some (axes.map fun a => NArr.ofList (centres a)) } := by
    simp only [writeTxt, h.numCells, h.grid, h.values, hnd, centreAxes_ok]
  rw [h2]
  have hnc : GData.numCells { d with grid := some (axes.map fun a => NArr.ofList (centres a)) }
      = some cells := h.numCells
  have hnd2 : GData.numDims { d with grid := some (axes.map fun a => NArr.ofList (centres a)) }
      = axes.length := hnd
  have hca : centreAxes axes.length (axes.map fun a => NArr.ofList (centres a)) =
      .ok (axes.map fun a => NArr.ofList (centres (centres a))) := by
    have := centreAxes_ok (axes.map centres)
    simpa [List.map_map, Function.comp_def] using this
  have h3 : (writeTxt { d with grid := some (axes.map fun a => NArr.ofList (centres a)) }).1 =
      (List.range cells.prod).mapM (txtLine (axes.map fun a => NArr.ofList (centres (centres a))) v
        (txtBasis cells) d.numComps) := by
    unfold writeTxt
    rw [hnc, hnd2]
    have hvv := h.values
    cases d with
    | mk g v' c t l cl fn st =>
      simp only at hvv
      subst hvv
      simp only [hca]
      rfl
  rw [h3]
  -- the last cell of the first axis
  cases cells with
  | nil => exact absurd rfl hne
  | cons n ns =>
    cases axes with
    | nil => simp at hax
    | cons a axes =>
      have hn := hpos n (by simp)
      have hns : ∀ m ∈ ns, 0 < m := fun m hm => hpos m (by simp [hm])
      have hP : 0 < ns.prod := by
        clear h hnc hnd2 hca h3 h2 hnd hax hpos hne
        induction ns with
        | nil => simp
        | cons m ms ih =>
          rw [List.prod_cons]
          exact Nat.mul_pos (hns m (by simp)) (ih (fun x hx => hns x (by simp [hx])))
      have hlen : a.length = n + 1 := by
        have := h.nodes
        simp only [List.map_cons, List.cons.injEq] at this
        exact this.1
      refine Space.mapM_error_of_mem (a := (n - 1) * ns.prod) (e := .indexError) ?_ ?_
      · rw [List.mem_range, List.prod_cons]
        exact Nat.mul_lt_mul_of_pos_right (by omega) hP
      · have hi : (n - 1) * ns.prod / ns.prod = n - 1 := Nat.mul_div_cancel _ hP
        have hnone : (centres (centres a))[n - 1]? = none := by
          rw [List.getElem?_eq_none_iff, length_centres, length_centres, hlen]; omega
        simp only [txtLine, txtBasis, txtIndex, hi, List.map_cons, txtCoords, NArr.ofList, hnone,
          bind, Except.bind]

example : CellCentred (F := Rat)
    { grid := some [NArr.ofList [0, 1, 3]], values := some ⟨[2, 1], [1, 2]⟩ }
    [[0, 1, 3]] [2] 1 ⟨[2, 1], [1, 2]⟩ ∧ ([2] : List Nat) ≠ [] :=
  ⟨⟨rfl, rfl, rfl, rfl, rfl, rfl, rfl⟩, by decide⟩

end C23b

/-! ## C24 -/

theorem getLastD_splitOn_suffix {c : Char} : ∀ {s : List Char}, c ∈ s →
    ∃ p, s = p ++ c :: (splitOn c s).getLastD []
  | [], h => by simp at h
  | x :: xs, h => by
    by_cases hx : x = c
    · subst hx
      have hs : splitOn x (x :: xs) = [] :: splitOn x xs := by simp [splitOn]
      rw [hs]
      by_cases hm : x ∈ xs
      · obtain ⟨p, hp⟩ := getLastD_splitOn_suffix hm
        refine ⟨x :: p, ?_⟩
        have : ([] :: splitOn x xs).getLastD [] = (splitOn x xs).getLastD [] := by
          cases h' : splitOn x xs with
          | nil => exact absurd h' (splitOn_ne_nil _ _)
          | cons q qs => rfl
        rw [this, List.cons_append, ← hp]
      · refine ⟨[], ?_⟩
        rw [splitOn_notMem hm]; rfl
    · have hm : c ∈ xs := by
        rcases List.mem_cons.1 h with rfl | h
        · exact absurd rfl hx
        · exact h
      obtain ⟨p, hp⟩ := getLastD_splitOn_suffix hm
      refine ⟨x :: p, ?_⟩
      have hne := splitOn_ne_nil c xs
      have h2 : ∃ q r qs, splitOn c xs = q :: r :: qs := by
        cases hsp : splitOn c xs with
        | nil => exact absurd hsp hne
        | cons q qs =>
          cases qs with
          | nil =>
            have hj := joinWith_splitOn c xs
            rw [hsp] at hj
            simp only [joinWith] at hj
            have : c ∉ q := notMem_of_mem_splitOn (s := xs) (by rw [hsp]; simp)
            exact absurd (hj ▸ hm) this
          | cons r qs => exact ⟨q, r, qs, rfl⟩
      obtain ⟨q, r, qs, hq⟩ := h2
      have hs : splitOn c (x :: xs) = (x :: q) :: r :: qs := by simp [splitOn, hx, hq]
      have e : (splitOn c (x :: xs)).getLastD [] = (splitOn c xs).getLastD [] := by
        rw [hs, hq]; rfl
      rw [e, List.cons_append, ← hp]

/-- C24, given name: unless the name is just the extension itself, the file created ends with
`.<extension>`, and the extension is added only when it is not already there. -/
theorem C24_given_name_partial (fileName outName ext : List Char) (hne : outName ≠ [])
    (hext : outName ≠ ext) (hdot : '.' ∉ ext) :
    (∃ p, writeName fileName outName ext = p ++ '.' :: ext) ∧
    ((∃ p, outName = p ++ '.' :: ext) → writeName fileName outName ext = outName) ∧
    ((¬ ∃ p, outName = p ++ '.' :: ext) →
      writeName fileName outName ext = outName ++ '.' :: ext) := by
  have key : (splitOn '.' outName).getLastD [] = ext ↔ ∃ p, outName = p ++ '.' :: ext := by
    constructor
    · intro h
      by_cases hm : '.' ∈ outName
      · obtain ⟨p, hp⟩ := getLastD_splitOn_suffix hm
        exact ⟨p, by rw [h] at hp; exact hp⟩
      · rw [splitOn_notMem hm] at h
        exact absurd h hext
    · rintro ⟨p, rfl⟩
      induction p with
      | nil =>
        rw [List.nil_append]
        have := splitOn_append (c := '.') (s := []) (t := ext) (by simp)
        rw [List.nil_append] at this
        rw [this, splitOn_notMem hdot]; rfl
      | cons x p ih =>
        by_cases hx : x = '.'
        · subst hx
          rw [List.cons_append]
          have hs : splitOn '.' ('.' :: (p ++ '.' :: ext)) = [] :: splitOn '.' (p ++ '.' :: ext) := by
            simp [splitOn]
          rw [hs]
          cases h' : splitOn '.' (p ++ '.' :: ext) with
          | nil => exact absurd h' (splitOn_ne_nil _ _)
          | cons q qs =>
            have hih : (splitOn '.' (p ++ '.' :: ext)).getLastD [] = ext := ih (by simp) (by
              intro hc
              have := congrArg (fun l => '.' ∈ l) hc
              simp only [List.mem_append, List.mem_cons, true_or, or_true, eq_iff_iff, true_iff] at this
              exact hdot this)
            rw [h'] at hih; exact hih
        · have hih : (splitOn '.' (p ++ '.' :: ext)).getLastD [] = ext := ih (by simp) (by
            intro hc
            have := congrArg (fun l => '.' ∈ l) hc
            simp only [List.mem_append, List.mem_cons, true_or, or_true, eq_iff_iff, true_iff] at this
            exact hdot this)
          have hm : '.' ∈ p ++ '.' :: ext := by simp
          have h2 : ∃ q r qs, splitOn '.' (p ++ '.' :: ext) = q :: r :: qs := by
            cases hsp : splitOn '.' (p ++ '.' :: ext) with
            | nil => exact absurd hsp (splitOn_ne_nil _ _)
            | cons q qs =>
              cases qs with
              | nil =>
                have hj := joinWith_splitOn '.' (p ++ '.' :: ext)
                rw [hsp] at hj
                simp only [joinWith] at hj
                have : '.' ∉ q := notMem_of_mem_splitOn (s := p ++ '.' :: ext) (by rw [hsp]; simp)
                exact absurd (hj ▸ hm) this
              | cons r qs => exact ⟨q, r, qs, rfl⟩
          obtain ⟨q, r, qs, hq⟩ := h2
          have hs : splitOn '.' (x :: (p ++ '.' :: ext)) = (x :: q) :: r :: qs := by
            simp [splitOn, hx, hq]
          rw [List.cons_append, hs]
          rw [hq] at hih; exact hih
  simp only [writeName, if_neg hne]
  by_cases hk : (splitOn '.' outName).getLastD [] = ext
  · have hp := key.1 hk
    rw [if_neg (by simpa using hk)]
    exact ⟨hp, fun _ => rfl, fun h => absurd hp h⟩
  · have hp : ¬ ∃ p, outName = p ++ '.' :: ext := fun h => hk (key.2 h)
    rw [if_pos (by simpa using hk)]
    exact ⟨⟨outName, rfl⟩, fun h => absurd h hp, fun _ => rfl⟩

/-- C24, the code disagrees: a name equal to the extension gets no extension. -/
theorem C24_bare_extension_counterexample :
    writeName "in.gkyl".toList "gkyl".toList "gkyl".toList = "gkyl".toList := by decide

/-- The stripped stem has no underscore at either end. -/
theorem lstrip_head {c : Char} {s : List Char} : (lstrip c s).head? ≠ some c := by
  unfold lstrip
  induction s with
  | nil => simp
  | cons x xs ih =>
    rw [List.dropWhile_cons]
    by_cases hx : x = c
    · simpa [hx] using ih
    · simp [hx]

theorem lstrip_of_head {c : Char} {s : List Char} (h : s.head? ≠ some c) : lstrip c s = s := by
  unfold lstrip
  cases s with
  | nil => rfl
  | cons x xs =>
    have : x ≠ c := by simpa using h
    simp [this]

theorem strip_of_ends {c : Char} {s : List Char} (h1 : s.head? ≠ some c)
    (h2 : s.getLast? ≠ some c) : strip c s = s := by
  unfold strip
  rw [lstrip_of_head h1, lstrip_of_head (by rw [List.head?_reverse]; exact h2), List.reverse_reverse]

theorem strip_head {c : Char} {s : List Char} : (strip c s).head? ≠ some c := by
  unfold strip
  rw [List.head?_reverse]
  have h : (lstrip c s).head? ≠ some c := lstrip_head
  generalize lstrip c s = t at h
  -- dropping from the reversed end keeps the last element of the reversed list
  have key : ∀ u : List Char, u.getLast? ≠ some c → (lstrip c u).getLast? ≠ some c := by
    intro u
    unfold lstrip
    induction u with
    | nil => simp
    | cons x xs ih =>
      intro hu
      rw [List.dropWhile_cons]
      by_cases hx : x = c
      · simp only [hx, decide_true, if_true]
        apply ih
        cases xs with
        | nil => simp
        | cons y ys => simpa [List.getLast?_cons_cons] using hu
      · simpa [hx] using hu
  exact key t.reverse (by rw [List.getLast?_reverse]; exact h)

/-- C24, default name: it ends with `.<extension>` and is never the name of the input file. -/
theorem C24_default_name (fileName ext : List Char) :
    (∃ p, writeName fileName [] ext = p ++ '.' :: ext) ∧ writeName fileName [] ext ≠ fileName := by
  simp only [writeName, if_true]
  constructor
  · refine ⟨strip '_' ((splitOn '.' fileName).headD []) ++ "_mod".toList, ?_⟩
    simp only [List.append_assoc]; rfl
  · intro heq
    set s := strip '_' ((splitOn '.' fileName).headD []) with hs
    have hdot : '.' ∉ s := by
      have h0 : '.' ∉ (splitOn '.' fileName).headD [] := by
        cases h : splitOn '.' fileName with
        | nil => simp
        | cons q qs => exact notMem_of_mem_splitOn (s := fileName) (by rw [h]; simp)
      intro hm
      apply h0
      rw [hs] at hm
      simp only [strip, lstrip] at hm
      have h1 := List.mem_reverse.1 hm
      have h2 := (List.dropWhile_sublist _).subset h1
      have h3 := List.mem_reverse.1 h2
      exact (List.dropWhile_sublist _).subset h3
    have hfn : fileName = (s ++ "_mod".toList) ++ '.' :: ext := by
      rw [← heq]; simp only [List.append_assoc]; rfl
    have hno : '.' ∉ s ++ "_mod".toList := by
      rw [List.mem_append, not_or]; exact ⟨hdot, by decide⟩
    have hhead : (splitOn '.' fileName).headD [] = s ++ "_mod".toList := by
      rw [hfn, splitOn_append hno]; rfl
    rw [hhead] at hs
    by_cases hse : s = []
    · rw [hse] at hs
      exact absurd hs (by decide)
    · have h1 : (s ++ "_mod".toList).head? ≠ some '_' := by
        cases hsc : s with
        | nil => exact absurd hsc hse
        | cons x xs =>
          have hh := strip_head (c := '_') (s := s ++ "_mod".toList)
          rw [← hs, hsc] at hh
          simpa using hh
      have h2 : (s ++ "_mod".toList).getLast? ≠ some '_' := by
        rw [List.getLast?_append]
        have : "_mod".toList.getLast? = some 'd' := by decide
        rw [this]; simp
      rw [strip_of_ends h1 h2] at hs
      have := congrArg List.length hs
      simp at this

example : writeName "sim_0.gkyl".toList [] "txt".toList = "sim_0_mod.txt".toList ∧
    writeName [] "out.d/x".toList "npy".toList = "out.d/x.npy".toList := by decide

/-! ## C25 -/

/-- C25, the part that holds: writing datasets of one tag gives each its own file.
Missing: several tags (the index restarts in each tag, counterexample below). -/
theorem C25_one_tag_distinct_files_partial {F : Type} {s : Space F} (hr : Reachable s) (t : Tag)
    (hne : t ≠ []) (hc : ',' ∉ t) (filename mode : List Char) {files : List (List Char × Nat)}
    (h : writeCmdFiles s (some t) filename mode = .ok files) : (files.map Prod.fst).Nodup := by
  have hi := Space.reachable_inv hr
  simp only [writeCmdFiles, bind, Except.bind] at h
  have htags : s.tagsOf (some t) = [t] := by simp [Space.tagsOf, hne, splitOn_notMem hc]
  cases hl : s.lookup t with
  | none =>
    have hk : t ∉ s.dict.map Prod.fst := (Space.lookup_eq_none_iff s t).1 hl
    have hreq : Requests s (some (joinWith ',' [t])) [t] :=
      .listed (by simpa [joinWith] using hne) (by simpa using hc)
    obtain ⟨e, he⟩ := (C16_rejects hreq true).1 ⟨t, by simp, hk⟩ .none true
    simp only [joinWith] at he
    split at h
    · cases h
    · rw [he] at h; cases h
  | some l =>
    have hts : ∀ u ∈ s.tagsOf (some t), s.lookup u = some ((fun _ => l) u) := by
      rw [htags]; intro u hu; rw [List.mem_singleton] at hu; subst hu; exact hl
    have h1 := Space.toList_none hts true true
    have h0 := Space.toList_none hts false true
    rw [htags] at h1 h0
    simp only [List.flatMap_singleton] at h1 h0
    rw [Space.getNumDatasets_eq hi h0, h1] at h
    simp only [pure, Except.pure, Except.ok.injEq] at h
    subst h
    rw [List.map_map]
    by_cases hn : 1 < (visit s.active true l).length
    · simp only [hn, if_true]
      have hidx : ((visit s.active true l).map Prod.fst).Nodup := by
        unfold visit
        rw [List.map_map]
        have : (Prod.fst ∘ fun e : Nat × Nat => (e.2, e.1)) = Prod.snd := rfl
        rw [this]
        have hsub : ((l.zipIdx.filter fun e => !true || s.active e.1).map Prod.snd).Sublist
            (l.zipIdx.map Prod.snd) := List.filter_sublist.map _
        refine hsub.nodup ?_
        rw [List.zipIdx_map_snd]
        exact List.nodup_range'
      have hcomp : (visit s.active true l).map (Prod.fst ∘ fun e : Nat × Nat =>
          (writeName [] ((writeStem filename mode).1 ++ '_' :: (pyStr e.1 ++ '.' :: (writeStem filename mode).2))
            (writeStem filename mode).2, e.2)) =
          ((visit s.active true l).map Prod.fst).map fun i : Nat =>
            writeName [] ((writeStem filename mode).1 ++ '_' :: (pyStr i ++ '.' :: (writeStem filename mode).2))
            (writeStem filename mode).2 := by
        rw [List.map_map]; rfl
      rw [hcomp]
      refine hidx.map ?_
      intro i j hij
      have hne' : ∀ i : Nat, (writeStem filename mode).1 ++ '_' :: (pyStr i ++ '.' :: (writeStem filename mode).2) ≠ [] := by
        intro i; simp
      simp only [writeName, if_neg (hne' _)] at hij
      have hinj : ∀ (i j : Nat) (a b : List Char), (writeStem filename mode).1 ++ '_' :: (pyStr i ++ '.' :: a)
          = (writeStem filename mode).1 ++ '_' :: (pyStr j ++ '.' :: b) → i = j := by
        intro i j a b hab
        have h1 := List.append_cancel_left hab
        simp only [List.cons.injEq, true_and] at h1
        have hd : ∀ i : Int, '.' ∉ pyStr i := Space.pyStr_notMem (by decide) (by decide)
        have h2 := congrArg (splitOn '.') h1
        rw [splitOn_append (hd _), splitOn_append (hd _)] at h2
        simp only [List.cons.injEq] at h2
        have h3 := congrArg pyInt h2.1
        rw [pyInt_pyStr, pyInt_pyStr] at h3
        simpa using h3
      split at hij <;> split at hij
      · simp only [List.append_assoc, List.cons_append] at hij
        exact hinj i j _ _ hij
      · simp only [List.append_assoc, List.cons_append] at hij
        exact hinj i j _ _ hij
      · simp only [List.append_assoc, List.cons_append] at hij
        exact hinj i j _ _ hij
      · exact hinj i j _ _ hij
    · have hle : (visit s.active true l).length ≤ 1 := by omega
      match hv : visit s.active true l, hle with
      | [], _ => simp
      | [e], _ => simp

/-- C25, the code disagrees: two datasets under different tags are written to the same file. -/
theorem C25_two_tags_counterexample :
    ∃ (ops : List (StoreOp Nat)), writeCmdFiles (perform ops) none "out".toList "gkyl".toList =
      .ok [("out_0.gkyl".toList, 0), ("out_0.gkyl".toList, 1)] :=
  ⟨[.add { tag := "a".toList }, .add { tag := "b".toList }], by decide +kernel⟩

/-- Non-trivial case for C25. -/
example : writeCmdFiles (perform (F := Nat) [.add {}, .add { status := false }, .add {}])
    (some "default".toList) "o.txt".toList "gkyl".toList =
    .ok [("o_0.txt".toList, 0), ("o_2.txt".toList, 2)] := by decide +kernel

end Pgkyl
