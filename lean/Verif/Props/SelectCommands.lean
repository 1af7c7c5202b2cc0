import Verif.Lemmas.SelectCommands
import Verif.Model.DgCommands
import Verif.Props.DataSpace
import Mathlib.Algebra.Order.Ring.Rat
/-!
# C96, C97: the commands `integrate` and `select`

Numbers are the elements of a linearly ordered set, for integrals of an ordered field (exact arithmetic).
-/

namespace Pgkyl
open Spec Cmd

section
variable {F : Type} [_root_.Field F] [LinearOrder F]

/-- What the command stores for one dataset. -/
theorem integrate_stored {A : List Nat} {axes : List (List F)} {v : NArr F} {d : GData F} (hne : A ≠ []) (hnd : A.Nodup)
    (h : IntegrableOver A axes v d) :
    ∃ g w, (do let (g, v, _) ← Calculus.integrate d (.str (joinWith ',' (A.map dec))) false; return (g, v) :
        Except Err _) = .ok (g, w) ∧
      ∀ e : GData F, e.ctx.other = d.ctx.other → ∃ r, e.push g w = .ok r ∧
        ∀ (axes' : List (List F)) (v' : NArr F), IntegrableOver A axes' v' d → IntegralOf A axes' v' d r := by
  have key : ∀ {axes : List (List F)} {v : NArr F}, IntegrableOver A axes v d → ∃ r,
      Calculus.integrate d (.str (joinWith ',' (A.map dec))) false = .ok ((meanAxes A axes).map NArr.ofList, r, d) ∧
      r.WF ∧ r.shape = collapsed A v.shape ∧ ∀ idx, inRange (collapsed A v.shape) idx = true →
        r.get? idx = some (cellSum v.shape (entry v) (gridWeight axes v.shape) A idx) := by
    intro axes v h
    obtain ⟨h1, h2, h3, h4, h5⟩ := h
    obtain ⟨r, d', k1, kw, k2, k3, -, k4⟩ := C30_api_weighted_sum d h1 h2 h3 h4 hnd h5 (.str hne) false
    rw [k3 rfl] at k1
    exact ⟨r, k1, kw, k2, k4⟩
  obtain ⟨w, h1, -, h2, h3⟩ := key h
  refine ⟨(meanAxes A axes).map NArr.ofList, w, by rw [h1]; rfl, fun e he => ?_⟩
  have hcl : w.shape.length = axes.length + 1 := by
    rw [h2, collapsed, List.length_mapIdx]; exact h.2.2.2.1.1
  have hx : ∀ (i : Nat) (x : List F), axes[i]? = some x → x ≠ [] := by
    intro i x hi e
    have hil := (List.getElem?_eq_some_iff.1 hi).1
    have hil' : i < v.shape.length := by rw [h.2.2.2.1.1]; omega
    rcases h.2.2.2.1.2 i x _ hi (List.getElem?_eq_getElem hil') with k | k
    · rw [e] at k; simp at k
    · rw [e] at k; simp at k
  have hg : ∀ a ∈ (meanAxes A axes).map NArr.ofList, a.data ≠ [] := by
    intro a ha
    obtain ⟨y, hy, rfl⟩ := List.mem_map.1 ha
    obtain ⟨i, hi⟩ := List.mem_iff_getElem?.1 hy
    rw [meanAxes, List.getElem?_mapIdx] at hi
    cases hxx : axes[i]? with
    | none => rw [hxx] at hi; simp at hi
    | some x =>
      rw [hxx] at hi
      simp only [Option.map_some, Option.some.injEq] at hi
      show y ≠ []
      rw [← hi]
      split
      · simp
      · exact hx i x hxx
  have hn : w.shape.length - 1 ≤ ((meanAxes A axes).map NArr.ofList).length := by
    rw [hcl]; simp [meanAxes]
  obtain ⟨l, hl⟩ := Collect.minima_ok hg hn
  obtain ⟨u, hu⟩ := Collect.maxima_ok hg hn
  have hlast : w.shape.getLast? = some (w.shape.getLast (by intro e; rw [e] at hcl; simp at hcl)) :=
    List.getLast?_eq_some_getLast _
  have hp := GData.push_ok (d := e) hlast hl hu
  refine ⟨_, hp, fun axes' v' h' => ?_⟩
  obtain ⟨w', k1, kw, k2, k3⟩ := key h'
  rw [h1] at k1
  simp only [Except.ok.injEq, Prod.mk.injEq] at k1
  obtain ⟨e1, rfl, -⟩ := k1
  exact ⟨by rw [← e1], he, w, rfl, kw, k2, k3⟩

/-- C96: `integrate a,b,… --tag T` adds, for every active dataset of the chosen tags, one dataset with the integral over the
named axes: the sum of the entries times the cell widths along these axes. -/
theorem C96_integrate_partial {s : Space F} (hr : Reachable s) {use : Option Tag} {ts : List Tag} (hts : Requests s use ts)
    (hkeys : ∀ t ∈ ts, t ∈ s.dict.map Prod.fst) {T : Tag} (hT : T ≠ []) (hlater : T ∉ ts.tail) (label : List Char)
    {A : List Nat} (hne : A ≠ []) (hnd : A.Nodup)
    (hd : ∀ id ∈ visited s ts, ∀ d, s.heap[id]? = some d → ∃ axes v, IntegrableOver A axes v d) :
    ∃ s', integrateCmd (joinWith ',' (A.map dec)) use (some T) label s = .ok s' ∧
      AddsResults s T (visited s ts) (fun d r => ∀ (axes : List (List F)) (v : NArr F), IntegrableOver A axes v d →
        IntegralOf A axes v d r) s' := by
  rw [← hts.tagsOf_eq] at *
  refine pushCmd_adds' (Space.reachable_inv hr) hkeys hT hlater label fun id hid d hdd => ?_
  obtain ⟨axes, v, h⟩ := hd id hid d hdd
  exact integrate_stored hne hnd h

/-- C96: without a tag the datasets are replaced. -/
theorem C96_integrate_in_place {s : Space F} (hr : Reachable s) {use : Option Tag} {ts : List Tag} (hts : Requests s use ts)
    (hkeys : ∀ t ∈ ts, t ∈ s.dict.map Prod.fst) (hndt : ts.Nodup) (label : List Char) {A : List Nat} (hne : A ≠ [])
    (hnd : A.Nodup) (hd : ∀ id ∈ visited s ts, ∀ d, s.heap[id]? = some d → ∃ axes v, IntegrableOver A axes v d) :
    ∃ s', integrateCmd (joinWith ',' (A.map dec)) use none label s = .ok s' ∧
      ReplacesResults s (visited s ts) (fun d r => ∀ (axes : List (List F)) (v : NArr F), IntegrableOver A axes v d →
        IntegralOf A axes v d r) s' := by
  rw [← hts.tagsOf_eq] at *
  refine pushCmd_replaces' (Space.reachable_inv hr) hkeys hndt label fun id hid d hdd => ?_
  obtain ⟨axes, v, h⟩ := hd id hid d hdd
  exact integrate_stored hne hnd h

/-- C96 fails for the documented range of axes `a:b`: the command then stops with an error as soon as one dataset is
visited. -/
theorem C96_axis_range_fails {s : Space F} (hr : Reachable s) {use : Option Tag} {ts : List Tag} (hts : Requests s use ts)
    (hkeys : ∀ t ∈ ts, t ∈ s.dict.map Prod.fst) {T : Tag} (hT : T ≠ []) (hlater : T ∉ ts.tail) (label : List Char)
    {id : Nat} (hid : id ∈ visited s ts) {d : GData F} (hd : s.heap[id]? = some d) (a b : Nat) :
    ∃ e, integrateCmd (dec a ++ ':' :: dec b) use (some T) label s = .error e := by
  have hf : ∃ e, Calculus.integrate d (.str (dec a ++ ':' :: dec b)) false = .error e := by
    have h2 : (splitOn ',' (dec a ++ ':' :: dec b)).length = 1 := by
      rw [splitOn_notMem (notMem_comma_two (dec_comma _) (dec_comma _))]; rfl
    have h3 : (splitOn ':' (dec a ++ ':' :: dec b)).length = 2 := by
      rw [splitOn_two (dec_colon _) (dec_colon _)]; rfl
    have h1 : Calculus.axesOf d.numDims (.str (dec a ++ ':' :: dec b)) = .error .typeError := by
      simp only [Calculus.axesOf, h2, h3, lt_irrefl, if_false, if_true]
    unfold Calculus.integrate
    rw [h1]
    split
    · exact ⟨_, rfl⟩
    · exact ⟨_, rfl⟩
  obtain ⟨e, he⟩ := hf
  rw [← hts.tagsOf_eq] at *
  refine pushCmd_fails (Space.reachable_inv hr) hkeys hT hlater label hid hd (err := e) ?_
  rw [he]; rfl

end

section
variable {F : Type} [LinearOrder F]

/-- What the command stores for one dataset. -/
theorem select_stored {pf : List Char → Option F} {comp : Option (List Char)} {zs : List (Option (List Char))} {d : GData F}
    {axes : List (SelAxis F)} {values : NArr F} {cs : List Nat} (h : Asks pf comp zs d axes values cs) :
    ∃ g w, (do let (g, v, _) ← select pf d (comp.map .str) (zs.map fun z => z.map .str) false; return (g, v) :
        Except Err _) = .ok (g, w) ∧
      ∀ e : GData F, e.ctx.other = d.ctx.other → ∃ r, e.push g w = .ok r ∧
        ∀ (axes' : List (SelAxis F)) (values' : NArr F) (cs' : List Nat), Asks pf comp zs d axes' values' cs' →
          SelectionOf axes' values' cs' d r := by
  obtain ⟨out, h1, h2, h3⟩ := select_text h
  refine ⟨_, out, by rw [h1]; rfl, fun e he => ?_⟩
  have hn : out.shape.length - 1 ≤ (axes.map fun a => NArr.ofList a.nodesOut).length := by
    rw [h2.2.1]; simp
  obtain ⟨l, hl⟩ := Collect.minima_ok h3 hn
  obtain ⟨u, hu⟩ := Collect.maxima_ok h3 hn
  have hlast : out.shape.getLast? = some cs.length := by rw [h2.2.1, List.getLast?_concat]
  have hp := GData.push_ok (d := e) hlast hl hu
  refine ⟨_, hp, fun axes' values' cs' h' => ?_⟩
  obtain ⟨out', k1, k2, k3⟩ := select_text h'
  rw [h1] at k1
  simp only [Except.ok.injEq, Prod.mk.injEq] at k1
  obtain ⟨e1, rfl, -⟩ := k1
  exact ⟨by rw [← e1], he, out, rfl, k2⟩

/-- C97: `select --z0 … --comp … --tag T` adds, for every active dataset of the chosen tags, one dataset made of the cells
and components asked for, with the nodes of these cells.  The options are texts: cell numbers, coordinates, or ranges. -/
theorem C97_select {s : Space F} (hr : Reachable s) {use : Option Tag} {ts : List Tag} (hts : Requests s use ts)
    (hkeys : ∀ t ∈ ts, t ∈ s.dict.map Prod.fst) {T : Tag} (hT : T ≠ []) (hlater : T ∉ ts.tail) (label : List Char)
    {pf : List Char → Option F} {comp : Option (List Char)} {zs : List (Option (List Char))}
    (hd : ∀ id ∈ visited s ts, ∀ d, s.heap[id]? = some d → ∃ axes values cs, Asks pf comp zs d axes values cs) :
    ∃ s', selectCmd pf comp zs use (some T) label s = .ok s' ∧
      AddsResults s T (visited s ts) (fun d r => ∀ (axes : List (SelAxis F)) (values : NArr F) (cs : List Nat),
        Asks pf comp zs d axes values cs → SelectionOf axes values cs d r) s' := by
  rw [← hts.tagsOf_eq] at *
  refine pushCmd_adds' (Space.reachable_inv hr) hkeys hT hlater label fun id hid d hdd => ?_
  obtain ⟨axes, v, cs, h⟩ := hd id hid d hdd
  exact select_stored h

/-- C97: without a tag the datasets are replaced. -/
theorem C97_select_in_place {s : Space F} (hr : Reachable s) {use : Option Tag} {ts : List Tag} (hts : Requests s use ts)
    (hkeys : ∀ t ∈ ts, t ∈ s.dict.map Prod.fst) (hnd : ts.Nodup) (label : List Char)
    {pf : List Char → Option F} {comp : Option (List Char)} {zs : List (Option (List Char))}
    (hd : ∀ id ∈ visited s ts, ∀ d, s.heap[id]? = some d → ∃ axes values cs, Asks pf comp zs d axes values cs) :
    ∃ s', selectCmd pf comp zs use none label s = .ok s' ∧
      ReplacesResults s (visited s ts) (fun d r => ∀ (axes : List (SelAxis F)) (values : NArr F) (cs : List Nat),
        Asks pf comp zs d axes values cs → SelectionOf axes values cs d r) s' := by
  rw [← hts.tagsOf_eq] at *
  refine pushCmd_replaces' (Space.reachable_inv hr) hkeys hnd label fun id hid d hdd => ?_
  obtain ⟨axes, v, cs, h⟩ := hd id hid d hdd
  exact select_stored h

end

namespace SelEx

/-- A 4 × 2 dataset with two components. -/
def data (status : Bool := true) : GData ℚ :=
  { tag := "f".toList, status := status
    grid := some [NArr.ofList [0, 1, 2, 3, 4], NArr.ofList [-1, 0, 1]]
    values := some ⟨[4, 2, 2], (List.range 16).map fun k : Nat => (k : ℚ)⟩
    ctx := { cells := some [4, 2], numComps := some 2 } }

/-- `float` on the texts used below. -/
def pf (t : List Char) : Option ℚ :=
  if t = "1.5".toList then some (3 / 2) else if t = "-0.5".toList then some (-1 / 2) else none

/-- The hypotheses of C97 are met: `--z0 1.5:3 --z1 -0.5 --comp 1`. -/
example : Asks pf (some "1".toList) [some "1.5:3".toList, some "-0.5".toList] (data false)
    [⟨[0, 1, 2, 3, 4], 4, none, 1, 3⟩, ⟨[-1, 0, 1], 2, none, 0, 1⟩] ⟨[4, 2, 2], (List.range 16).map fun k : Nat => (k : ℚ)⟩ [1] := by
  refine ⟨2, ⟨rfl, rfl, rfl, rfl, rfl, by simp, by simp⟩, .indexStr 1 (by decide), ?_, ?_⟩
  · simp [Increasing]; norm_num
  · intro i a ha
    match i, ha with
    | 0, ha =>
      cases ha
      exact .range (t := "1.5".toList) (u := "3".toList) (.coord (c := 3 / 2) (by unfold CoordText; decide +kernel) (.coord _ 1 rfl ⟨1, 2, rfl, rfl, by norm_num, by norm_num⟩))
        (.number 3) (by decide) (by decide) (by decide)
    | 1, ha =>
      cases ha
      exact .coord (c := -1 / 2) (by unfold CoordText; decide +kernel) (.coord _ 0 rfl ⟨-1, 0, rfl, rfl, by norm_num, by norm_num⟩)

/-- The hypotheses of C96 are met: `integrate 0,1`, in a store with the data twice, once switched off. -/
example : let s := perform [.add (data false), .add data]
    Reachable s ∧ Requests s (some "f".toList) ["f".toList] ∧ (∀ t ∈ ["f".toList], t ∈ s.dict.map Prod.fst) ∧
      visited s ["f".toList] = [1] ∧ s.heap[1]? = some data ∧ joinWith ',' ([0, 1].map dec) = "0,1".toList ∧
      IntegrableOver [0, 1] [[0, 1, 2, 3, 4], [-1, 0, 1]] ⟨[4, 2, 2], (List.range 16).map fun k : Nat => (k : ℚ)⟩ data := by
  intro s
  refine ⟨Space.reachable_perform _, .listed (ts := ["f".toList]) (by decide) (by decide), by decide, by decide, rfl, by decide,
    rfl, rfl, rfl, ⟨rfl, ?_⟩, by simp⟩
  intro i x n hx hn
  match i, hx, hn with
  | 0, hx, hn => cases hx; cases hn; exact .inl ⟨by simp, .inl rfl⟩
  | 1, hx, hn => cases hx; cases hn; exact .inl ⟨by simp, .inl rfl⟩

end SelEx

end Pgkyl
