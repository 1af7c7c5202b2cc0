import Verif.Lemmas.DgCommands
import Verif.Props.DataSpace
import Mathlib.Algebra.Order.Ring.Rat
/-!
# C94, C95: the commands `interpolate` and `differentiate`

Numbers are the elements of a field of characteristic 0 (exact arithmetic), for derivatives the real numbers.
-/

namespace Pgkyl
open Spec Cmd

section
variable {F : Type} [_root_.Field F] [CharZero F] [Min F] [Max F]

/-- What the command stores for one dataset. -/
theorem interpolate_stored {q : DgCase F} {po : Option Nat} {b : Option String} {ni : Option Nat} {d : GData F}
    (h5 : Except Err (List (List F))) (h : q.Fits po b ni d) :
    ∃ g w, interpolateOf h5 po b ni d = .ok (g, w) ∧ ∀ e : GData F, e.ctx.other = d.ctx.other → ∃ r, e.push g w = .ok r ∧
      ∀ q' : DgCase F, q'.Fits po b ni d → q'.Interpolated d r := by
  obtain ⟨g, w, h1, h2, h3⟩ := interpolateOf_ok h5 h
  refine ⟨g, w, h1, fun e he => ?_⟩
  have hlen : (List.zipWith (· * ·) q.cells (perCell q.basis q.cells.length q.points)).length ≤ g.length := by
    have hal : q.axes.length = q.cells.length := by rw [← h.1.cells_eq, List.length_map]
    rw [(mesh_length h2).1, DgCase.fine, refineAll_length (by rw [Dg.perCell_length, hal]), List.length_zipWith,
      Dg.perCell_length, hal]
    omega
  obtain ⟨r, hr, hh⟩ := push_field hlen (mesh_length h2).2 h3 e
  refine ⟨r, hr, fun q' hq' => ?_⟩
  obtain ⟨g', w', k1, k2, k3⟩ := interpolateOf_ok h5 hq'
  rw [h1] at k1
  cases k1
  obtain ⟨-, -, hl, v, hv, hf⟩ := hh
  have t := push_tag hr
  rw [t.2.2.2.2] at hv
  cases hv
  have hlen' : (List.zipWith (· * ·) q'.cells (perCell q'.basis q'.cells.length q'.points)).length ≤ g.length := by
    have hal : q'.axes.length = q'.cells.length := by rw [← hq'.1.cells_eq, List.length_map]
    rw [(mesh_length k2).1, DgCase.fine, refineAll_length (by rw [Dg.perCell_length, hal]), List.length_zipWith,
      Dg.perCell_length, hal]
    omega
  exact ⟨g, k2, by rw [t.2.2.1, he], t.2.2.2.1, hlen', (mesh_length k2).2, w, t.2.2.2.2, k3⟩

/-- C94: `interpolate --tag T` adds, for every active dataset of the chosen tags, one dataset with all the fields of the
source on the refined mesh: the value of each field at the midpoint of each refined cell.  Order, basis and number of points
come from the options or, dataset by dataset, from the metadata. -/
theorem C94_interpolate_partial {s : Space F} (hr : Reachable s) {use : Option Tag} {ts : List Tag} (hts : Requests s use ts)
    (hkeys : ∀ t ∈ ts, t ∈ s.dict.map Prod.fst) {T : Tag} (hT : T ≠ []) (hlater : T ∉ ts.tail) (label : List Char)
    (h5 : Except Err (List (List F))) {po : Option Nat} {b : Option String} {ni : Option Nat}
    (hd : ∀ id ∈ visited s ts, ∀ d, s.heap[id]? = some d → ∃ q : DgCase F, q.Fits po b ni d) :
    ∃ s', interpolateCmd h5 po b ni use (some T) label s = .ok s' ∧
      AddsResults s T (visited s ts) (fun d r => ∀ q : DgCase F, q.Fits po b ni d → q.Interpolated d r) s' := by
  rw [← hts.tagsOf_eq] at *
  refine pushCmd_adds' (Space.reachable_inv hr) hkeys hT hlater label fun id hid d hdd => ?_
  obtain ⟨q, hq⟩ := hd id hid d hdd
  exact interpolate_stored h5 hq

/-- C94: without a tag the datasets are replaced. -/
theorem C94_interpolate_in_place {s : Space F} (hr : Reachable s) {use : Option Tag} {ts : List Tag}
    (hts : Requests s use ts) (hkeys : ∀ t ∈ ts, t ∈ s.dict.map Prod.fst) (hnd : ts.Nodup) (label : List Char)
    (h5 : Except Err (List (List F))) {po : Option Nat} {b : Option String} {ni : Option Nat}
    (hd : ∀ id ∈ visited s ts, ∀ d, s.heap[id]? = some d → ∃ q : DgCase F, q.Fits po b ni d) :
    ∃ s', interpolateCmd h5 po b ni use none label s = .ok s' ∧
      ReplacesResults s (visited s ts) (fun d r => ∀ q : DgCase F, q.Fits po b ni d → q.Interpolated d r) s' := by
  rw [← hts.tagsOf_eq] at *
  refine pushCmd_replaces' (Space.reachable_inv hr) hkeys hnd label fun id hid d hdd => ?_
  obtain ⟨q, hq⟩ := hd id hid d hdd
  exact interpolate_stored h5 hq

omit [_root_.Field F] [CharZero F] [Min F] [Max F] in
/-- The object for the option `ns`. -/
theorem dgOf_nodal {po ni : Option Nat} {d : GData F}
    (hm : Dict.get? d.ctx.other "is_modal" = none ∨ Dict.get? d.ctx.other "is_modal" = some "True") :
    ∃ err, dgOf po (some "ns") ni d = .error err := by
  unfold dgOf isModal
  rw [if_neg (by simp), if_neg (by decide)]
  rcases hm with hm | hm
  · rw [hm]; exact ⟨_, rfl⟩
  · rw [hm]
    simp only [bind, Except.bind, beq_self_eq_true, if_true]
    cases hs : sourceOf d with
    | error e => exact ⟨e, rfl⟩
    | ok src =>
      simp only
      cases hi : Dg.modalInit src po (some "ns") ni with
      | error e => exact ⟨e, rfl⟩
      | ok o => exact absurd hi (C69_unknown_basis_rejected src (by decide) (fun bb => by simp [basisNames]) ni o)

omit [CharZero F] in
/-- C94 fails for nodal data: `interpolate -b ns` is rejected for every dataset, unless the metadata say explicitly that the
data are not modal, which none of the readers ever does on its own.  (Without an entry the lookup fails; with the entry the
data are handed, with the nodal name, to the modal branch.) -/
theorem C94_nodal_fails {s : Space F} (hr : Reachable s) {use : Option Tag} {ts : List Tag} (hts : Requests s use ts)
    (hkeys : ∀ t ∈ ts, t ∈ s.dict.map Prod.fst) {T : Tag} (hT : T ≠ []) (hlater : T ∉ ts.tail) (label : List Char)
    (h5 : Except Err (List (List F))) (po ni : Option Nat) {id : Nat} (hid : id ∈ visited s ts) {d : GData F}
    (hd : s.heap[id]? = some d)
    (hm : Dict.get? d.ctx.other "is_modal" = none ∨ Dict.get? d.ctx.other "is_modal" = some "True") :
    (∃ err, interpolateCmd h5 po (some "ns") ni use (some T) label s = .error err) ∧
      ∀ dir, ∃ err, differentiateCmd po (some "ns") ni dir use (some T) label s = .error err := by
  rw [← hts.tagsOf_eq] at *
  obtain ⟨err, he⟩ := dgOf_nodal (po := po) (ni := ni) hm
  refine ⟨pushCmd_fails (Space.reachable_inv hr) hkeys hT hlater label hid hd (err := err) ?_, fun dir =>
    pushCmd_fails (Space.reachable_inv hr) hkeys hT hlater label hid hd (err := err) ?_⟩
  · simp only [interpolateOf, he, bind, Except.bind]
  · simp only [differentiateOf, he, bind, Except.bind]

omit [CharZero F] in
/-- C94: without the option, data that do not carry the name of their basis are rejected. -/
theorem C94_unknown_rejected {s : Space F} (hr : Reachable s) {use : Option Tag} {ts : List Tag} (hts : Requests s use ts)
    (hkeys : ∀ t ∈ ts, t ∈ s.dict.map Prod.fst) {T : Tag} (hT : T ≠ []) (hlater : T ∉ ts.tail) (label : List Char)
    (h5 : Except Err (List (List F))) (po ni : Option Nat) {id : Nat} (hid : id ∈ visited s ts) {d : GData F}
    (hd : s.heap[id]? = some d) (hm : Dict.get? d.ctx.other "basis_type" = none) :
    ∃ err, interpolateCmd h5 po none ni use (some T) label s = .error err := by
  rw [← hts.tagsOf_eq] at *
  refine pushCmd_fails (Space.reachable_inv hr) hkeys hT hlater label hid hd (err := .keyError) ?_
  simp only [interpolateOf, dgOf, hm, and_self, if_true, bind, Except.bind]

end

section
variable [Min ℝ] [Max ℝ]

theorem differentiate_stored {q : DgCase ℝ} {po : Option Nat} {b : Option String} {ni : Option Nat} {d : GData ℝ}
    (h : q.Fits po b ni d) (hpos : ∀ x ∈ q.cells, 0 < x)
    (hdf : Dg.derivFns q.cells.length q.order q.basis true = .ok q.fns) {i : Nat} (hi : i < q.cells.length) :
    ∃ g w, differentiateOf po b ni (some i) d = .ok (g, w) ∧ ∀ e : GData ℝ, e.ctx.other = d.ctx.other →
      ∃ r, e.push g w = .ok r ∧ q.Differentiated i 0 d r := by
  obtain ⟨g, w, f, h1, h2, h3, h4⟩ := differentiateOf_ok h hpos hdf hi
  refine ⟨g, w, h1, fun e he => ?_⟩
  have hlen : (q.cells.map (· * q.points)).length ≤ g.length := by
    have hal : q.axes.length = q.cells.length := by rw [← h.1.cells_eq, List.length_map]
    rw [(mesh_length h2).1, refineAll_length (by rw [List.length_replicate, hal]), List.length_map, hal]
  obtain ⟨r, hr, hh⟩ := push_field hlen (mesh_length h2).2 h3 e
  exact ⟨r, hr, g, f, h2, by rw [(push_tag hr).2.2.1, he], hh, h4⟩

/-- C95 for data with a single field: `differentiate -d i --tag T` adds, for every active dataset of the chosen tags, one
dataset with the exact derivative of its field along axis `i` at the midpoints of the refined cells.

Full statement (false, see `C95_other_fields_fails`): the same for every field of the data.  For data with several fields the
theorem says what the result is: the derivative of the first field. -/
theorem C95_differentiate_partial {s : Space ℝ} (hr : Reachable s) {use : Option Tag} {ts : List Tag} (hts : Requests s use ts)
    (hkeys : ∀ t ∈ ts, t ∈ s.dict.map Prod.fst) {T : Tag} (hT : T ≠ []) (hlater : T ∉ ts.tail) (label : List Char)
    {po : Option Nat} {b : Option String} {ni : Option Nat} (i : Nat) (Q : GData ℝ → DgCase ℝ)
    (hd : ∀ id ∈ visited s ts, ∀ d, s.heap[id]? = some d → (Q d).Fits po b ni d ∧ (∀ x ∈ (Q d).cells, 0 < x) ∧
      Dg.derivFns (Q d).cells.length (Q d).order (Q d).basis true = .ok (Q d).fns ∧ i < (Q d).cells.length) :
    ∃ s', differentiateCmd po b ni (some i) use (some T) label s = .ok s' ∧
      AddsResults s T (visited s ts) (fun d r => (Q d).Differentiated i 0 d r) s' := by
  rw [← hts.tagsOf_eq] at *
  refine pushCmd_adds' (Space.reachable_inv hr) hkeys hT hlater label fun id hid d hdd => ?_
  obtain ⟨h1, h2, h3, h4⟩ := hd id hid d hdd
  exact differentiate_stored h1 h2 h3 h4

/-- C95: without a tag the datasets are replaced. -/
theorem C95_differentiate_in_place_partial {s : Space ℝ} (hr : Reachable s) {use : Option Tag} {ts : List Tag}
    (hts : Requests s use ts) (hkeys : ∀ t ∈ ts, t ∈ s.dict.map Prod.fst) (hnd : ts.Nodup) (label : List Char)
    {po : Option Nat} {b : Option String} {ni : Option Nat} (i : Nat) (Q : GData ℝ → DgCase ℝ)
    (hd : ∀ id ∈ visited s ts, ∀ d, s.heap[id]? = some d → (Q d).Fits po b ni d ∧ (∀ x ∈ (Q d).cells, 0 < x) ∧
      Dg.derivFns (Q d).cells.length (Q d).order (Q d).basis true = .ok (Q d).fns ∧ i < (Q d).cells.length) :
    ∃ s', differentiateCmd po b ni (some i) use none label s = .ok s' ∧
      ReplacesResults s (visited s ts) (fun d r => (Q d).Differentiated i 0 d r) s' := by
  rw [← hts.tagsOf_eq] at *
  refine pushCmd_replaces' (Space.reachable_inv hr) hkeys hnd label fun id hid d hdd => ?_
  obtain ⟨h1, h2, h3, h4⟩ := hd id hid d hdd
  exact differentiate_stored h1 h2 h3 h4

/-- C95 fails for data with two or more fields: the result has one component per cell, whatever the number of fields. -/
theorem C95_other_fields_fails {q : DgCase ℝ} {po : Option Nat} {b : Option String} {ni : Option Nat} {d : GData ℝ}
    (h : q.Fits po b ni d) (hpos : ∀ x ∈ q.cells, 0 < x)
    (hdf : Dg.derivFns q.cells.length q.order q.basis true = .ok q.fns) {i : Nat} (hi : i < q.cells.length)
    (h2 : 2 * q.fns.length ≤ q.m) :
    ∃ g w, differentiateOf po b ni (some i) d = .ok (g, w) ∧ w.shape.getLast? = some 1 ∧ 2 ≤ q.m / q.fns.length := by
  obtain ⟨g, w, f, h1, -, h3, -⟩ := differentiateOf_ok h hpos hdf hi
  exact ⟨g, w, h1, h3.last, (Nat.le_div_iff_mul_le (by have := h.2.2.fields.1; omega)).2 h2⟩

end

namespace DgEx

/-- Two fields of piecewise-linear serendipity data on 2 × 3 cells, with the metadata of a file. -/
def stored {F : Type} [_root_.Field F] (status : Bool := true) : GData F :=
  { tag := "f".toList, status := status
    grid := some (src (axes : List (Axis F)) 8 coef).grid
    values := some (src (axes : List (Axis F)) 8 coef).values
    ctx := { cells := some [2, 3], numComps := some 8
             other := [("grid_type", "uniform"), ("poly_order", "1"), ("basis_type", "serendipity"), ("is_modal", "True")] } }

/-- The same as a case; by default two points per cell. -/
def storedCase {F : Type} [_root_.Field F] (n : Nat) : DgCase F := ⟨[2, 3], axes, 8, coef, 1, "serendipity", fns, n⟩

theorem stored_fits {F : Type} [_root_.Field F] [CharZero F] (st : Bool) :
    (storedCase 2 : DgCase F).Fits none none none (stored st) ∧
      (storedCase 4 : DgCase F).Fits (some 1) (some "ms") (some 4) (stored st) := by
  have hS : ∀ n, (storedCase n : DgCase F).StoredIn (stored st) := fun n =>
    have ho := src_onMesh (F := F) (axes := axes) axes_dx (by simp [axes]) 8 coef
    { data := ⟨_, ⟨rfl, by simp [src, storedCase, axes], (mesh_length ho.grid).2, _, rfl, ho.values⟩, ho.grid⟩
      counts := ⟨rfl, rfl⟩
      uniform := by
        show Dict.get? [("grid_type", "uniform"), ("poly_order", "1"), ("basis_type", "serendipity"), ("is_modal", "True")] "grid_type" = some "uniform"
        decide +kernel
      cells_eq := rfl
      dx := axes_dx
      pos := by simp [storedCase] }
  have hP : ∀ n, (storedCase n : DgCase F).Supported := fun n =>
    { fns := fns_interp, line := fun h => by simp [storedCase] at h, zero := fun h => by simp [storedCase] at h
      fields := by show 1 ≤ fns.length ∧ fns.length ≤ 8; rw [fns_length]; decide }
  refine ⟨⟨hS 2, ⟨.inr ⟨rfl, ?_, le_rfl⟩, .inr ⟨rfl, ?_, ?_⟩, .inr ⟨rfl, rfl⟩, le_rfl⟩, hP 2⟩,
    hS 4, ⟨.inl rfl, .inl ⟨"ms", rfl, ?_⟩, .inl rfl, by simp [storedCase]⟩, hP 4⟩
  · show Dict.get? [("grid_type", "uniform"), ("poly_order", "1"), ("basis_type", "serendipity"), ("is_modal", "True")] "poly_order" = some (String.ofList (dec 1))
    decide +kernel
  · show Dict.get? [("grid_type", "uniform"), ("poly_order", "1"), ("basis_type", "serendipity"), ("is_modal", "True")] "basis_type" = some "serendipity"
    decide +kernel
  · show Dict.get? [("grid_type", "uniform"), ("poly_order", "1"), ("basis_type", "serendipity"), ("is_modal", "True")] "is_modal" = some "True"
    decide +kernel
  · show ("ms", "serendipity") ∈ basisNames
    decide

/-- The hypotheses of C94 are met: a store with the data twice, once switched off. -/
example : let s := perform [.add (stored (F := ℚ) false), .add stored]
    Reachable s ∧ Requests s (some "f".toList) ["f".toList] ∧ (∀ t ∈ ["f".toList], t ∈ s.dict.map Prod.fst) ∧
      visited s ["f".toList] = [1] ∧ s.heap[1]? = some stored := by
  intro s
  refine ⟨Space.reachable_perform _, .listed (ts := ["f".toList]) (by decide) (by decide), by decide, by decide, rfl⟩

/-- The hypotheses of C95 are met by the same data. -/
example : (storedCase 2 : DgCase ℝ).Fits none none none stored ∧ (∀ x ∈ (storedCase 2 : DgCase ℝ).cells, 0 < x) ∧
    Dg.derivFns 2 1 "serendipity" true = .ok fns ∧ 2 * fns.length ≤ 8 :=
  ⟨(stored_fits true).1, by simp [storedCase], fns_deriv, by rw [fns_length]⟩

end DgEx

end Pgkyl
