import Verif.Lemmas.Info
import Verif.Props.Text
/-! # C114: what `info` prints -/

namespace Pgkyl
open Spec Text Space

section
variable {F : Type}

theorem ifKey_end (fmt : Fmt F) (c : Ctx F) (key text : String) :
    ifKey fmt c key text.toList ['\n'] = (entryLine fmt c.other key text).flatMap fun x => x ++ ['\n'] := by
  unfold ifKey entryLine
  cases Dict.get? c.other key <;> simp

theorem ifKey_begin (fmt : Fmt F) (c : Ctx F) (key text : String) {before : List Char} (h : before = '\n' :: text.toList) :
    ifKey fmt c key before [] = (entryLine fmt c.other key text).flatMap fun x => ['\n'] ++ x := by
  subst h
  unfold ifKey entryLine
  cases Dict.get? c.other key <;> simp

theorem infoDim_eq (fmt : Fmt F) {cells : List Nat} {lo up : List F} {d : Nat} {c : Nat} {l u : F} (mark : String)
    (hc : cells[d]? = some c) (hl : lo[d]? = some l) (hu : up[d]? = some u) :
    infoDim fmt mark.toList d c l u = dimLine fmt mark cells lo up d := by
  unfold infoDim dimLine
  generalize "│  ".toList = A, "─ Dim ".toList = B, ": Num. cells: ".toList = C, "; Lower: ".toList = D, "; Upper: ".toList = E
  simp [hl, hu, pyStr_dec, hc]

theorem infoDims_eq (fmt : Fmt F) {cells : List Nat} {lo up : List F} (hl : lo.length = cells.length) (hu : up.length = cells.length)
    (hn : 1 ≤ cells.length) {c : Ctx F} (h1 : c.lower = some lo) (h2 : c.upper = some up) (h3 : c.cells = some cells) :
    infoDims fmt c cells.length cells lo up =
      .ok (((List.range (cells.length - 1)).map (dimLine fmt "├" cells lo up)).flatMap fun x => x ++ ['\n']) ∧
    infoDimLast fmt cells.length cells lo up = .ok (dimLine fmt "└" cells lo up (cells.length - 1)) := by
  constructor
  · have key : ∀ l : List Nat, (∀ d ∈ l, d < cells.length) → l.mapM (infoDimAt fmt cells lo up) =
        Except.ok (ε := Err) (l.map fun d => dimLine fmt "├" cells lo up d ++ ['\n']) := by
      intro l
      induction l with
      | nil => intro _; rfl
      | cons d l ih =>
        intro h
        have hd := h d (by simp)
        have e1 : cells[d]? = some cells[d] := List.getElem?_eq_getElem hd
        have e2 : lo[d]? = some lo[d] := List.getElem?_eq_getElem (by omega)
        have e3 : up[d]? = some up[d] := List.getElem?_eq_getElem (by omega)
        have : infoDimAt fmt cells lo up d = .ok (dimLine fmt "├" cells lo up d ++ ['\n']) := by
          simp only [infoDimAt, e1, e2, e3, infoDim_eq fmt "├" e1 e2 e3]
        rw [List.mapM_cons, this, ih fun x hx => h x (by simp [hx])]
        rfl
    have hk : (hasKey c "lower" && hasKey c "upper" && hasKey c "cells") = true := by
      simp [hasKey, h1, h2, h3]
    rw [infoDims, if_pos hk, key _ fun d hd => by have := List.mem_range.1 hd; omega]
    simp only [bind, Except.bind, pure, Except.pure, List.flatMap_map]
    rfl
  · have g1 : cells.getLast? = cells[cells.length - 1]? := List.getLast?_eq_getElem? ..
    have g2 : lo.getLast? = lo[cells.length - 1]? := by rw [← hl]; exact List.getLast?_eq_getElem? ..
    have g3 : up.getLast? = up[cells.length - 1]? := by rw [← hu]; exact List.getLast?_eq_getElem? ..
    have e1 : cells[cells.length - 1]? = some (cells[cells.length - 1]'(by omega)) := List.getElem?_eq_getElem (by omega)
    have e2 : lo[cells.length - 1]? = some (lo[cells.length - 1]'(by omega)) := List.getElem?_eq_getElem (by omega)
    have e3 : up[cells.length - 1]? = some (up[cells.length - 1]'(by omega)) := List.getElem?_eq_getElem (by omega)
    simp only [infoDimLast, g1, g2, g3, e1, e2, e3, infoDim_eq fmt "└" e1 e2 e3]

variable {nan : F → Bool}

theorem described_bounds [Min F] [Max F] {d : GData F} {cells : List Nat} {nc : Nat} {lower upper : List F} {gt : String} {v : NArr F}
    (h : Described d cells nc lower upper gt v) : d.bounds = .ok (some (lower, upper)) := by
  simp only [GData.bounds, h.hasLower.1, h.hasUpper.1]

theorem described_dims {d : GData F} {cells : List Nat} {nc : Nat} {lower upper : List F} {gt : String} {v : NArr F}
    (h : Described d cells nc lower upper gt v) : d.numDims = cells.length ∧ d.numComps = nc ∧ d.numCells = some cells := by
  refine ⟨by simp [GData.numDims, GData.numCells, h.hasCells], ?_, by simp [GData.numCells, h.hasCells]⟩
  obtain ⟨k, rfl⟩ : ∃ k, nc = k + 1 := ⟨nc - 1, by have := h.pos; omega⟩
  simp [GData.numComps, h.comps]

theorem infoGrid_eq (fmt : Fmt F) {d : GData F} {cells : List Nat} {nc : Nat} {lower upper : List F} {gt : String} {v : NArr F}
    (h : Described d cells nc lower upper gt v) :
    infoGrid fmt d (some (lower, upper)) = .ok ((("├─ Grid: (".toList ++ gt.toList ++ ")".toList) ::
        (List.range (cells.length - 1)).map (dimLine fmt "├" cells lower upper)).flatMap (fun x => x ++ ['\n']) ++
      dimLine fmt "└" cells lower upper (cells.length - 1)) := by
  obtain ⟨h1, -, h3⟩ := described_dims h
  obtain ⟨k1, k2⟩ := infoDims_eq fmt h.hasLower.2 h.hasUpper.2 h.dims h.hasLower.1 h.hasUpper.1 h.hasCells
  have hg : hasGroup d.ctx gridKeys = true := by simp [hasGroup, gridKeys, hasKey, h.hasLower.1]
  have e : ")\n".toList = ")".toList ++ ['\n'] := by decide
  simp only [infoGrid, hg, if_true, h.hasType, h3, h1, k1, k2, bind, Except.bind, pure, Except.pure, e, List.flatMap_cons,
    List.append_assoc]

theorem extreme_eq (fmt : Fmt F) {d : GData F} {cells : List Nat} {nc : Nat} {lower upper : List F} {gt : String} {v : NArr F}
    (h : Described d cells nc lower upper gt v) (name : String) {b : Nat × F} {idx : List Nat}
    (hi : unravel v.shape b.1 = idx) (hr : inRange v.shape idx = true) :
    ∃ p c, idx = p ++ [c] ∧ infoExtreme fmt d v.shape name.toList b = extremeLine fmt name nc b.2 p c := by
  obtain ⟨h1, h2, -⟩ := described_dims h
  have hl := inRange_length hr
  rw [h.shape] at hl
  rcases List.eq_nil_or_concat idx with rfl | ⟨p, c, rfl⟩
  · simp at hl
  · rw [List.concat_eq_append] at hi hl ⊢
    simp only [List.length_append, List.length_singleton] at hl
    refine ⟨p, c, rfl, ?_⟩
    unfold infoExtreme extremeLine
    generalize "├─ ".toList = A, ": ".toList = B, " at ".toList = C, " component ".toList = D
    simp only [hi, h1, h2]
    rw [List.take_append_of_le_length (by omega), List.take_of_length_le (by omega)]
    simp only [List.getLastD_concat, pyStr_dec]

theorem infoBasis_eq (fmt : Fmt F) {c : Ctx F} {nc : Nat} (hc : c.numComps = some nc)
    (hm : (Dict.get? c.other "basis_type").isSome → (Dict.get? c.other "is_modal").isSome) :
    infoBasis fmt c = .ok ((basisLines fmt c.other).flatMap fun x => ['\n'] ++ x) := by
  have hg : hasGroup c basisKeys = true := by simp [hasGroup, basisKeys, hasKey, hc]
  have e1 : "\n├─ DG info:".toList = '\n' :: "├─ DG info:".toList := by decide +kernel
  have e2 : "\n│  └─ Basis Type: ".toList = '\n' :: "│  └─ Basis Type: ".toList := by decide +kernel
  have e3 : "\n│  ├─ Polynomial Order: ".toList = '\n' :: "│  ├─ Polynomial Order: ".toList := by decide +kernel
  have ht : infoBasisType fmt c = .ok (((entryLine fmt c.other "basis_type" "│  └─ Basis Type: ").map fun l =>
      l ++ if Dict.get? c.other "is_modal" = some "True" then " (modal)".toList else []).flatMap fun x => ['\n'] ++ x) := by
    unfold infoBasisType entryLine
    cases hb : Dict.get? c.other "basis_type" with
    | none => rfl
    | some t =>
      cases hmm : Dict.get? c.other "is_modal" with
      | none => rw [hb, hmm] at hm; simp at hm
      | some m =>
        simp only [e2, Option.some.injEq, List.map_cons, List.map_nil, List.flatMap_cons, List.flatMap_nil, List.append_nil,
          List.append_assoc, List.cons_append, List.nil_append]
  simp only [infoBasis, hg, if_true, ht, bind, Except.bind, pure, Except.pure, basisLines,
    ifKey_begin fmt c "poly_order" "│  ├─ Polynomial Order: " e3, e1]
  simp only [List.flatMap_cons, List.flatMap_append, List.append_assoc, List.cons_append, List.nil_append]

theorem infoBuild_eq (fmt : Fmt F) (c : Ctx F) : infoBuild fmt c = (buildLines fmt c.other).flatMap fun x => ['\n'] ++ x := by
  have e1 : "\n├─ Created with Gkeyll:".toList = '\n' :: "├─ Created with Gkeyll:".toList := by decide +kernel
  unfold infoBuild
  rw [ifKey_begin fmt c "changeset" "│  ├─ Changeset: " (by decide +kernel),
    ifKey_begin fmt c "builddate" "│  └─ Build Date: " (by decide +kernel), e1]
  have hg : hasGroup c buildKeys = ((Dict.get? c.other "changeset").isSome || (Dict.get? c.other "builddate").isSome) := by
    simp [hasGroup, buildKeys, hasKey]
  unfold buildLines entryLine
  rw [hg]
  generalize "├─ Created with Gkeyll:".toList = A
  generalize "│  ├─ Changeset: ".toList = B
  generalize "│  └─ Build Date: ".toList = C
  cases h1 : Dict.get? c.other "changeset" <;> cases h2 : Dict.get? c.other "builddate" <;> simp

theorem infoGeometry_eq (fmt : Fmt F) {c : Ctx F} {name : Option (List Char)} (hg : GeometryName c.other name) :
    infoGeometry fmt c = .ok ((geometryLines fmt c.other name).flatMap fun x => ['\n'] ++ x) := by
  have e1 : "\n├─ Geometry info:".toList = '\n' :: "├─ Geometry info:".toList := by decide +kernel
  have e2 : "\n│  ├─ Type: ".toList = '\n' :: "│  ├─ Type: ".toList := by decide +kernel
  unfold infoGeometry infoGeometryType geometryLines
  rw [ifKey_begin fmt c "geqdsk_sign_convention" "│  ├─ GEQDSK sign convention: " (by decide +kernel), e1, e2]
  have hgr : hasGroup c geometryKeys =
      ((Dict.get? c.other "geometry_type").isSome || (Dict.get? c.other "geqdsk_sign_convention").isSome) := by
    simp [hasGroup, geometryKeys, hasKey]
  unfold GeometryName at hg
  unfold entryLine
  rw [hgr]
  generalize "├─ Geometry info:".toList = A
  generalize "│  ├─ Type: ".toList = B
  generalize "│  ├─ GEQDSK sign convention: ".toList = C
  cases h1 : Dict.get? c.other "geometry_type" with
  | none =>
    rw [h1] at hg
    simp only at hg
    subst hg
    cases h2 : Dict.get? c.other "geqdsk_sign_convention" <;>
      simp [bind, Except.bind, pure, Except.pure]
  | some g =>
    rw [h1] at hg
    obtain ⟨k, hk, hk5, rfl⟩ := hg
    have h5 : listIndex 5 (k : Int) = .ok k := by
      rw [listIndex, if_pos (by omega)]; simp
    have hn : (["GKYL_GEOMETRY_NONE", "GKYL_GEOMETRY_TOKAMAK", "GKYL_GEOMETRY_MIRROR", "GKYL_GEOMETRY_MAPC2P",
        "GKYL_GEOMETRY_FROMFILE"][k]?).map String.toList = some (geometryNames.getD k []) := by
      have : ∀ k < 5, (["GKYL_GEOMETRY_NONE", "GKYL_GEOMETRY_TOKAMAK", "GKYL_GEOMETRY_MIRROR", "GKYL_GEOMETRY_MAPC2P",
        "GKYL_GEOMETRY_FROMFILE"][k]?).map String.toList = some (geometryNames.getD k []) := by decide +kernel
      exact this k hk5
    rw [hn]
    generalize geometryNames = N
    cases h2 : Dict.get? c.other "geqdsk_sign_convention" <;>
      simp [hk, pyInt_dec, h5, bind, Except.bind, pure, Except.pure]

theorem infoOther_eq (fmt : Fmt F) (c : Ctx F) : infoOther fmt c = ((c.other.filter fun x => x.1 ∉ namedKeys).map fun x =>
    "├─ ".toList ++ x.1.toList ++ ": ".toList ++ fmt.entry x.1 x.2).flatMap fun x => ['\n'] ++ x := by
  have e1 : "\n├─ ".toList = '\n' :: "├─ ".toList := by decide +kernel
  have e2 : groupedKeys = namedKeys := by decide +kernel
  unfold infoOther
  rw [e1, e2]
  generalize "├─ ".toList = A
  generalize ": ".toList = B
  induction c.other with
  | nil => rfl
  | cons x l ih =>
    rw [List.flatMap_cons, ih]
    by_cases hx : x.1 ∈ namedKeys
    · simp [hx]
    · simp [hx]

theorem infoHead_eq (fmt : Fmt F) {d : GData F} {cells : List Nat} {nc : Nat} {lower upper : List F} {gt : String} {v : NArr F}
    (h : Described d cells nc lower upper gt v) :
    infoHead fmt d = (entryLine fmt d.ctx.other "time" "├─ Time: " ++ entryLine fmt d.ctx.other "frame" "├─ Frame: " ++
      ["├─ Number of components: ".toList ++ dec nc, "├─ Number of dimensions: ".toList ++ dec cells.length]).flatMap
        fun x => x ++ ['\n'] := by
  obtain ⟨h1, h2, -⟩ := described_dims h
  simp only [infoHead, ifKey_end, h1, h2, pyStr_dec, List.flatMap_append, List.flatMap_cons, List.flatMap_nil, List.append_assoc,
    List.append_nil]

variable [LinearOrder F]

/-- **C114** For a dataset with a grid and values, not all of them NaN, `info` prints, each on a line of its own: the time and
the frame if known, the numbers of components and dimensions, the type of the grid, the cells and bounds of every dimension,
the largest and the smallest of the values that are not NaN with the first cell and component where they stand, and every
other entry of the metadata once. -/
theorem C114_info_partial (fmt : Fmt F) (nan : F → Bool) {d : GData F} {cells : List Nat} {nc : Nat} {lower upper : List F}
    {gt : String} {v : NArr F} (h : Described d cells nc lower upper gt v)
    (hv : ∃ idx y, v.get? idx = some y ∧ nan y = false)
    (hm : (Dict.get? d.ctx.other "basis_type").isSome → (Dict.get? d.ctx.other "is_modal").isSome)
    {geo : Option (List Char)} (hg : GeometryName d.ctx.other geo) :
    ∃ (M : F) (p : List Nat) (c : Nat) (m : F) (q : List Nat) (e : Nat),
      IsBest nan (· > ·) v M (p ++ [c]) ∧ IsBest nan (· < ·) v m (q ++ [e]) ∧
      info fmt nan (fun x y => decide (x < y)) d =
        .ok (List.intercalate ['\n'] (infoLines fmt d.ctx.other cells nc lower upper gt geo M p c m q e)) := by
  obtain ⟨b1, x1, x2, x3⟩ := nanArg_best (nan := nan) (better := fun x y : F => decide (y < x)) (v := v)
    (by intro x b y h1 h2; simp only [decide_eq_true_eq, decide_eq_false_iff_not, not_lt] at *; exact lt_of_le_of_lt h2 h1)
    (by intro x y h1; simp only [decide_eq_true_eq, decide_eq_false_iff_not, not_lt] at *; exact h1.le)
    (by intro x; simp) h.wf hv
  obtain ⟨b2, y1, y2, y3⟩ := nanArg_best (nan := nan) (better := fun x y : F => decide (x < y)) (v := v)
    (by intro x b y h1 h2; simp only [decide_eq_true_eq, decide_eq_false_iff_not, not_lt] at *; exact lt_of_lt_of_le h1 h2)
    (by intro x y h1; simp only [decide_eq_true_eq, decide_eq_false_iff_not, not_lt] at *; exact h1.le)
    (by intro x; simp) h.wf hv
  obtain ⟨p, c, e1, e2⟩ := extreme_eq fmt h "Maximum" (b := b1) rfl x2
  obtain ⟨q, e, e3, e4⟩ := extreme_eq fmt h "Minimum" (b := b2) rfl y2
  refine ⟨b1.2, p, c, b2.2, q, e, ?_, ?_, ?_⟩
  · rw [← e1]; simpa [IsBest] using x3
  · rw [← e3]; simpa [IsBest] using y3
  · have hx : infoExtremes fmt nan (fun x y => decide (x < y)) d =
        .ok ([extremeLine fmt "Maximum" nc b1.2 p c, extremeLine fmt "Minimum" nc b2.2 q e].flatMap fun x => ['\n'] ++ x) := by
      simp only [infoExtremes, h.values, x1, y1, e2, e4, List.flatMap_cons, List.flatMap_nil, List.append_nil, List.cons_append,
        List.nil_append]
    simp only [info, described_bounds h, infoGrid_eq fmt h, hx, infoBasis_eq fmt h.comps hm, infoGeometry_eq fmt hg, bind,
      Except.bind, pure, Except.pure, infoHead_eq fmt h, infoBuild_eq, infoOther_eq]
    congr 1
    have := intercalate_lines (dimLine fmt "└" cells lower upper (cells.length - 1)) ['\n']
      ([extremeLine fmt "Maximum" nc b1.2 p c, extremeLine fmt "Minimum" nc b2.2 q e] ++ basisLines fmt d.ctx.other ++
        buildLines fmt d.ctx.other ++ geometryLines fmt d.ctx.other geo ++
        (d.ctx.other.filter fun x => x.1 ∉ namedKeys).map fun x => "├─ ".toList ++ x.1.toList ++ ": ".toList ++ fmt.entry x.1 x.2)
      ((entryLine fmt d.ctx.other "time" "├─ Time: " ++ entryLine fmt d.ctx.other "frame" "├─ Frame: " ++
        ["├─ Number of components: ".toList ++ dec nc, "├─ Number of dimensions: ".toList ++ dec cells.length]) ++
        (("├─ Grid: (".toList ++ gt.toList ++ ")".toList) ::
        (List.range (cells.length - 1)).map (dimLine fmt "├" cells lower upper)))
    unfold infoLines
    simp only [List.append_assoc, List.cons_append, List.nil_append] at this ⊢
    rw [this]
    simp only [List.flatMap_append, List.flatMap_cons, List.flatMap_nil, List.append_assoc, List.cons_append, List.nil_append]

/-- **C114** (what the code gets wrong) `info` fails for a dataset whose metadata has bounds but no type of the grid, such as
any result that is made, with a grid, from the metadata of a history read from an ADIOS file. -/
theorem C114_grid_type_fails (fmt : Fmt F) (nan : F → Bool) (lt : F → F → Bool) {tag label : List Char} {c : Ctx F}
    {g : List (NArr F)} {v : NArr F} {r : GData F} (hc : Dict.get? c.other "grid_type" = none)
    (hr : (GData.new tag label c).push g v = .ok r) : info fmt nan lt r = .error .keyError := by
  obtain ⟨nc, l, u, -, -, -, rfl⟩ := GData.push_eq_ok hr
  simp [info, GData.bounds, infoGrid, hasGroup, gridKeys, hasKey, GData.new, hc, bind, Except.bind]

/-- **C114** The command `info` prints, for every dataset that iteration visits, its label, tag and number (see C109), and
then the text of its description. -/
theorem C114_command (fmt : Fmt F) (nan : F → Bool) (lt : F → F → Bool) {s : Space F} (hr : Reachable s) {use : Option Tag}
    {ts : List Tag} (hts : Requests s use ts) (ls : Tag → List Nat) (hl : ∀ t ∈ ts, s.lookup t = some (ls t)) (all : Bool)
    {T : GData F → List Char}
    (hT : ∀ t ∈ ts, ∀ e ∈ visit s.active (!all) (ls t), ∀ d, s.heap[e.2]? = some d → info fmt nan lt d = .ok (T d)) :
    ∃ ds : List (Nat × GData F), infoFull fmt nan lt use all s = .ok (ds.flatMap fun p => [
        p.2.getLabel ++ (if p.2.getLabel = [] then [] else " ".toList) ++ "(".toList ++ p.2.tag ++ "#".toList ++ pyStr p.1 ++
          ")".toList, T p.2 ++ "\n".toList]) ∧
      ds.map (fun p => (p.1, some p.2)) = (ts.flatMap fun t => visit s.active (!all) (ls t)).map fun p => (p.1, s.heap[p.2]?) := by
  have hi := Space.reachable_inv hr
  have hto := C16_iterate_all hts ls hl true (!all)
  have hlt := Space.toList_none_lt hi hto
  have hit := Space.iterate_ok (σ := List (List Char)) (fun _ => s) use true (!all) .none
    (infoBody fmt nan lt s) [] hi (fun _ => True) trivial (fun _ _ _ _ _ _ => trivial) (fun _ _ _ _ _ => rfl)
    (fun _ _ _ _ => rfl) hto
  have hT' : ∀ e ∈ (ts.flatMap fun t => visit s.active (!all) (ls t)), ∀ d, s.heap[e.2]? = some d → info fmt nan lt d = .ok (T d) := by
    intro e he
    obtain ⟨t, ht, he⟩ := List.mem_flatMap.1 he
    exact hT t ht e he
  generalize (ts.flatMap fun t => visit s.active (!all) (ls t)) = items at hlt hit hT'
  have key : ∀ (items : List (Nat × Nat)) (out : List (List Char)), (∀ e ∈ items, e.2 < s.heap.length) →
      (∀ e ∈ items, ∀ d, s.heap[e.2]? = some d → info fmt nan lt d = .ok (T d)) →
      ∃ ds : List (Nat × GData F), items.foldlM (fun out e => infoBody fmt nan lt s out e.1 e.2) out =
          Except.ok (ε := Err) (out ++ ds.flatMap fun p => [infoLine p.2 p.1, T p.2 ++ ['\n']]) ∧
        ds.map (fun p => (p.1, some p.2)) = items.map fun p => (p.1, s.heap[p.2]?) := by
    intro items
    induction items with
    | nil => intro out _ _; exact ⟨[], by simp; rfl, rfl⟩
    | cons e items ih =>
      intro out hlt hT
      have he := hlt e (by simp)
      have hget := List.getElem?_eq_getElem he
      obtain ⟨ds, h1, h2⟩ := ih (out ++ [infoLine s.heap[e.2] e.1, T s.heap[e.2] ++ ['\n']]) (fun e h => hlt e (by simp [h]))
        (fun e h => hT e (by simp [h]))
      refine ⟨(e.1, s.heap[e.2]) :: ds, ?_, ?_⟩
      · have hb : infoBody fmt nan lt s out e.1 e.2 = .ok (out ++ [infoLine s.heap[e.2] e.1, T s.heap[e.2] ++ ['\n']]) := by
          simp only [infoBody, hget, hT e (by simp) _ hget, bind, Except.bind, pure, Except.pure]
        rw [List.foldlM_cons, hb]
        simp only [bind, Except.bind]
        rw [h1]; simp
      · simp only [List.map_cons, h2, hget]
  obtain ⟨ds, h1, h2⟩ := key items [] hlt hT'
  refine ⟨ds, ?_, h2⟩
  unfold infoFull
  refine (hit.trans h1).trans ?_
  congr 1
  rw [List.nil_append]
  congr 1
  funext p
  have e1 : "(".toList = ['('] := by decide
  have e2 : "#".toList = ['#'] := by decide
  have e3 : ")".toList = [')'] := by decide
  have e4 : " ".toList = [' '] := by decide
  have e5 : "\n".toList = ['\n'] := by decide
  simp only [infoLine, List.append_assoc, e1, e2, e3, e4, e5, List.cons_append, List.nil_append]

end

/-! A dataset on 2 × 3 cells with two components, one value of which is NaN (here: 100). -/
namespace InfoEx

def d : GData ℚ where
  grid := some [NArr.ofList [0, 1, 2], NArr.ofList [0, 1, 2, 3]]
  values := some ⟨[2, 3, 2], [1, 2, 3, 100, 5, 0, 9, 8, 9, 0, 4, 2]⟩
  ctx := { cells := some [2, 3], numComps := some 2, lower := some [0, 0], upper := some [2, 3]
           other := [("time", "0.5"), ("grid_type", "uniform"), ("geometry_type", "3"), ("basis_type", "serendipity"),
             ("is_modal", "True"), ("mass", "1")] }

def nan (x : ℚ) : Bool := x == 100

def fmt : Fmt ℚ := ⟨fun x => if x = 9 then "9".toList else "?".toList, fun p => p.flatMap dec, fun _ v => v.toList⟩

theorem described : Described d [2, 3] 2 [0, 0] [2, 3] "uniform" ⟨[2, 3, 2], [1, 2, 3, 100, 5, 0, 9, 8, 9, 0, 4, 2]⟩ :=
  ⟨rfl, by decide, rfl, by decide, ⟨rfl, rfl⟩, ⟨rfl, rfl⟩, by decide +kernel, rfl, rfl, rfl⟩

theorem geometry : GeometryName d.ctx.other (some "GKYL_GEOMETRY_MAPC2P".toList) := by
  have : Dict.get? d.ctx.other "geometry_type" = some "3" := by decide +kernel
  unfold GeometryName
  rw [this]
  exact ⟨3, by decide +kernel, by decide, by decide +kernel⟩

/-- The hypotheses of `C114_info_partial` are met. -/
example : ∃ M p c, IsBest nan (· > ·) ⟨[2, 3, 2], [1, 2, 3, 100, 5, 0, 9, 8, 9, 0, 4, 2]⟩ (M : ℚ) (p ++ [c]) := by
  obtain ⟨M, p, c, m, q, e, h, -⟩ := C114_info_partial fmt nan described ⟨[0, 0, 0], 1, by decide +kernel, by decide +kernel⟩
    (fun _ => by decide +kernel) geometry
  exact ⟨M, p, c, h⟩

/-- The maximum that is not NaN is 9, first in component 0 of cell (1, 0). -/
example : nanArg nan (fun x y : ℚ => decide (y < x)) 0 none [1, 2, 3, 100, 5, 0, 9, 8, 9, 0, 4, 2] = some (6, 9) ∧
    unravel [2, 3, 2] 6 = [1, 0, 0] := by decide +kernel

/-- The failing case is met: no type of the grid. -/
example : ∃ r, (GData.new "a".toList [] ({} : Ctx ℚ)).push [NArr.ofList [0, 1]] ⟨[2, 1], [5, 6]⟩ = .ok r ∧
    Dict.get? ({} : Ctx ℚ).other "grid_type" = none := ⟨_, rfl, rfl⟩

end InfoEx
end Pgkyl
