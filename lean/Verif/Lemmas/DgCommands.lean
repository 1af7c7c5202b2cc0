import Verif.Model.DgCommands
import Verif.Spec.DgCommands
import Verif.Lemmas.Commands
import Verif.Props.Dg
/-! # Lemmas: the commands on DG data -/

namespace Pgkyl.Cmd
open Spec Dg

section
variable {F : Type} [_root_.Field F]

omit [_root_.Field F] in
theorem numNodes_of_fns {q : DgCase F} (h : q.Supported) : numNodes q.cells.length q.order q.basis = .ok q.fns.length := by
  obtain ⟨hf, h1, h0, -, -⟩ := h
  unfold interpFns at hf
  by_cases hd : q.cells.length = 1
  · have hb := h1 hd
    rw [hd] at hf ⊢
    simp only [if_true] at hf
    split at hf
    · rename_i fs hl
      injection hf with hf
      subst hf
      have := List.all_eq_true.1 interp_sizes _ (mem_of_lookup hl)
      simp only [sizeOK, Bool.and_eq_true, Bool.or_eq_true, decide_eq_true_eq] at this
      obtain ⟨⟨-, hs⟩, ho⟩ := this
      simp only [List.mem_cons, List.not_mem_nil, or_false] at hb
      rcases hb with hb | hb | hb
      · rw [hb]; exact hs
      · rw [hb]
        rcases ho with ho | ⟨hm, -⟩
        · have := h0 ho; rw [hb] at this; exact absurd this (by decide)
        · exact hm
      · rw [hb]
        rcases ho with ho | ⟨-, ht⟩
        · have := h0 ho; rw [hb] at this; exact absurd this (by decide)
        · exact ht
    · cases hf
  · simp only [if_neg hd, if_true] at hf
    split at hf
    · rename_i fs hl
      injection hf with hf
      subst hf
      have := List.all_eq_true.1 interp_sizes _ (mem_of_lookup hl)
      simpa only [sizeOK, decide_eq_true_eq] using this
    · cases hf

theorem source_ok {q : DgCase F} {d : GData F} (h : q.StoredIn d) :
    ∃ src, sourceOf d = .ok src ∧ OnMesh src q.cells q.m q.f q.axes ∧ src.polyOrder = metaNat d "poly_order" ∧
      src.basisType = Dict.get? d.ctx.other "basis_type" := by
  obtain ⟨⟨g, ⟨h1, h2, h3, v, h4, h5⟩, hm⟩, ⟨hc, -⟩, ht, he, hx, hp⟩ := h
  have hdim : d.numDims = q.cells.length := hc
  refine ⟨{ numDims := d.numDims, numComps := d.numComps, grid := g, values := v
            polyOrder := metaNat d "poly_order"
            basisType := Dict.get? d.ctx.other "basis_type"
            gridType := "uniform"
            numCdim := (metaNat d "num_cdim").getD 0
            numVdim := (metaNat d "num_vdim").getD 0 }, ?_, ⟨h5, hdim, hm, he, hx, hp, rfl⟩, rfl, rfl⟩
  simp only [sourceOf, h1, h4, ht]

/-- The names on the command line. -/
theorem basis_names {name bb : String} (h : (name, bb) ∈ basisNames) :
    optModal (some name) = some true ∧ modalBasis (some name) c = .ok bb := by
  simp only [basisNames, List.mem_cons, List.not_mem_nil, or_false, Prod.mk.injEq] at h
  rcases h with ⟨rfl, rfl⟩ | ⟨rfl, rfl⟩ | ⟨rfl, rfl⟩ | ⟨rfl, rfl⟩ | ⟨rfl, rfl⟩ <;> exact ⟨by decide, by rfl⟩

omit [_root_.Field F] in
theorem metaNat_dec {d : GData F} {key : String} {p : Nat} (h : Dict.get? d.ctx.other key = some (String.ofList (dec p))) :
    metaNat d key = some p := by
  unfold metaNat
  rw [h]
  simp only [String.toList_ofList, pyInt_dec, Option.map_some, Int.toNat_natCast]

omit [_root_.Field F] in
theorem modalInit_eq {src : Source F} {po : Option Nat} {b : Option String} {ni : Option Nat} {p n K : Nat} {name : String}
    (hmo : modalOrder po src.polyOrder = .ok p) (hb : modalBasis b src.basisType = .ok name)
    (hh : ¬ (src.numDims = 1 ∧ name = "hybrid")) (hn : numNodes src.numDims p name = .ok K)
    (hni : (ni = some n ∧ 1 ≤ n) ∨ (ni = none ∧ n = p + 1)) :
    modalInit src po b ni = .ok ⟨src, p, name, some n, K⟩ := by
  rcases hni with ⟨rfl, h⟩ | ⟨rfl, rfl⟩
  · obtain ⟨k, rfl⟩ : ∃ k, n = k + 1 := ⟨n - 1, by omega⟩
    simp only [modalInit, hmo, hb, bind, Except.bind, pure, Except.pure, if_neg hh, hn]
  · simp only [modalInit, hmo, hb, bind, Except.bind, pure, Except.pure, if_neg hh, hn]

/-- The interpolation object the command builds. -/
theorem dgOf_source {q : DgCase F} {po : Option Nat} {b : Option String} {ni : Option Nat} {d : GData F}
    (h : q.Fits po b ni d) :
    ∃ src o, sourceOf d = .ok src ∧ OnMesh src q.cells q.m q.f q.axes ∧ dgOf po b ni d = .ok (true, o) ∧ modalInit src po b ni = .ok o ∧
      o.polyOrder = q.order ∧ o.basis = q.basis ∧ o.numInterp = some q.points ∧ o.numNodes = q.fns.length := by
  obtain ⟨hs, hc, hsup⟩ := h
  obtain ⟨src, h1, h2, h3, h4⟩ := source_ok hs
  have hmo : modalOrder po src.polyOrder = .ok q.order := by
    rcases hc.order with h | ⟨h, h', h''⟩
    · rw [h]; rfl
    · rw [h, h3, metaNat_dec h']
      obtain ⟨k, hk⟩ : ∃ k, q.order = k + 1 := ⟨q.order - 1, by omega⟩
      rw [hk]; rfl
  have hnn := numNodes_of_fns hsup
  have hb : modalBasis b src.basisType = .ok q.basis ∧ isModal b d = .ok true ∧
      ¬ (b = none ∧ Dict.get? d.ctx.other "basis_type" = none) := by
    rcases hc.basis with ⟨name, rfl, hm⟩ | ⟨rfl, hm, ht⟩
    · refine ⟨(basis_names hm).2, ?_, by simp⟩
      unfold isModal
      rw [if_pos (basis_names hm (c := none)).1]
    · refine ⟨?_, ?_, by rw [hm]; simp⟩
      · rw [h4, hm]
        have hne : q.basis ≠ "" := by
          intro he
          rw [he] at hnn
          simp [numNodes] at hnn
        simp [modalBasis, modalBasis.fromCtx, hne]
      · unfold isModal
        rw [if_neg (by decide), ht]
        rfl
  have hhyb : ¬ (src.numDims = 1 ∧ q.basis = "hybrid") := by
    rintro ⟨e1, e2⟩
    rw [h2.dims] at e1
    have := hsup.line e1
    rw [e2] at this
    exact absurd this (by decide)
  have hmi := modalInit_eq hmo hb.1 hhyb (by rw [h2.dims]; exact hnn) (ni := ni) (n := q.points)
    (by
      rcases hc.points with h | h
      · exact .inl ⟨h, by have := hc.two; omega⟩
      · exact .inr h)
  refine ⟨src, _, h1, h2, ?_, hmi, rfl, rfl, rfl, rfl⟩
  unfold dgOf
  rw [if_neg hb.2.2]
  simp only [hb.2.1, h1, bind, Except.bind, if_true, hmi, pure, Except.pure]

theorem dgOf_ok {q : DgCase F} {po : Option Nat} {b : Option String} {ni : Option Nat} {d : GData F}
    (h : q.Fits po b ni d) :
    ∃ src o, OnMesh src q.cells q.m q.f q.axes ∧ dgOf po b ni d = .ok (true, o) ∧ modalInit src po b ni = .ok o ∧
      o.polyOrder = q.order ∧ o.basis = q.basis ∧ o.numInterp = some q.points ∧ o.numNodes = q.fns.length := by
  obtain ⟨src, o, -, h⟩ := dgOf_source h
  exact ⟨src, o, h⟩

omit [_root_.Field F] in
theorem mesh_length {F : Type} [_root_.Field F] {g : List (NArr F)} {axes : List (Axis F)} (h : IsMesh g axes) :
    g.length = axes.length ∧ ∀ a ∈ g, a.data ≠ [] := by
  refine ⟨h.length_eq, fun a ha => ?_⟩
  obtain ⟨i, hi, rfl⟩ := List.getElem_of_mem ha
  have := (List.forall₂_iff_get.1 h).2 i hi (by rw [← h.length_eq]; exact hi)
  have h2 := this.2
  simp only [List.get_eq_getElem] at h2
  rw [h2]
  simp

theorem refineAll_length {axes : List (Axis F)} {ns : List Nat} (h : ns.length = axes.length) :
    (refineAll axes ns).length = axes.length := by
  simp [refineAll, h]

variable [CharZero F] [Min F] [Max F]

omit [Min F] [Max F] in
/-- What `interpolate` computes for one dataset. -/
theorem interpolateOf_ok {q : DgCase F} {po : Option Nat} {b : Option String} {ni : Option Nat} {d : GData F}
    (h5 : Except Err (List (List F))) (h : q.Fits po b ni d) :
    ∃ g w, interpolateOf h5 po b ni d = .ok (g, w) ∧ IsMesh g q.fine ∧
      IsField w (List.zipWith (· * ·) q.cells (perCell q.basis q.cells.length q.points)) (q.m / q.fns.length)
        (fun idx j => q.value j (List.zipWith (· / ·) idx (perCell q.basis q.cells.length q.points)) (midPt q.fine idx)) := by
  obtain ⟨src, o, h1, h2, h3, e1, e2, e3, e4⟩ := dgOf_ok h
  obtain ⟨hs, hc, hsup⟩ := h
  obtain ⟨f1, f2⟩ := hsup.fields
  have hk : 1 ≤ q.m / q.fns.length := (Nat.one_le_div_iff (by omega)).2 f2
  have hcs : (Comp.tuple (List.range (d.numComps / o.numNodes))).list = .ok (List.range (q.m / q.fns.length)) := by
    rw [hs.counts.2, e4]
    refine C69_components (.tuple _ ?_)
    intro he
    have := congrArg List.length he
    rw [List.length_range, List.length_nil] at this
    omega
  obtain ⟨g, w, hw, hg, hf⟩ := C36_interpolate h1 h3 (by rw [e1, e2]; exact hsup.fns)
    (fun hd he => by
      have := hsup.line hd
      rw [e2] at he
      rw [he] at this
      exact absurd this (by decide))
    (by rw [e1, e2]; exact hsup.zero) e3 hc.two hcs (fun c hc' => by
      have hlt : c < q.m / q.fns.length := List.mem_range.1 hc'
      calc (c + 1) * q.fns.length ≤ (q.m / q.fns.length) * q.fns.length := Nat.mul_le_mul_right _ hlt
        _ ≤ q.m := Nat.div_mul_le_self _ _)
  rw [e2] at hg hf
  rw [List.length_range] at hf
  refine ⟨g, w, ?_, hg, hf.congr fun i _ c hc' => ?_⟩
  · unfold interpolateOf
    simp only [h2, bind, Except.bind, if_true]
    exact hw
  · have : (List.range (q.m / q.fns.length)).getD c 0 = c := by
      rw [List.getD_eq_getElem?_getD, List.getElem?_range hc']; rfl
    simp only [this]
    rfl

end

/-- What `differentiate` with a direction computes for one dataset. -/
theorem differentiateOf_ok [Min ℝ] [Max ℝ] {q : DgCase ℝ} {po : Option Nat} {b : Option String} {ni : Option Nat}
    {d : GData ℝ} (h : q.Fits po b ni d) (hpos : ∀ x ∈ q.cells, 0 < x)
    (hdf : derivFns q.cells.length q.order q.basis true = .ok q.fns) {i : Nat} (hi : i < q.cells.length) :
    ∃ g w f, differentiateOf po b ni (some i) d = .ok (g, w) ∧
      IsMesh g (refineAll q.axes (List.replicate q.cells.length q.points)) ∧
      IsField w (q.cells.map (· * q.points)) 1 f ∧
      ∀ idx, inRange (q.cells.map (· * q.points)) idx = true → ∃ zi,
        (midPt (refineAll q.axes (List.replicate q.cells.length q.points)) idx)[i]? = some zi ∧
        HasDerivAt (fun t => q.value 0 (idx.map (· / q.points))
          ((midPt (refineAll q.axes (List.replicate q.cells.length q.points)) idx).set i t)) (f idx 0) zi := by
  obtain ⟨src, o, h1, h2, h3, e1, e2, e3, e4⟩ := dgOf_ok h
  obtain ⟨hs, hc, hsup⟩ := h
  obtain ⟨f1, f2⟩ := hsup.fields
  have hline : q.cells.length = 1 → o.basis ≠ "gkhybrid" ∧ o.basis ≠ "hybrid" := by
    intro hd
    have := hsup.line hd
    rw [e2]
    constructor <;> (intro he; rw [he] at this; exact absurd this (by decide))
  have hdf' : derivFns q.cells.length o.polyOrder o.basis true = .ok q.fns := by rw [e1, e2]; exact hdf
  obtain ⟨h1', h2', h3', -⟩ := modalInit_ok h3
  subst h1'
  have hm1 : (0 + 1) * q.fns.length ≤ q.m := by simpa using f2
  obtain ⟨-, g, w, hw, hg, hsh, hder⟩ := C60_differentiate_exact h1 hpos h3 hdf' (fun hd => (hline hd).1)
    (by rw [e1, e2]; exact hsup.zero) e3 hc.two (c := 0) hm1 hi
  obtain ⟨grid, -, hone, -⟩ := differentiate_ok h1 hdf' hline e4.symm e3 hc.two hpos hm1
  have ha : q.axes[i]? = some (q.axes[i]'(by rw [h1.axes_length]; exact hi)) := List.getElem?_eq_getElem _
  obtain ⟨w', hw', hf⟩ := hone i _ ha
  rw [hw] at hw'
  cases hw'
  rw [zipWith_replicate_eq_map] at hf
  refine ⟨g, w, _, ?_, hg, hf, fun idx hidx => ?_⟩
  · unfold differentiateOf
    simp only [h2, bind, Except.bind, if_true]
    exact hw
  · obtain ⟨y, zi, hy, hz, hD⟩ := hder idx hidx
    refine ⟨zi, hz, ?_⟩
    have := hf.get idx hidx 0 (by omega)
    rw [hy] at this
    rw [← Option.some.inj this]
    exact hD

end Pgkyl.Cmd
