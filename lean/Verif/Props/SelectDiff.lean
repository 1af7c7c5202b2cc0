import Verif.Props.SelectInterp
/-!
# C142: selecting cells and differentiating can be done in either order

Numbers are the elements of a linearly ordered field (exact arithmetic).
-/

namespace Pgkyl
open Spec Cmd

variable {F : Type} [_root_.Field F] [LinearOrder F] [IsStrictOrderedRing F]

/-- What `differentiate` computes for one dataset: for one direction, and for all of them. -/
theorem differentiateOf_values {q : DgCase F} {po : Option Nat} {b : Option String} {ni : Option Nat} {d : GData F}
    (h : q.Fits po b ni d) (hpos : ∀ x ∈ q.cells, 0 < x)
    (hdf : Dg.derivFns q.cells.length q.order q.basis true = .ok q.fns) {dir : Option Nat}
    (hdir : ∀ i, dir = some i → i < q.cells.length) :
    ∃ g w, differentiateOf po b ni dir d = .ok (g, w) ∧
      IsMesh g (refineAll q.axes (List.replicate q.cells.length q.points)) ∧
      IsField w (List.zipWith (· * ·) q.cells (List.replicate q.cells.length q.points)) (dir.elim q.cells.length fun _ => 1)
        fun idx k => Dg.dirValue q.fns q.axes q.f (List.replicate q.cells.length q.points) (dir.getD k) idx *
          (if dir = none ∧ k = 0 then 1 else 2) / ((q.axes.map (·.dx)).getD (dir.getD k) 0) := by
  obtain ⟨src, o, h1, h2, h3, e1, e2, e3, e4⟩ := dgOf_ok h
  obtain ⟨hs, hc, hsup⟩ := h
  obtain ⟨f1, f2⟩ := hsup.fields
  have hline : q.cells.length = 1 → o.basis ≠ "gkhybrid" ∧ o.basis ≠ "hybrid" := by
    intro hd
    have := hsup.line hd
    rw [e2]
    constructor <;> (intro he; rw [he] at this; exact absurd this (by decide))
  have hdf' : Dg.derivFns q.cells.length o.polyOrder o.basis true = .ok q.fns := by rw [e1, e2]; exact hdf
  obtain ⟨h1', h2', h3', -⟩ := Dg.modalInit_ok h3
  subst h1'
  have hm1 : (0 + 1) * q.fns.length ≤ q.m := by simpa using f2
  obtain ⟨grid, hgm, hone, w, hw, hwf⟩ := Dg.differentiate_ok h1 hdf' hline e4.symm e3 hc.two hpos hm1
  have hcoef : (fun cell k => q.f cell (0 * q.fns.length + k)) = q.f := by funext c k; simp
  rw [hcoef] at hwf
  rw [hcoef] at hone
  cases dir with
  | none =>
    refine ⟨grid, w, ?_, hgm, ?_⟩
    · unfold differentiateOf
      simp only [h2, bind, Except.bind, if_true]
      exact hw
    · simpa using hwf
  | some i =>
    have hi := hdir i rfl
    have ha : q.axes[i]? = some (q.axes[i]'(by rw [h1.axes_length]; exact hi)) := List.getElem?_eq_getElem _
    obtain ⟨w', hw', hf⟩ := hone i _ ha
    refine ⟨grid, w', ?_, hgm, ?_⟩
    · unfold differentiateOf
      simp only [h2, bind, Except.bind, if_true]
      exact hw'
    · have : (q.axes.map (·.dx)).getD i 0 = (q.axes[i]'(by rw [h1.axes_length]; exact hi)).dx := by
        rw [List.getD_eq_getElem?_getD, List.getElem?_map, ha]; rfl
      simp only [Option.getD_some, this]
      simpa using hf

/-- **C142.**  Selecting cells and then differentiating, along one axis or along all of them, gives the same grid and the same
values as differentiating everything and then selecting the refined cells that the selected cells are split into. -/
theorem C142_select_differentiate (pf : List Char → Option F) {q : DgCase F} {po : Option Nat} {b : Option String}
    {ni : Option Nat} {d : GData F} (h : q.Fits po b ni d) (hdf : Dg.derivFns q.cells.length q.order q.basis true = .ok q.fns)
    {dir : Option Nat} (hdir : ∀ i, dir = some i → i < q.cells.length)
    {ps : List (Portion F)} (hax : q.axes = ps.map (·.axis))
    (hps : List.Forall₂ Portion.OK ps (List.replicate q.cells.length q.points)) (h6 : q.cells.length ≤ 6) :
    ∃ g₁ v₁ part g v r gi vi, select pf d none (ps.map (·.before)) true = .ok (g₁, v₁, part) ∧
      differentiateOf po b ni dir part = .ok (gi, vi) ∧
      differentiateOf po b ni dir d = .ok (g, v) ∧ d.push g v = .ok r ∧
      select pf r none (ps.map (·.after)) false = .ok (gi, vi, r) := by
  obtain ⟨g₁, v₁, d₁, e1, hfit⟩ := select_part pf h hax hps h6
  have hlen : ps.length = q.cells.length := by
    rw [← h.1.cells_eq, hax]; simp
  have hcells' : q.cells = ps.map (·.axis.cells) := by
    rw [← h.1.cells_eq, hax, List.map_map]; rfl
  have hl : (q.part ps).cells.length = q.cells.length := by simp [DgCase.part, hlen]
  have hok : ∀ p ∈ ps, ∃ n, p.OK n := by
    intro p hp
    obtain ⟨i, hi, rfl⟩ := List.getElem_of_mem hp
    exact ⟨_, (List.forall₂_iff_get.1 hps).2 i hi (by rw [← hps.length_eq]; exact hi)⟩
  have hpos : ∀ x ∈ q.cells, 0 < x := by
    intro x hx
    rw [hcells'] at hx
    obtain ⟨p, hp, rfl⟩ := List.mem_map.1 hx
    obtain ⟨n, hn⟩ := hok p hp
    have := denotes_le hn.before
    have := hn.some
    omega
  have hpos' : ∀ x ∈ (q.part ps).cells, 0 < x := by
    intro x hx
    obtain ⟨p, hp, rfl⟩ := List.mem_map.1 hx
    obtain ⟨n, hn⟩ := hok p hp
    have := hn.some
    omega
  obtain ⟨gi, vi, e2, hmi, hfi⟩ := differentiateOf_values hfit hpos' (by rw [hl]; exact hdf) (dir := dir)
    (by intro i hi; rw [hl]; exact hdir i hi)
  obtain ⟨g, v, e3, hm, hf⟩ := differentiateOf_values h hpos hdf hdir
  rw [hl] at hmi hfi
  obtain ⟨ns, hns⟩ : ∃ ns, ns = List.replicate q.cells.length q.points := ⟨_, rfl⟩
  have hp' : (q.part ps).points = q.points := rfl
  rw [hp', ← hns] at hmi hfi
  rw [← hns] at hm hf hps
  have hpp : ∀ n ∈ ns, 0 < n := by
    intro n hn
    rw [hns] at hn
    rw [List.eq_of_mem_replicate hn]
    have := h.2.1.two
    omega
  have hpl : ns.length = ps.length := hps.length_eq.symm
  rw [hax] at hm
  have hcl : q.cells.length = ps.length := hlen.symm
  rw [hcells'] at hf
  rw [hcells'] at hfi
  obtain ⟨r, e4, e5⟩ := select_refined pf hps hpp (by rw [hlen]; exact h.1.pos) (by rw [hlen]; exact h6) hm hf hmi hfi
    (fun i h1 j _ => by
      have hil : i.length = ps.length := by
        rw [inRange_length h1, List.length_zipWith, List.length_map, hpl]; simp
      have t1 := part_local hps hil hpp
      have t2 := part_cell hps hil hpp
      have hdx : (q.part ps).axes.map (·.dx) = q.axes.map (·.dx) := by
        rw [hax]; simp only [DgCase.part, List.map_map]; rfl
      rw [hdx]
      congr 2
      simp only [Dg.dirValue, cellValue]
      rw [hax]
      simp only [DgCase.part, t2]
      rw [← t1]) d
  exact ⟨g₁, v₁, d₁, g, v, r, gi, vi, e1, e2, e3, e4, e5⟩

namespace DgEx

/-- The hypotheses of C142 are met, for the derivative along the second axis. -/
example : (storedCase 2 : DgCase ℚ).Fits none none none stored ∧
    Dg.derivFns (storedCase 2 : DgCase ℚ).cells.length (storedCase 2 : DgCase ℚ).order (storedCase 2 : DgCase ℚ).basis true =
      .ok (storedCase 2 : DgCase ℚ).fns ∧
    (∀ i, some 1 = some i → i < (storedCase 2 : DgCase ℚ).cells.length) ∧
    (storedCase 2 : DgCase ℚ).axes = portions.map (·.axis) ∧
    List.Forall₂ Portion.OK portions (List.replicate 2 2) ∧ (storedCase 2 : DgCase ℚ).cells.length ≤ 6 := by
  refine ⟨(stored_fits true).1, fns_deriv, by simp [storedCase], rfl, ?_, by simp [storedCase]⟩
  refine .cons ⟨by norm_num, by norm_num, .index 1 (by norm_num), .range 2 4 (by norm_num) (by norm_num [Axis.refine])⟩
    (.cons ⟨by norm_num, by norm_num, .from 1 (by norm_num), .range 2 6 (by norm_num) (by norm_num [Axis.refine])⟩ .nil)

end DgEx

end Pgkyl
