import Verif.Lemmas.GkDistf
import Verif.Spec.GkDistfVel
import Verif.Props.DgC2p
/-! # Lemmas: distribution functions on mapped velocity grids -/

namespace Pgkyl.Gk
open Spec Dg Cmd

section
variable {F : Type} [_root_.Field F]

/-- The basis guessed from the number of coefficients on a line. -/
theorem basisOf_line {p : Nat} (h1 : 1 ≤ p) (h4 : p ≤ 4) :
    ∃ b q, basisOf 1 (p + 1) = .ok (some (b, q)) ∧ interpFns 1 q b true = interpFns 1 p "serendipity" true := by
  obtain rfl | rfl | rfl | rfl : p = 1 ∨ p = 2 ∨ p = 3 ∨ p = 4 := by omega
  · exact ⟨"serendipity", 1, by decide +kernel, rfl⟩
  · exact ⟨"tensor", 2, by decide +kernel, by decide +kernel⟩
  · exact ⟨"tensor", 3, by decide +kernel, by decide +kernel⟩
  · exact ⟨"tensor", 4, by decide +kernel, by decide +kernel⟩

/-- The position in the cell, on the unit axis. -/
theorem vel_at [CharZero F] (m : VelMapping F) (d n c : Nat) (t : F) :
    cellValue m.fns (unitAxes [n]) (m.coef d c) [c] [t] = m.at d c t := by
  unfold cellValue VelMapping.at
  congr 1
  simp only [unitAxes, List.map_cons, List.map_nil, localPt, Axis.local, Axis.mid, Axis.node]
  congr 1
  push_cast
  field_simp
  ring

variable [CharZero F] [Min F] [Max F]

/-- The values of the distribution function, on the grid with mapped velocities. -/
theorem distf_vel {c : DistfCase F} {m : VelMapping F} {ni : Option Nat} {jf jv ji : GData F} (h : c.StoredVel m ni jf jv ji) :
    ∃ fj g v g' w r, overJacobvel jf jv = .ok fj ∧ interpolated "gkhyb" ni fj (.int 0) = .ok (g, v) ∧
      interpolated "ms" ni ji (.int 0) = .ok (g', w) ∧ timesJacobian v w = .ok r ∧ c.VelMesh m g ∧
      IsField r c.fineCells 1 fun i _ => c.f i := by
  obtain ⟨g0, ⟨h1, h2, h3, v0, h4, h5⟩, hgl, hconf, hvel⟩ := h.data
  obtain ⟨gv, -, -, -, v', k4, k5⟩ := h.velocity
  obtain ⟨p, hp1, hp4, hpl, hfn⟩ := h.mapping
  obtain ⟨a, ha, hf⟩ := gives_zip_one (· / ·) h5 k5
  obtain ⟨fj, hr, hh⟩ := push_field h2 h3 hf (GData.new "default".toList [] jf.ctx)
  have e1 : overJacobvel jf jv = .ok fj := by
    simp only [overJacobvel, h1, h4, k4, ha, bind, Except.bind]
    exact hr
  have hoth : fj.ctx.other = jf.ctx.other := (push_tag hr).2.2.1
  have hcnt : fj.numDims = c.jf.cells.length := by
    obtain ⟨nc, l, u, -, -, -, rfl⟩ := GData.push_eq_ok hr
    simp [GData.numDims, GData.numCells, hf.shape]
  obtain ⟨k1, -, -, w0, k2, k3⟩ := hh
  -- what is interpolated
  obtain ⟨src, hsrc⟩ : ∃ src, src = (⟨fj.numDims, fj.numComps, g0, w0, metaNat fj "poly_order",
    Dict.get? fj.ctx.other "basis_type", "c2p_vel", configDims c.jf.cells.length, c.jf.cells.length - configDims c.jf.cells.length⟩ : Source F) :=
    ⟨_, rfl⟩
  have hs : sourceOf fj = .ok src := by
    have q1 : metaNat fj "num_cdim" = some (configDims c.jf.cells.length) := metaNat_dec (by rw [hoth]; exact h.cdim)
    have q2 : metaNat fj "num_vdim" = some (c.jf.cells.length - configDims c.jf.cells.length) := metaNat_dec (by rw [hoth]; exact h.vdim)
    have q3 : Dict.get? fj.ctx.other "grid_type" = some "c2p_vel" := by rw [hoth]; exact h.gridType
    simp only [sourceOf, k1, k2, q1, q2, q3, Option.getD_some, hsrc]
  obtain ⟨n1, p1⟩ := chosen_one h.chosen
  have b1 := name_gkhyb n1
  have ho1 : c.jf.order = 1 := by
    rcases h.chosen.order with h | ⟨h, -⟩
    · simpa using h.symm
    · cases h
  have hnn := numNodes_of_fns h.supported
  have hD1 : c.jf.cells.length ≠ 1 := by
    intro he
    have := h.supported.line he
    rw [b1] at this
    exact absurd this (by decide)
  obtain ⟨hD2, hlt⟩ := configDims_bounds (by rw [← h.dims]; exact h.config.1.pos) (by have := h.pos; omega) hD1
  have hmi : modalInit src (some 1) (some "gkhyb") ni = .ok ⟨src, 1, "gkhybrid", some c.jf.points, c.jf.fns.length⟩ := by
    refine modalInit_eq rfl ?_ ?_ ?_ ?_
    · have := (basis_names n1 (c := src.basisType)).2
      rw [b1] at this
      exact this
    · rintro ⟨-, h⟩
      exact absurd h (by decide)
    · rw [hsrc]
      simp only [hcnt]
      rw [← ho1, ← b1]
      exact hnn
    · have := h.chosen.two
      rcases h.chosen.points with h | ⟨h, h'⟩
      · exact .inl ⟨h, by omega⟩
      · exact .inr ⟨h, by rw [h', ho1]⟩
  have hal : c.jf.axes.length = c.jf.cells.length := by rw [← h.cells_eq, List.length_map]
  obtain ⟨bg, pg, hb, hb2⟩ := basisOf_line hp1 hp4
  obtain ⟨A, hA⟩ : ∃ A : Nat → Axis F, A = fun d => c.jf.axes.getD d ⟨0, 0, 0⟩ := ⟨_, rfl⟩
  obtain ⟨vc, hvc⟩ : ∃ vc : Nat → Nat, vc = fun d => c.jf.cells.getD (configDims c.jf.cells.length + d) 0 := ⟨_, rfl⟩
  obtain ⟨g, v, e2, hg1, hg2, hg3, hv⟩ := modal_vel (src := src) (cells := c.jf.cells) (m := c.jf.m) (axes := c.jf.axes) (A := A)
    (K := p + 1) (vc := vc) (X := fun d i k => m.coef d (i.headD 0) k) (bg := bg) (pg := pg) (gfns := m.fns)
    (fns := c.jf.fns) (n := c.jf.points) (comp := .int 0) (cs := [0])
    (by rw [hsrc]; exact k3) (by rw [hsrc]; exact hcnt) h.pos h.cells_eq h.dx (by rw [hsrc]) (by rw [hsrc]; exact hgl)
    (by rw [hsrc]; simp only; omega) (by rw [hsrc]; simp only; omega)
    (by
      rw [hsrc]
      intro d hd
      simp only at hd ⊢
      rw [hA]
      have hdl : d < c.jf.axes.length := by omega
      have := hconf d hd c.jf.axes[d] (List.getElem?_eq_getElem hdl)
      simpa [List.getD_eq_getElem?_getD, List.getElem?_eq_getElem hdl] using this)
    (by
      rw [hsrc]
      intro d hd
      simp only at hd ⊢
      have hdl : configDims c.jf.cells.length + d < c.jf.cells.length := by omega
      have := hvel d _ (List.getElem?_eq_getElem hdl)
      rw [hvc, ← hpl]
      simpa [List.getD_eq_getElem?_getD, List.getElem?_eq_getElem hdl] using this)
    hb (by rw [hb2]; exact hfn) hmi (by rw [← ho1, ← b1]; exact h.supported.fns) (fun he => absurd he hD1)
    (fun he => absurd he Nat.one_ne_zero) rfl h.chosen.two rfl (by
      have := h.supported.fields.2
      simpa using this)
  have e3 : interpolated "gkhyb" ni fj (.int 0) = .ok (g, v) := by
    unfold interpolated
    simp only [hs, hmi, bind, Except.bind]
    exact e2
  obtain ⟨-, -, -, g', w, r, e4, e5, hr'⟩ := distf_core h.chosen h.supported h.pos h.cells_eq h.config h.dims h.sameMesh
    (v := v) (by
      rw [b1]
      refine IsField.congr hv fun i hi k hk => ?_
      obtain rfl : k = 0 := by simpa using hk
      rw [DgCase.fine, b1]
      rfl)
  rw [hsrc] at hg2 hg3
  simp only at hg2 hg3
  refine ⟨fj, g, v, g', w, r, e1, e3, e4, e5, ⟨hg1, ?_, ?_⟩, hr'⟩
  · intro d hd a ha
    obtain ⟨x, k, hx, hk, hxa⟩ := hg2 d hd
    refine ⟨x, hx, ?_⟩
    have hdl : d < c.jf.axes.length := by omega
    rw [DgCase.fine, refineAll, b1, List.getElem?_zipWith_eq_some.2 ⟨c.jf.axes[d], k, List.getElem?_eq_getElem hdl, hk, rfl⟩] at ha
    cases ha
    rw [hA] at hxa
    simpa [List.getD_eq_getElem?_getD, List.getElem?_eq_getElem hdl] using hxa
  · intro d n k hn hk
    have hdl := (List.getElem?_eq_some_iff.1 hn).1
    obtain ⟨x, k', hx, hk', hxs, hxi⟩ := hg3 d (by omega)
    rw [hk] at hk'
    cases hk'
    have hvn : vc d = n := by rw [hvc]; simp [List.getD_eq_getElem?_getD, hn]
    rw [hvn] at hxs hxi
    refine ⟨x, hx, hxs, fun i hi => ?_⟩
    obtain ⟨cell, c1, c2, c3, c4⟩ := hxi i hi
    refine ⟨cell, c1, c2, c3, ?_⟩
    rw [c4]
    exact congrArg some (vel_at m d n cell _)

end
end Pgkyl.Gk
