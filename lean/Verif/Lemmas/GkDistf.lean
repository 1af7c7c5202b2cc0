import Verif.Model.GkDistf
import Verif.Spec.GkDistf
import Verif.Lemmas.DgCommands
import Verif.Props.GkDistf
import Mathlib.Algebra.BigOperators.Field
/-! # Lemmas: distribution functions from data with Jacobians -/

namespace Pgkyl.Gk
open Spec Dg Cmd

section
variable {F : Type} [_root_.Field F]

/-- Interpolation with the given options. -/
theorem interpolated_ok [CharZero F] {q : DgCase F} {b : String} {ni : Option Nat} {d : GData F}
    (h : q.Fits (some 1) (some b) ni d) {comp : Comp} {cs : List Nat} (hcs : comp.list = .ok cs)
    (hm : ∀ c ∈ cs, (c + 1) * q.fns.length ≤ q.m) :
    ∃ g w, interpolated b ni d comp = .ok (g, w) ∧ IsMesh g q.fine ∧
      IsField w (List.zipWith (· * ·) q.cells (perCell q.basis q.cells.length q.points)) cs.length
        (fun idx j => q.value (cs.getD j 0) (List.zipWith (· / ·) idx (perCell q.basis q.cells.length q.points))
          (midPt q.fine idx)) := by
  obtain ⟨src, o, h0, h1, h2, h3, e1, e2, e3, e4⟩ := dgOf_source h
  obtain ⟨hs, hc, hsup⟩ := h
  obtain ⟨g, w, hw, hg, hf⟩ := C36_interpolate h1 h3 (by rw [e1, e2]; exact hsup.fns)
    (fun hd he => by
      have := hsup.line hd
      rw [e2] at he
      rw [he] at this
      exact absurd this (by decide))
    (by rw [e1, e2]; exact hsup.zero) e3 hc.two hcs hm
  rw [e2] at hg hf
  refine ⟨g, w, ?_, hg, hf⟩
  unfold interpolated
  simp only [h0, h3, bind, Except.bind]
  exact hw

/-- The data with the values of each cell divided by a number. -/
def over (q : DgCase F) (w : List Nat → F) : DgCase F := { q with f := fun c k => q.f c k / w c }

theorem over_value (q : DgCase F) (w : List Nat → F) (j : Nat) (c : List Nat) (z : List F) :
    (over q w).value j c z = q.value j c z / w c := by
  unfold DgCase.value cellValue expand over
  simp only
  rw [Finset.sum_div]
  exact Finset.sum_congr rfl fun k _ => by ring

omit [_root_.Field F] in
theorem chosen_other [_root_.Field F] {q q' : DgCase F} {p : Nat} {b : String} {ni : Option Nat} {d d' : GData F} (h : q.Chosen (some p) (some b) ni d)
    (ho : q'.order = q.order) (hb : q'.basis = q.basis) (hp : q'.points = q.points) :
    q'.Chosen (some p) (some b) ni d' := by
  refine ⟨?_, ?_, ?_, by rw [hp]; exact h.two⟩
  · rcases h.order with h | ⟨h, -⟩
    · exact .inl (by rw [ho]; exact h)
    · cases h
  · rcases h.basis with h | ⟨h, -⟩
    · exact .inl (by rw [hb]; exact h)
    · cases h
  · rw [hp, ho]; exact h.points

theorem overJacobvel_ok [Min F] [Max F] {q : DgCase F} {b : String} {ni : Option Nat} {d e : GData F}
    (h : q.Fits (some 1) (some b) ni d) {g' : List (NArr F)} {w : List Nat → F} (he : HoldsField e g' q.cells 1 fun i _ => w i) :
    ∃ r, overJacobvel d e = .ok r ∧ (over q w).Fits (some 1) (some b) ni r := by
  obtain ⟨⟨⟨g, ⟨h1, h2, h3, v, h4, h5⟩, hm⟩, ⟨hc, hnc⟩, ht, hce, hx, hp⟩, hch, hsup⟩ := h
  obtain ⟨-, -, -, v', k4, k5⟩ := he
  obtain ⟨a, ha, hf⟩ := gives_zip_one (· / ·) h5 k5
  obtain ⟨r, hr, hh⟩ := push_field h2 h3 hf (GData.new "default".toList [] d.ctx)
  refine ⟨r, ?_, ⟨⟨g, hh, hm⟩, ?_, ?_, hce, hx, hp⟩, chosen_other hch rfl rfl rfl, ⟨hsup.fns, hsup.line, hsup.zero, hsup.fields⟩⟩
  · simp only [overJacobvel, h1, h4, k4, ha, bind, Except.bind]
    exact hr
  · obtain ⟨nc, l, u, e1, -, -, rfl⟩ := GData.push_eq_ok hr
    rw [hf.shape] at e1 ⊢
    simp only [List.getLast?_append, List.getLast?_singleton, Option.some_or, Option.some.injEq] at e1
    subst e1
    refine ⟨by simp [GData.numDims, GData.numCells, over], ?_⟩
    simp only [GData.numComps, over]
    split
    · rename_i h; simp only [Option.some.injEq] at h; exact h.symm
    · simp [hf.shape]
  · rw [(push_tag hr).2.2.1]; exact ht

/-! ### The product over configuration space -/

omit [_root_.Field F] in
theorem bcastRev_ones : ∀ (b a : List Nat), bcastRev (b ++ a) (List.replicate b.length 1 ++ a) = some (b ++ a)
  | [], a => by simpa using bcastRev_self a
  | x :: b, a => by
    simp only [List.cons_append, List.length_cons, List.replicate_succ, bcastRev, bcastRev_ones b a, Option.map_some]
    split
    · rfl
    · simp

omit [_root_.Field F] in
theorem bcastShape_ones (a b : List Nat) : bcastShape (a ++ b) (a ++ List.replicate b.length 1) = some (a ++ b) := by
  unfold bcastShape
  have := bcastRev_ones b.reverse a.reverse
  simp only [List.reverse_append, List.reverse_replicate, List.length_reverse] at this ⊢
  rw [this]
  simp

omit [_root_.Field F] in
theorem bcastIdxRev_ones : ∀ (j : List Nat) {a i : List Nat}, inRange a i = true →
    bcastIdxRev (List.replicate j.length 1 ++ a) (j ++ i) = List.replicate j.length 0 ++ i
  | [], a, i, h => by simpa using bcastIdxRev_self h
  | y :: j, a, i, h => by
    simp only [List.cons_append, List.length_cons, List.replicate_succ, bcastIdxRev, if_true, bcastIdxRev_ones j h]

omit [_root_.Field F] in
theorem bcastIdx_ones {a i j : List Nat} (h : inRange a i = true) :
    bcastIdx (a ++ List.replicate j.length 1) (i ++ j) = i ++ List.replicate j.length 0 := by
  unfold bcastIdx
  have := bcastIdxRev_ones j.reverse (inRange_reverse h)
  simp only [List.reverse_append, List.reverse_replicate, List.length_reverse] at this ⊢
  rw [this]
  simp

omit [_root_.Field F] in
theorem ravel_ones : ∀ {a i : List Nat} (k : Nat), inRange a i = true →
    ravel (a ++ List.replicate k 1) (i ++ List.replicate k 0) = ravel a i ∧
      inRange (a ++ List.replicate k 1) (i ++ List.replicate k 0) = true
  | [], [], k, _ => by
    induction k with
    | zero => exact ⟨rfl, rfl⟩
    | succ k ih =>
      simp only [List.nil_append, List.replicate_succ, ravel, inRange, Bool.and_eq_true, decide_eq_true_eq] at ih ⊢
      exact ⟨by rw [ih.1]; simp, by omega, ih.2⟩
  | [], _ :: _, _, h => by simp [inRange] at h
  | _ :: _, [], _, h => by simp [inRange] at h
  | n :: a, x :: i, k, h => by
    simp only [inRange, Bool.and_eq_true, decide_eq_true_eq] at h
    obtain ⟨h1, h2⟩ := ravel_ones k h.2
    simp only [List.cons_append, ravel, inRange, h1, h2, Bool.and_true, decide_eq_true_eq]
    exact ⟨by simp, h.1⟩

omit [_root_.Field F] in
theorem inRange_append_take : ∀ {a b i : List Nat}, inRange (a ++ b) i = true →
    inRange a (i.take a.length) = true ∧ (i.drop a.length).length = b.length
  | [], b, i, h => by
    rw [inRange_iff_forall₂] at h
    exact ⟨by simp [inRange], by simpa using h.length_eq⟩
  | n :: a, b, [], h => by simp [inRange] at h
  | n :: a, b, x :: i, h => by
    simp only [List.cons_append, inRange, Bool.and_eq_true, decide_eq_true_eq] at h
    obtain ⟨h1, h2⟩ := inRange_append_take h.2
    simp only [List.length_cons, List.take_succ_cons, inRange, h.1, h1, decide_true, Bool.and_self, List.drop_succ_cons]
    exact ⟨trivial, h2⟩

omit [_root_.Field F] in
/-- `np.squeeze` of one component without axes of length one. -/
theorem squeeze_field {v : NArr F} {cells : List Nat} {f : List Nat → Nat → F} (hv : IsField v cells 1 f) (h1 : 1 ∉ cells) :
    v.squeeze.shape = cells ∧ v.squeeze.WF ∧ ∀ i, inRange cells i = true → v.squeeze.get? i = some (f i 0) := by
  have hs : v.squeeze.shape = cells := by
    simp only [NArr.squeeze, hv.shape, List.filter_append]
    rw [List.filter_eq_self.2 (by
      intro x hx
      simp only [ne_eq, decide_not, Bool.not_eq_eq_eq_not, Bool.not_true, decide_eq_false_iff_not]
      rintro rfl
      exact h1 hx)]
    simp
  refine ⟨hs, ?_, fun i hi => ?_⟩
  · have := hv.wf
    simp only [NArr.WF] at this ⊢
    rw [hs]
    simp only [NArr.squeeze, this, hv.shape, List.prod_append]
    simp
  · have hr : inRange (cells ++ [1]) (i ++ [0]) = true := by
      rw [inRange_iff_forall₂] at hi ⊢
      exact List.rel_append hi (.cons (by decide) .nil)
    have := squeeze_get? hv.shape hr
    rw [show dropOnes (cells ++ [1]) (i ++ [0]) = i by
      simpa using dropOnes_leading 0 h1 (by simpa using hi)] at this
    rw [this]
    exact hv.get i hi 0 (by omega)

/-- The product of a field on phase space and one on configuration space. -/
theorem timesJacobian_ok {v w : NArr F} {a b : List Nat} {f h : List Nat → Nat → F} (hv : IsField v (a ++ b) 1 f)
    (hw : IsField w a 1 h) (h1 : 1 ∉ a ++ b) :
    ∃ r, timesJacobian v w = .ok r ∧ IsField r (a ++ b) 1 fun i _ => f i 0 * h (i.take a.length) 0 := by
  obtain ⟨s1, w1, g1⟩ := squeeze_field hv h1
  obtain ⟨s2, w2, g2⟩ := squeeze_field hw fun hx => h1 (List.mem_append_left _ hx)
  have hsh : bcastShape v.squeeze.shape (a ++ List.replicate b.length 1) = some (a ++ b) := by
    rw [s1]; exact bcastShape_ones a b
  have hidx : ∀ i, inRange (a ++ b) i = true → bcastIdx (a ++ List.replicate b.length 1) i =
      i.take a.length ++ List.replicate b.length 0 := by
    intro i hi
    obtain ⟨k1, k2⟩ := inRange_append_take hi
    have := bcastIdx_ones (j := i.drop a.length) k1
    rw [k2, List.take_append_drop] at this
    exact this
  obtain ⟨c, hc, hcs, hcw, hcg⟩ := NArr.zip2_ok (f := fun x y : F => x * y) (a := v.squeeze)
    (b := ⟨a ++ List.replicate b.length 1, w.squeeze.data⟩) hsh w1 (by
      simp only [NArr.WF, s2] at w2 ⊢
      rw [w2]; simp)
    (fun i hi => by rw [s1, bcastIdx_self hi]; exact hi)
    (fun i hi => by
      simp only
      rw [hidx i hi]
      exact (ravel_ones _ (inRange_append_take hi).1).2)
  refine ⟨⟨c.shape ++ [1], c.data⟩, ?_, ?_, by simp only [hcs], ?_⟩
  · unfold timesJacobian
    simp only [bind, Except.bind, s1, s2, List.length_append, Nat.add_sub_cancel_left]
    rw [hc]
    rfl
  · simp only [NArr.WF] at hcw ⊢
    rw [hcw]; simp
  · intro i hi k hk
    obtain rfl : k = 0 := by omega
    have hr := ravel_ones 1 hi
    have e : (⟨c.shape ++ [1], c.data⟩ : NArr F).get? (i ++ [0]) = c.get? i := by
      have h1 := hr.1
      have h2 := hr.2
      simp only [List.replicate_one] at h1 h2
      simp only [NArr.get?, hcs, hi, h1, h2]
    rw [e, hcg i hi]
    have hr2 := ravel_ones b.length (inRange_append_take hi).1
    have e2 : (⟨a ++ List.replicate b.length 1, w.squeeze.data⟩ : NArr F).get? (i.take a.length ++ List.replicate b.length 0)
        = w.squeeze.get? (i.take a.length) := by
      simp only [NArr.get?, s2, hr2.1, hr2.2, (inRange_append_take hi).1]
    simp only [s1, bcastIdx_self hi, hidx i hi, e2, g1 i hi, g2 _ (inRange_append_take hi).1]
    rfl

/-! ### The mesh of the two factors -/

omit [_root_.Field F] in
theorem configDims_bounds {D : Nat} (h : 1 ≤ configDims D) (h0 : D ≠ 0) (h1 : D ≠ 1) : 2 ≤ D ∧ configDims D < D := by
  match D with
  | 0 => exact absurd rfl h0
  | 1 => exact absurd rfl h1
  | 2 => decide
  | 3 => decide
  | 4 => decide
  | 5 => decide
  | n + 6 =>
    exfalso
    have : configDims (n + 6) = 0 := by
      simp [configDims]
    omega

omit [_root_.Field F] in
theorem perCell_take {D n : Nat} (h2 : 2 ≤ D) (hlt : configDims D < D) :
    (perCell "gkhybrid" D n).take (configDims D) = List.replicate (configDims D) n := by
  apply List.ext_getElem
  · simp [perCell]; omega
  · intro i h1 h3
    simp only [List.length_replicate] at h3
    simp only [perCell, List.getElem_take, List.getElem_map, List.getElem_range, List.getElem_replicate]
    rw [if_neg]
    simp only [show ¬ D < 2 by omega, if_false, if_true, Option.some.injEq]
    unfold configDims at h3
    omega

omit [_root_.Field F] in
theorem perCell_two {b : String} {D n : Nat} (h : 2 ≤ n) : ∀ k ∈ perCell b D n, 2 ≤ k := by
  intro m hm
  simp only [perCell, List.mem_map] at hm
  obtain ⟨d, -, rfl⟩ := hm
  generalize (if D < 2 then none else _ : Option Nat) = v
  by_cases h : v = some d
  · rw [if_pos h]; omega
  · rw [if_neg h]; omega

omit [_root_.Field F] in
theorem one_not_mem : ∀ {a b : List Nat}, (∀ k ∈ b, 2 ≤ k) → 1 ∉ List.zipWith (· * ·) a b
  | [], _, _ => by simp
  | _ :: _, [], _ => by simp
  | x :: a, k :: b, h => by
    simp only [List.zipWith_cons_cons, List.mem_cons, not_or]
    refine ⟨fun he => ?_, one_not_mem fun k hk => h k (by simp [hk])⟩
    have := h k (by simp)
    have := Nat.eq_one_of_mul_eq_one_left he.symm
    omega

theorem midPt_take : ∀ (k : Nat) (axes : List (Axis F)) (idx : List Nat),
    (midPt axes idx).take k = midPt (axes.take k) (idx.take k)
  | 0, _, _ => by simp [midPt]
  | _ + 1, [], _ => by simp [midPt]
  | _ + 1, _ :: _, [] => by simp [midPt]
  | k + 1, a :: as, i :: is => by simp [midPt, midPt_take k as is]

omit [_root_.Field F] in
theorem name_gkhyb {bb : String} (h : ("gkhyb", bb) ∈ basisNames) : bb = "gkhybrid" := by
  simp only [basisNames, List.mem_cons, List.not_mem_nil, or_false, Prod.mk.injEq] at h
  rcases h with ⟨h, -⟩ | ⟨h, -⟩ | ⟨h, -⟩ | ⟨h, rfl⟩ | ⟨h, h'⟩ <;>
    first | rfl | exact absurd h (by decide)

omit [_root_.Field F] in
theorem name_ms {bb : String} (h : ("ms", bb) ∈ basisNames) : bb = "serendipity" := by
  simp only [basisNames, List.mem_cons, List.not_mem_nil, or_false, Prod.mk.injEq] at h
  rcases h with ⟨h, h'⟩ | ⟨h, h'⟩ | ⟨h, h'⟩ | ⟨h, h'⟩ | ⟨h, h'⟩ <;>
    first | exact h' | exact absurd h (by decide)

omit [_root_.Field F] in
theorem chosen_one {q : DgCase F} {b : String} {ni : Option Nat} {d : GData F} (h : q.Chosen (some 1) (some b) ni d) :
    (b, q.basis) ∈ basisNames ∧ q.points = ni.getD 2 := by
  have ho : q.order = 1 := by
    rcases h.order with h | ⟨h, -⟩
    · simpa using h.symm
    · cases h
  constructor
  · rcases h.basis with ⟨n, h, hm⟩ | ⟨h, -⟩
    · cases h; exact hm
    · cases h
  · rcases h.points with h | ⟨h, h'⟩
    · rw [h]; rfl
    · rw [h, h', ho]; rfl

theorem fine_cells {q : DgCase F} {d : GData F} (h : q.StoredIn d) : q.axes.length = q.cells.length := by
  rw [← h.cells_eq, List.length_map]

/-- The product of the data divided by the velocity Jacobian, and the inverse Jacobian of configuration space. -/
theorem distf_core [CharZero F] {c : DistfCase F} {ni : Option Nat} {jf ji : GData F}
    (hch : c.jf.Chosen (some 1) (some "gkhyb") ni jf) (hsup : c.jf.Supported) (hpos : 1 ≤ c.jf.cells.length)
    (hce : c.jf.axes.map (·.cells) = c.jf.cells) (hconf : c.ji.Fits (some 1) (some "ms") ni ji)
    (hdims : c.ji.cells.length = configDims c.jf.cells.length)
    (hsame : c.ji.axes = c.jf.axes.take (configDims c.jf.cells.length)) {v : NArr F}
    (hv : IsField v (List.zipWith (· * ·) c.jf.cells (perCell c.jf.basis c.jf.cells.length c.jf.points)) 1
      fun i _ => (over c.jf c.jv).value 0 (List.zipWith (· / ·) i (perCell c.jf.basis c.jf.cells.length c.jf.points)) (midPt c.jf.fine i)) :
    c.jf.basis = "gkhybrid" ∧ configDims c.jf.cells.length < c.jf.cells.length ∧ 1 ≤ configDims c.jf.cells.length ∧
    ∃ g' w r, interpolated "ms" ni ji (.int 0) = .ok (g', w) ∧ timesJacobian v w = .ok r ∧
      IsField r c.fineCells 1 fun i _ => c.f i := by
  obtain ⟨g', w, e3, hg', hw⟩ := interpolated_ok hconf (comp := .int 0) (cs := [0]) rfl (by
    have := hconf.2.2.fields.2
    simpa using this)
  obtain ⟨n1, p1⟩ := chosen_one hch
  obtain ⟨n2, p2⟩ := chosen_one hconf.2.1
  have b1 := name_gkhyb n1
  have b2 := name_ms n2
  have hD1 : c.jf.cells.length ≠ 1 := by
    intro he
    have := hsup.line he
    rw [b1] at this
    exact absurd this (by decide)
  obtain ⟨hD2, hlt⟩ := configDims_bounds (by rw [← hdims]; exact hconf.1.pos) (by omega) hD1
  refine ⟨b1, hlt, by rw [← hdims]; exact hconf.1.pos, ?_⟩
  have hpp : c.ji.points = c.jf.points := by rw [p1, p2]
  have hcell : c.ji.cells = c.jf.cells.take (configDims c.jf.cells.length) := by
    rw [← hconf.1.cells_eq, hsame, ← hce]
    simp
  have hpt := perCell_take (n := c.jf.points) hD2 hlt
  have hper : perCell c.ji.basis c.ji.cells.length c.ji.points =
      (perCell "gkhybrid" c.jf.cells.length c.jf.points).take (configDims c.jf.cells.length) := by
    rw [hpt, b2, perCell_plain (by decide) (by decide), hdims, hpp]
  have hfine : c.ji.fine = c.jf.fine.take (configDims c.jf.cells.length) := by
    unfold DgCase.fine refineAll
    rw [hper, hsame, b1, List.take_zipWith]
  have hfc : List.zipWith (· * ·) c.ji.cells (perCell c.ji.basis c.ji.cells.length c.ji.points) =
      c.fineCells.take (configDims c.jf.cells.length) := by
    rw [hper, hcell, DistfCase.fineCells, List.take_zipWith]
  rw [hfc] at hw
  have hv' : IsField v (c.fineCells.take (configDims c.jf.cells.length) ++ c.fineCells.drop (configDims c.jf.cells.length)) 1
      fun i _ => c.jf.value 0 (c.cellOf i) (midPt c.jf.fine i) / c.jv (c.cellOf i) := by
    rw [List.take_append_drop]
    have hv2 := hv
    rw [b1] at hv2
    refine IsField.congr hv2 ?_
    intro i hi k hk
    rw [over_value]
    rfl
  have hlen : (c.fineCells.take (configDims c.jf.cells.length)).length = configDims c.jf.cells.length := by
    rw [← hfc, List.length_zipWith, perCell_length, hdims, Nat.min_self]
  obtain ⟨r, e4, hr⟩ := timesJacobian_ok hv' hw (by
    rw [List.take_append_drop]
    exact one_not_mem (perCell_two hch.two))
  refine ⟨g', w, r, e3, e4, ?_⟩
  rw [List.take_append_drop] at hr
  refine IsField.congr hr ?_
  intro i hi k hk
  rw [hlen, hper, hfine]
  simp only [DistfCase.f, List.getD_cons_zero, hdims, DistfCase.cellOf, List.take_zipWith, midPt_take]

/-- The values of the distribution function. -/
theorem distf_values [CharZero F] [Min F] [Max F] {c : DistfCase F} {ni : Option Nat} {jf jv ji : GData F} (h : c.Stored ni jf jv ji) :
    ∃ fj g v g' w r, overJacobvel jf jv = .ok fj ∧ interpolated "gkhyb" ni fj (.int 0) = .ok (g, v) ∧
      interpolated "ms" ni ji (.int 0) = .ok (g', w) ∧ timesJacobian v w = .ok r ∧ IsMesh g c.jf.fine ∧
      IsField r c.fineCells 1 fun i _ => c.f i := by
  obtain ⟨g0, hvel⟩ := h.velocity
  obtain ⟨fj, e1, hfj⟩ := overJacobvel_ok h.data hvel
  obtain ⟨g, v, e2, hg, hv⟩ := interpolated_ok hfj (comp := .int 0) (cs := [0]) rfl (by
    have := h.data.2.2.fields.2
    simpa [over] using this)
  obtain ⟨-, -, -, g', w, r, e3, e4, hr⟩ := distf_core h.data.2.1 h.data.2.2 h.data.1.pos h.data.1.cells_eq h.config h.dims h.sameMesh
    (v := v) (IsField.congr hv fun i hi k hk => by
      obtain rfl : k = 0 := by simpa using hk
      rfl)
  exact ⟨fj, g, v, g', w, r, e1, e2, e3, e4, hg, hr⟩

/-! ### The mapping of the configuration space axes -/

omit [_root_.Field F] in
theorem zipWith_replicate_div : ∀ (i : List Nat) (n : Nat), List.zipWith (· / ·) i (List.replicate i.length n) = i.map (· / n)
  | [], _ => rfl
  | x :: i, n => by simp [List.replicate_succ, zipWith_replicate_div i n]

omit [_root_.Field F] in
theorem zipWith_replicate_mul : ∀ (i : List Nat) (n : Nat), List.zipWith (· * ·) i (List.replicate i.length n) = i.map (· * n)
  | [], _ => rfl
  | x :: i, n => by simp [List.replicate_succ, zipWith_replicate_mul i n]

omit [_root_.Field F] in
theorem inRange_zeros : ∀ {sh : List Nat}, (∀ n ∈ sh, 1 ≤ n) → inRange sh (List.replicate sh.length 0) = true
  | [], _ => rfl
  | n :: sh, h => by
    simp only [List.length_cons, List.replicate_succ, inRange, Bool.and_eq_true, decide_eq_true_eq]
    exact ⟨h n (by simp), inRange_zeros fun k hk => h k (by simp [hk])⟩

omit [_root_.Field F] in
theorem inRange_line : ∀ {sh : List Nat} {d n i : Nat}, (∀ n ∈ sh, 1 ≤ n) → sh[d]? = some n → i < n →
    inRange sh ((List.replicate sh.length 0).set d i) = true
  | [], _, _, _, _, h, _ => by simp at h
  | m :: sh, 0, n, i, h, hn, hi => by
    simp only [List.getElem?_cons_zero, Option.some.injEq] at hn
    subst hn
    simp only [List.length_cons, List.replicate_succ, List.set_cons_zero, inRange, Bool.and_eq_true, decide_eq_true_eq]
    exact ⟨hi, inRange_zeros fun k hk => h k (by simp [hk])⟩
  | m :: sh, d + 1, n, i, h, hn, hi => by
    simp only [List.getElem?_cons_succ] at hn
    simp only [List.length_cons, List.replicate_succ, List.set_cons_succ, inRange, Bool.and_eq_true, decide_eq_true_eq]
    exact ⟨h m (by simp), inRange_line (fun k hk => h k (by simp [hk])) hn hi⟩

/-- One line of values. -/
theorem alongAxis_ok {v : NArr F} {cells : List Nat} {f : List Nat → Nat → F} (hv : IsField v cells cells.length f)
    (hpos : ∀ n ∈ cells, 1 ≤ n) {d n : Nat} (hd : cells[d]? = some n) :
    alongAxis v d cells.length = .ok ((List.range n).map fun i => f ((List.replicate cells.length 0).set d i) d) := by
  have hlt : d < cells.length := (List.getElem?_eq_some_iff.1 hd).1
  unfold alongAxis
  rw [if_neg (by rw [hv.shape]; simp), hv.shape, List.getElem?_append_left hlt, hd]
  refine mapM_range_ok (by simp) ?_
  intro i a ha
  simp only [List.getElem?_map, Option.map_eq_some_iff] at ha
  obtain ⟨k, hk, rfl⟩ := ha
  have hin : i < n := by
    have := (List.getElem?_eq_some_iff.1 hk).1
    simpa using this
  rw [List.getElem?_range hin] at hk
  cases hk
  have e : ((List.replicate (cells.length + 1) 0).set d i).set cells.length d =
      (List.replicate cells.length 0).set d i ++ [d] := by
    rw [List.replicate_succ', List.set_append_left _ _ (by simpa using hlt), List.set_append_right _ _ (by simp)]
    simp
  rw [e, hv.get _ (inRange_line hpos hd hin) d hlt]

theorem nodesFor_ok [CharZero F] {c : List F} (hc : 2 ≤ c.length) :
    ∃ nodes, toNodal 0 (1 / ((2 : Nat) : F)) c = .ok nodes ∧ NodesFor c nodes := by
  obtain ⟨nodes, h, h1, h2, h3, h4⟩ := C47_nodes hc
  exact ⟨nodes, by simpa using h, h1, h2, h3, h4⟩

/-- The new grid. -/
theorem applyMap_ok [CharZero F] {load : Str → Option Str → Except Err (GData F)} {file : Str} {d : GData F}
    (hl : load file none = .ok d) {m : DgCase F} {ni : Option Nat} (h : m.Fits (some 1) (some "ms") ni d)
    (hm : m.cells.length * m.fns.length ≤ m.m) (hpos : ∀ n ∈ m.cells, 1 ≤ n) {g : List (NArr F)} (hg : m.cells.length ≤ g.length) :
    ∃ g', applyMap load g file ni = .ok g' ∧ IsMapped m g g' := by
  have hnd : d.numDims = m.cells.length := h.1.counts.1
  have hp := h.1.pos
  obtain ⟨k0, hk0⟩ : ∃ k, m.cells.length = k + 1 := ⟨m.cells.length - 1, by omega⟩
  obtain ⟨g0, v, e1, -, hv⟩ := interpolated_ok h (comp := .tuple (List.range m.cells.length)) (cs := List.range m.cells.length)
    (by rw [hk0, List.range_succ_eq_map]; rfl)
    (by
      intro c hc
      have : c + 1 ≤ m.cells.length := by simpa using hc
      exact (Nat.mul_le_mul_right _ this).trans hm)
  obtain ⟨n1, -⟩ := chosen_one h.2.1
  have b1 := name_ms n1
  have hper : perCell m.basis m.cells.length m.points = List.replicate m.cells.length m.points := by
    rw [b1, perCell_plain (by decide) (by decide)]
  rw [hper, zipWith_replicate_mul, List.length_range] at hv
  have hlen : (m.cells.map (· * m.points)).length = m.cells.length := by simp
  have hv' : IsField v (m.cells.map (· * m.points)) (m.cells.map (· * m.points)).length
      (fun idx j => m.value j (idx.map (· / m.points)) (midPt m.fine idx)) := by
    rw [hlen]
    refine IsField.congr hv ?_
    intro i hi j hj
    have hil : i.length = m.cells.length := by
      rw [inRange_iff_forall₂] at hi
      simpa using hi.length_eq
    rw [← hil, zipWith_replicate_div]
    have : (List.range m.cells.length).getD j 0 = j := by simp [List.getD, List.getElem?_range hj]
    rw [hil, this]
  have hpos' : ∀ n ∈ m.cells.map (· * m.points), 1 ≤ n := by
    intro n hn
    obtain ⟨a, ha, rfl⟩ := List.mem_map.1 hn
    have := hpos a ha
    have := h.2.1.two
    exact Nat.mul_pos (by omega) (by omega)
  have step : ∀ (d n : Nat) (g1 : List (NArr F)), m.cells[d]? = some n → d < g1.length → ∃ nodes,
      mapAxis v m.cells.length g1 d = .ok (g1.set d (NArr.ofList nodes)) ∧ NodesFor (m.lineValues d (n * m.points)) nodes := by
    intro d n g1 hd hlt
    have ha := alongAxis_ok hv' hpos' (d := d) (n := n * m.points) (by simp [hd])
    rw [hlen] at ha
    have hn := hpos n (List.mem_of_getElem? hd)
    obtain ⟨nodes, h1, h2⟩ := nodesFor_ok (c := m.lineValues d (n * m.points)) (by
      simp only [DgCase.lineValues, List.length_map, List.length_range]
      have := h.2.1.two
      nlinarith)
    refine ⟨nodes, ?_, h2⟩
    simp only [mapAxis, ha, bind, Except.bind]
    rw [show ((List.range (n * m.points)).map fun i => m.value d
      (((List.replicate m.cells.length 0).set d i).map (· / m.points)) (midPt m.fine ((List.replicate m.cells.length 0).set d i)))
      = m.lineValues d (n * m.points) from rfl, h1]
    simp only [if_pos hlt]
    rfl
  have main : ∀ k ≤ m.cells.length, ∃ g', (List.range k).foldlM (mapAxis v m.cells.length) g = .ok g' ∧ g'.length = g.length ∧
      (∀ d, k ≤ d → g'[d]? = g[d]?) ∧
      ∀ d n, d < k → m.cells[d]? = some n → ∃ nodes, g'[d]? = some (NArr.ofList nodes) ∧ NodesFor (m.lineValues d (n * m.points)) nodes := by
    intro k
    induction k with
    | zero => exact fun _ => ⟨g, rfl, rfl, fun _ _ => rfl, fun _ _ h => absurd h (by omega)⟩
    | succ k ih =>
      intro hk
      obtain ⟨g1, i1, i2, i3, i4⟩ := ih (by omega)
      obtain ⟨n, hn⟩ : ∃ n, m.cells[k]? = some n := ⟨m.cells[k], List.getElem?_eq_getElem (by omega)⟩
      obtain ⟨nodes, j1, j2⟩ := step k n g1 hn (by omega)
      refine ⟨g1.set k (NArr.ofList nodes), ?_, by simpa using i2, fun d hd => ?_, fun d n' hd hn' => ?_⟩
      · rw [List.range_succ, List.foldlM_append, i1]
        simp only [bind, Except.bind, List.foldlM_cons, j1]
        rfl
      · rw [List.getElem?_set_ne (by omega), i3 d (by omega)]
      · by_cases hdk : d = k
        · subst hdk
          rw [hn] at hn'
          cases hn'
          exact ⟨nodes, by rw [List.getElem?_set_self (by omega)], j2⟩
        · obtain ⟨nodes', k1, k2⟩ := i4 d n' (by omega) hn'
          exact ⟨nodes', by rw [List.getElem?_set_ne (by omega), k1], k2⟩
  obtain ⟨g', m1, m2, m3, m4⟩ := main _ le_rfl
  refine ⟨g', ?_, m2, m3, fun d n hd => m4 d n (List.getElem?_eq_some_iff.1 hd).1 hd⟩
  simp only [applyMap, hl, bind, Except.bind, hnd, e1]
  exact m1

end

end Pgkyl.Gk
