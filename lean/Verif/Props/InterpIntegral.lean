import Verif.Lemmas.InterpIntegral
import Verif.Props.SelectInterp
import Verif.Props.Integrate
/-!
# C131: the integral of interpolated data

Numbers are the real numbers (exact arithmetic).
-/

namespace Pgkyl
open Spec Cmd Dg

theorem node_weight {a : Axis ℝ} {n i : Nat} (hn : n = a.cells) (hi : i < n) : apiWeight a.nodes n i = a.dx := by
  subst hn
  rw [apiWeight, if_neg (by rw [nodes_length]; omega), width, if_neg (by rw [nodes_length]; omega)]
  have hg : ∀ k < a.cells + 1, a.nodes.getD k 0 = a.node k := by
    intro k hk
    rw [Axis.nodes, List.getD_eq_getElem?_getD, List.getElem?_map, List.getElem?_range hk]
    rfl
  rw [hg _ (by omega), hg _ (by omega)]
  simp only [Axis.node]
  push_cast
  ring

/-- What `integrate` returns for interpolated data: the sum over the cells and over the points of each cell. -/
theorem integrate_interpolated {q : DgCase ℝ} {po : Option Nat} {b : Option String} {ni : Option Nat} {d : GData ℝ}
    (h : q.Fits po b ni d) (hpos : ∀ n ∈ q.cells, 0 < n) (h5 : Except Err (List (List ℝ))) :
    ∃ g v r gi vi, interpolateOf h5 po b ni d = .ok (g, v) ∧ d.push g v = .ok r ∧
      Calculus.integrate r .none false = .ok (gi, vi, r) ∧
      vi.shape = List.replicate q.cells.length 1 ++ [q.m / q.fns.length] ∧
      ∀ j < q.m / q.fns.length, vi.get? (List.replicate q.cells.length 0 ++ [j]) =
        some ((indices q.cells).map fun c => (q.fine.map (·.dx)).prod *
          ((indices (perCell q.basis q.cells.length q.points)).map fun s =>
            expand q.fns (fun k => q.f c (j * q.fns.length + k)) (pointAt (perCell q.basis q.cells.length q.points) s)).sum).sum := by
  obtain ⟨g, v, e1, hm, hf⟩ := interpolateOf_ok h5 h
  obtain ⟨ns, hns⟩ : ∃ ns, ns = perCell q.basis q.cells.length q.points := ⟨_, rfl⟩
  have hal : q.axes.length = q.cells.length := by rw [← h.1.cells_eq, List.length_map]
  have hpl : ns.length = q.cells.length := by rw [hns, Dg.perCell_length]
  have hpp : ∀ n ∈ ns, 0 < n := by rw [hns]; exact Dg.perCell_pos (by have := h.2.1.two; omega)
  rw [← hns] at hf ⊢
  have hfl : q.fine.length = q.cells.length := by
    rw [DgCase.fine, ← hns, refineAll_length (by rw [hpl, hal]), hal]
  have hcl : (List.zipWith (· * ·) q.cells ns).length = q.cells.length := by rw [List.length_zipWith, hpl]; simp
  have hfc : q.fine.map (·.cells) = List.zipWith (· * ·) q.cells ns := by
    rw [DgCase.fine, ← hns, refineAll, List.map_zipWith, ← h.1.cells_eq, List.zipWith_map_left]
    rfl
  have hflen : (List.zipWith (· * ·) q.cells ns).length ≤ g.length := by
    rw [(mesh_length hm).1, hfl, hcl]
  obtain ⟨r, e2, hr⟩ := push_field hflen (mesh_length hm).2 hf d
  have htag := push_tag e2
  have hrd : r.numDims = q.cells.length := by
    obtain ⟨nc, l, u, -, -, -, rfl⟩ := GData.push_eq_ok e2
    simp only [GData.numDims, GData.numCells, hf.shape]
    simp [hpl]
  have hrg : r.grid = some ((q.fine.map Axis.nodes).map NArr.ofList) := by
    rw [htag.2.2.2.1, mesh_nodes hm, List.map_map]; rfl
  have hget : ∀ k, k < q.cells.length → ∃ a c n, q.axes[k]? = some a ∧ q.cells[k]? = some c ∧ ns[k]? = some n ∧
      q.fine[k]? = some (a.refine n) ∧ a.cells = c ∧ 0 < c ∧ 0 < n := by
    intro k hk
    obtain ⟨a, ha⟩ : ∃ a, q.axes[k]? = some a := ⟨_, List.getElem?_eq_getElem (by omega)⟩
    obtain ⟨n, hn⟩ : ∃ n, ns[k]? = some n := ⟨_, List.getElem?_eq_getElem (by omega)⟩
    have hc : q.cells[k]? = some a.cells := by rw [← h.1.cells_eq, List.getElem?_map, ha]; rfl
    refine ⟨a, _, n, ha, hc, hn, ?_, rfl, hpos _ (List.mem_of_getElem? hc), hpp _ (List.mem_of_getElem? hn)⟩
    rw [DgCase.fine, ← hns, refineAll, List.getElem?_zipWith, ha, hn]
  have hfit : ApiFitsAll (q.fine.map Axis.nodes) v.shape := by
    refine ⟨by rw [hf.shape]; simp [hfl, hpl], fun k x n hx hn => ?_⟩
    have hk : k < q.cells.length := by
      have := (List.getElem?_eq_some_iff.1 hx).1
      rw [List.length_map, hfl] at this
      exact this
    obtain ⟨a, c, n', h1, h2, h3, h4, h6, h7, h8⟩ := hget k hk
    rw [List.getElem?_map, h4] at hx
    rw [hf.shape, List.getElem?_append_left (by rw [hcl]; exact hk), List.getElem?_zipWith, h2, h3] at hn
    simp only [Option.map_some, Option.some.injEq] at hx hn
    subst hx hn
    have : 0 < c * n' := Nat.mul_pos h7 h8
    left
    rw [nodes_length]
    simp only [Axis.refine, h6]
    exact ⟨by omega, .inl (by rw [nodes_length])⟩
  obtain ⟨vi, d', e3, -, hsh, hd', -, hsum⟩ := C30_api_weighted_sum r hrg htag.2.2.2.2 hf.wf hfit (A := List.range q.cells.length)
    List.nodup_range (fun a ha => by rw [List.length_map, hfl]; exact List.mem_range.1 ha) (arg := .none)
    (by rw [hrd]; exact .none) false
  rw [hd' rfl] at e3
  have hshape : collapsed (List.range q.cells.length) v.shape = List.replicate q.cells.length 1 ++ [q.m / q.fns.length] := by
    rw [hf.shape]
    apply List.ext_getElem?
    intro k
    rw [collapsed, List.getElem?_mapIdx]
    rcases Nat.lt_trichotomy k q.cells.length with hk | hk | hk
    · rw [List.getElem?_append_left (by rw [hcl]; exact hk), List.getElem?_append_left (by simpa using hk),
        List.getElem?_eq_getElem (by rw [hcl]; exact hk)]
      simp [hk]
    · rw [List.getElem?_append_right (by rw [hcl]; omega), List.getElem?_append_right (by simp; omega), hcl]
      simp [hk]
    · rw [List.getElem?_append_right (by rw [hcl]; omega), List.getElem?_append_right (by simp; omega), hcl]
      simp only [List.length_replicate]
      obtain ⟨t, ht⟩ : ∃ t, k - q.cells.length = t + 1 := ⟨k - q.cells.length - 1, by omega⟩
      rw [ht]
      simp
  refine ⟨g, v, r, _, vi, e1, e2, e3, by rw [hsh, hshape], fun j hj => ?_⟩
  have hin : inRange (collapsed (List.range q.cells.length) v.shape) (List.replicate q.cells.length 0 ++ [j]) = true := by
    rw [hshape, inRange_snoc_iff]
    refine ⟨?_, hj⟩
    generalize q.cells.length = t
    clear * -
    induction t with
    | zero => rfl
    | succ t ih => simp only [List.replicate_succ, inRange, ih]; simp
  rw [hsum _ hin]
  congr 1
  have key := cellSum_all (List.zipWith (· * ·) q.cells ns) hj (entry v) (gridWeight (q.fine.map Axis.nodes) v.shape)
  rw [hcl] at key
  have hs := hf.shape
  rw [← hs] at key
  rw [key]
  have hterm : ∀ i ∈ indices (List.zipWith (· * ·) q.cells ns),
      entry v (i ++ [j]) * ((List.range q.cells.length).map fun a => gridWeight (q.fine.map Axis.nodes) v.shape a (i.getD a 0)).prod =
      (fun c s => expand q.fns (fun k => q.f c (j * q.fns.length + k)) (pointAt ns s) * (q.fine.map (·.dx)).prod)
        (List.zipWith (· / ·) i ns) (List.zipWith (· % ·) i ns) := by
    intro i hi
    have hi' := mem_indices.1 hi
    have hil : i.length = q.cells.length := by rw [inRange_length hi', hcl]
    have hw : ((List.range q.cells.length).map fun a => gridWeight (q.fine.map Axis.nodes) v.shape a (i.getD a 0)) =
        q.fine.map (·.dx) := by
      apply List.ext_getElem?
      intro k
      rcases Nat.lt_or_ge k q.cells.length with hk | hk
      · obtain ⟨a, c, n', h1, h2, h3, h4, h6, h7, h8⟩ := hget k hk
        rw [List.getElem?_map, List.getElem?_range hk, List.getElem?_map, h4]
        simp only [Option.map_some, Option.some.injEq]
        have hsk : v.shape.getD k 0 = c * n' := by
          rw [hs, List.getD_eq_getElem?_getD, List.getElem?_append_left (by rw [hcl]; exact hk), List.getElem?_zipWith, h2, h3]
          rfl
        rw [gridWeight, hsk, List.getD_eq_getElem?_getD, List.getElem?_map, h4, Option.map_some, Option.getD_some]
        refine node_weight (by simp [Axis.refine, h6]) ?_
        obtain ⟨t, ht, hlt⟩ := Cmd.inRange_get hi' (c := k) (n := c * n') (by rw [List.getElem?_zipWith, h2, h3])
        rw [List.getD_eq_getElem?_getD, ht, Option.getD_some]
        exact hlt
      · rw [List.getElem?_eq_none (by simpa using hk), List.getElem?_eq_none (by simp [hfl]; exact hk)]
    rw [hw]
    congr 1
    rw [entry, hf.get i hi' j hj, Option.getD_some, DgCase.value, cellValue, DgCase.fine, ← hns,
      ← zipWith_points h.1.dx (by rw [hpl, hal]) (by rw [hil, hal]) hpp]
    rfl
  rw [List.map_congr_left hterm, sum_refined q.cells ns hpl.symm hpp
    fun c s => expand q.fns (fun k => q.f c (j * q.fns.length + k)) (pointAt ns s) * (q.fine.map (·.dx)).prod]
  congr 1
  refine List.map_congr_left fun c _ => ?_
  rw [List.sum_map_mul_right, mul_comm]

/-- **C131**, partial.  Integrating interpolated data over all axes gives the integral of the expansion over the mesh, field by
field, for data of order 0 or 1 in the bases "serendipity", "maximal-order" and "tensor".

Full statement (false, see below): the same for every order. -/
theorem C131_integral_partial {q : DgCase ℝ} {po : Option Nat} {b : Option String} {ni : Option Nat} {d : GData ℝ}
    (h : q.Fits po b ni d) (hpos : ∀ n ∈ q.cells, 0 < n) (hp : q.order ≤ 1)
    (hb : q.basis ∈ ["serendipity", "maximal-order", "tensor"]) (h5 : Except Err (List (List ℝ))) :
    ∃ g v r gi vi, interpolateOf h5 po b ni d = .ok (g, v) ∧ d.push g v = .ok r ∧
      Calculus.integrate r .none false = .ok (gi, vi, r) ∧
      vi.shape = List.replicate q.cells.length 1 ++ [q.m / q.fns.length] ∧
      ∀ j < q.m / q.fns.length, vi.get? (List.replicate q.cells.length 0 ++ [j]) = some (q.integral j) := by
  obtain ⟨g, v, r, gi, vi, e1, e2, e3, e4, e6⟩ := integrate_interpolated h hpos h5
  refine ⟨g, v, r, gi, vi, e1, e2, e3, e4, fun j hj => ?_⟩
  rw [e6 j hj]
  congr 1
  obtain ⟨ns, hns⟩ : ∃ ns, ns = perCell q.basis q.cells.length q.points := ⟨_, rfl⟩
  have hal : q.axes.length = q.cells.length := by rw [← h.1.cells_eq, List.length_map]
  have hpl : ns.length = q.cells.length := by rw [hns, Dg.perCell_length]
  have hpp : ∀ n ∈ ns, 0 < n := by rw [hns]; exact Dg.perCell_pos (by have := h.2.1.two; omega)
  have hml := multilinear_of h.2.2.fns hp hb
  have hfine : (q.fine.map (·.dx)).prod * (ns.map fun (n : Nat) => (n : ℝ)).prod = (q.axes.map fun a => a.dx / 2).prod * 2 ^ q.cells.length := by
    rw [DgCase.fine, ← hns, ← hpl]
    have hl : q.axes.length = ns.length := by rw [hal, hpl]
    generalize q.axes = as at hl
    clear * - hl hpp
    induction as generalizing ns with
    | nil => cases ns with
      | nil => simp [refineAll]
      | cons => simp at hl
    | cons a as ih => cases ns with
      | nil => simp at hl
      | cons n ns =>
        have := ih ns (fun m hm => hpp m (by simp [hm])) (by simpa using hl)
        have hn : (n : ℝ) ≠ 0 := by exact_mod_cast (hpp n (by simp)).ne'
        simp only [refineAll, List.zipWith_cons_cons, List.map_cons, List.prod_cons, List.length_cons, pow_succ, Axis.refine] at this ⊢
        have e : a.dx / (n : ℝ) * (n : ℝ) = a.dx := by field_simp
        linear_combination a.dx * this + (List.map (fun x => x.dx) (List.zipWith Axis.refine as ns)).prod *
          (List.map (fun (n : Nat) => (n : ℝ)) ns).prod * e
  unfold DgCase.integral
  congr 1
  refine List.map_congr_left fun c _ => ?_
  have hse := sum_expand hml (fun k => q.f c (j * q.fns.length + k)) hpl hpp
  rw [← hns]
  have h2 : (2 : ℝ) ^ q.cells.length ≠ 0 := by positivity
  have hn : (ns.map fun (n : Nat) => (n : ℝ)).prod ≠ 0 := by
    rw [ne_eq, List.prod_eq_zero_iff, List.mem_map]
    rintro ⟨n, hn, e⟩
    have := hpp n hn
    have : (n : ℝ) ≠ 0 := by exact_mod_cast this.ne'
    exact this e
  apply mul_right_cancel₀ (mul_ne_zero h2 hn)
  linear_combination (q.fine.map (·.dx)).prod * (ns.map fun (n : Nat) => (n : ℝ)).prod * hse +
    cubeInt q.cells.length (fun ξ => expand q.fns (fun k => q.f c (j * q.fns.length + k)) ξ) * (ns.map fun (n : Nat) => (n : ℝ)).prod * hfine

/-- The mean of the squares of the points is not that of the interval. -/
theorem sum_points_sq (n : Nat) (hn : 0 < n) :
    ((List.range n).map fun s => ((points false n : List ℝ).getD s 0) ^ 2).sum = ((n : ℝ) - 1 / n) / 3 := by
  have hn' : (n : ℝ) ≠ 0 := by exact_mod_cast hn.ne'
  have hpred : ((n - 1 : Nat) : ℝ) = (n : ℝ) - 1 := by rw [Nat.cast_sub (by omega), Nat.cast_one]
  have hs : ∀ (k : Nat) (α β : ℝ), ((List.range k).map fun (s : Nat) => (α + β * (s : ℝ)) ^ 2).sum =
      k * α ^ 2 + 2 * α * β * (k * (k - 1) / 2) + β ^ 2 * ((k - 1) * k * (2 * k - 1) / 6) := by
    intro k α β
    induction k with
    | zero => simp
    | succ k ih => rw [List.range_succ, List.map_append, List.sum_append, ih]; simp; ring
  have : ((List.range n).map fun s => ((points false n : List ℝ).getD s 0) ^ 2) =
      (List.range n).map fun (s : Nat) => (-1 * (n - 1) / n + (2 / n) * s : ℝ) ^ 2 := by
    refine List.map_congr_left fun s hs => ?_
    rw [points, List.getD_eq_getElem?_getD, List.getElem?_map, List.getElem?_range (List.mem_range.1 hs)]
    simp only [Option.map_some, Option.getD_some, Bool.false_eq_true, if_false, hpred]
    push_cast
    ring
  rw [this, hs]
  field_simp
  ring

theorem modal1p2_expand (coef : Nat → ℝ) (x : ℝ) : expand InterpTables.modal1p2 coef [x] =
    coef 0 * (7071067811865468 / 10000000000000000) + coef 1 * (1224744871391589 / 1000000000000000 * x) +
      coef 2 * (-7905694150420951 / 10000000000000000 + 2371708245126285 / 1000000000000000 * x ^ 2) := by
  have hl : InterpTables.modal1p2.length = 3 := rfl
  rw [expand, hl]
  simp only [Finset.sum_range_succ, Finset.sum_range_zero, InterpTables.modal1p2, List.getD_cons_zero, List.getD_cons_succ, Poly.eval,
    List.map_cons, List.map_nil, List.foldl_cons, List.foldl_nil, Mono.eval, powers, powNat_eq]
  push_cast
  ring

theorem modal1p2_integral (coef : Nat → ℝ) : cubeInt 1 (fun ξ => expand InterpTables.modal1p2 coef ξ) =
    coef 0 * (7071067811865468 / 10000000000000000) * 2 +
      coef 2 * (-7905694150420951 / 10000000000000000 * 2 + 2371708245126285 / 1000000000000000 * (2 / 3)) := by
  simp only [expand_terms]
  rw [cubeInt_sum]
  · have hl : InterpTables.modal1p2.length = 3 := rfl
    rw [terms, hl, show List.range 3 = [0, 1, 2] from rfl]
    simp only [List.flatMap_cons, List.flatMap_nil, InterpTables.modal1p2, List.getD_cons_zero, List.getD_cons_succ, List.map_cons,
      List.map_nil, List.append_nil, List.cons_append, List.nil_append, List.sum_cons, List.sum_nil, moment, integral_pow]
    norm_num
    ring
  · intro p hp
    have hl : InterpTables.modal1p2.length = 3 := rfl
    rw [terms, hl, show List.range 3 = [0, 1, 2] from rfl] at hp
    simp only [List.flatMap_cons, List.flatMap_nil, InterpTables.modal1p2, List.getD_cons_zero, List.getD_cons_succ, List.map_cons,
      List.map_nil, List.append_nil, List.cons_append, List.nil_append, List.mem_cons, List.not_mem_nil, or_false] at hp
    rcases hp with rfl | rfl | rfl | rfl <;> rfl

theorem modal1p2_sum (coef : Nat → ℝ) (n : Nat) (hn : 0 < n) :
    ((List.range n).map fun s => expand InterpTables.modal1p2 coef (pointAt [n] [s])).sum =
      n * (coef 0 * (7071067811865468 / 10000000000000000) - coef 2 * (7905694150420951 / 10000000000000000)) +
        coef 2 * (2371708245126285 / 1000000000000000) * (((n : ℝ) - 1 / n) / 3) := by
  have h1 := sum_points n hn (e := 1) le_rfl
  have h2 := sum_points_sq n hn
  rw [integral_pow] at h1
  norm_num at h1
  have : ∀ l : List Nat, (l.map fun s => expand InterpTables.modal1p2 coef (pointAt [n] [s])).sum =
      l.length * (coef 0 * (7071067811865468 / 10000000000000000) - coef 2 * (7905694150420951 / 10000000000000000)) +
        coef 1 * (1224744871391589 / 1000000000000000) * (l.map fun s => (points false n : List ℝ).getD s 0).sum +
        coef 2 * (2371708245126285 / 1000000000000000) * (l.map fun s => ((points false n : List ℝ).getD s 0) ^ 2).sum := by
    intro l
    induction l with
    | nil => simp
    | cons s l ih =>
      have e : pointAt [n] [s] = [(points false n : List ℝ).getD s 0] := rfl
      simp only [List.map_cons, List.sum_cons, ih, e, modal1p2_expand, List.length_cons]
      push_cast
      ring
  have h1' : ((List.range n).map fun s => (points false n : List ℝ).getD s 0).sum = 0 := by
    simpa using h1
  rw [this, h2, h1', List.length_range]
  ring

/-- **C131 fails** for quadratic data: in one dimension, with `n` points in each of the cells of width `dx`, the result differs from
the integral by `dx / (3 n²)` times the sum over the cells of the coefficients of the quadratic function (times the factor of `x²` in
that function). -/
theorem C131_quadratic_fails {q : DgCase ℝ} {po : Option Nat} {b : Option String} {ni : Option Nat} {d : GData ℝ}
    (h : q.Fits po b ni d) {a : Axis ℝ} (ha : q.axes = [a]) (hpos : 0 < a.cells) (hp : q.order = 2)
    (h5 : Except Err (List (List ℝ))) :
    ∃ g v r gi vi, interpolateOf h5 po b ni d = .ok (g, v) ∧ d.push g v = .ok r ∧
      Calculus.integrate r .none false = .ok (gi, vi, r) ∧
      ∀ j < q.m / 3, vi.get? [0, j] = some (q.integral j - 2371708245126285 / 1000000000000000 * (a.dx / (3 * (q.points : ℝ) ^ 2)) *
          ((List.range a.cells).map fun c => q.f [c] (j * 3 + 2)).sum) ∧
        (((List.range a.cells).map fun c => q.f [c] (j * 3 + 2)).sum ≠ 0 → vi.get? [0, j] ≠ some (q.integral j)) := by
  have hcells : q.cells = [a.cells] := by rw [← h.1.cells_eq, ha]; rfl
  obtain ⟨g, v, r, gi, vi, e1, e2, e3, e4, e6⟩ := integrate_interpolated h (by rw [hcells]; simpa using hpos) h5
  have hone : q.cells.length = 1 := by rw [hcells]; rfl
  have hfns : q.fns = InterpTables.modal1p2 := by
    have := h.2.2.fns
    rw [hone, hp] at this
    have e : interpFns 1 2 q.basis true = .ok InterpTables.modal1p2 := by
      unfold interpFns
      simp only [if_true]
      decide +kernel
    rw [e] at this
    injection this with this
    exact this.symm
  have hl : q.fns.length = 3 := by rw [hfns]; rfl
  have hpts : 2 ≤ q.points := h.2.1.two
  have hper : perCell q.basis 1 q.points = [q.points] := by
    simp [perCell]
  have hdx : a.dx ≠ 0 := h.1.dx a (by rw [ha]; simp)
  have hn : (q.points : ℝ) ≠ 0 := by exact_mod_cast (by omega : q.points ≠ 0)
  have hval : ∀ j < q.m / 3, vi.get? [0, j] = some (q.integral j - 2371708245126285 / 1000000000000000 * (a.dx / (3 * (q.points : ℝ) ^ 2)) *
          ((List.range a.cells).map fun c => q.f [c] (j * 3 + 2)).sum) := by
    intro j hj
    have := e6 j (by rw [hl]; exact hj)
    rw [hone] at this
    simp only [List.replicate_one, List.singleton_append] at this
    rw [this]
    congr 1
    have hfine : (q.fine.map (·.dx)).prod = a.dx / q.points := by
      rw [DgCase.fine, hone, hper, ha]
      simp [refineAll, Axis.refine]
    rw [hfine, hper, hcells, hfns, DgCase.integral, hcells, sum_indices_cons, sum_indices_cons, ha, hfns]
    have hnil : indices [] = [[]] := rfl
    simp only [sum_indices_cons, hnil, List.map_cons, List.map_nil, List.sum_cons, List.sum_nil, add_zero, List.prod_cons, List.prod_nil,
      mul_one, List.length_singleton]
    have hl' : InterpTables.modal1p2.length = 3 := rfl
    simp only [modal1p2_sum _ _ (by omega : 0 < q.points), modal1p2_integral, hl']
    generalize List.range a.cells = l
    induction l with
    | nil => simp
    | cons c l ih =>
      have hc : ∀ x0 x2 : ℝ, a.dx / q.points * (q.points * (x0 * (7071067811865468 / 10000000000000000) -
            x2 * (7905694150420951 / 10000000000000000)) +
            x2 * (2371708245126285 / 1000000000000000) * (((q.points : ℝ) - 1 / q.points) / 3)) =
          a.dx / 2 * (x0 * (7071067811865468 / 10000000000000000) * 2 +
            x2 * (-7905694150420951 / 10000000000000000 * 2 + 2371708245126285 / 1000000000000000 * (2 / 3))) -
          2371708245126285 / 1000000000000000 * (a.dx / (3 * (q.points : ℝ) ^ 2)) * x2 := by
        intro x0 x2
        field_simp
        ring
      simp only [List.map_cons, List.sum_cons]
      rw [ih, hc]
      ring
  refine ⟨g, v, r, gi, vi, e1, e2, e3, fun j hj => ⟨hval j hj, fun hne => ?_⟩⟩
  rw [hval j hj]
  intro he
  have he := Option.some.inj he
  have : (2371708245126285 / 1000000000000000 : ℝ) * (a.dx / (3 * (q.points : ℝ) ^ 2)) *
      ((List.range a.cells).map fun c => q.f [c] (j * 3 + 2)).sum = 0 := by linarith
  have h3 : a.dx / (3 * (q.points : ℝ) ^ 2) ≠ 0 := by positivity
  rcases mul_eq_zero.1 this with h0 | h0
  · rcases mul_eq_zero.1 h0 with h0 | h0
    · norm_num at h0
    · exact h3 h0
  · exact hne h0

namespace DgEx

/-- The hypotheses of `C131_integral_partial` are met: linear data on 2 × 3 cells. -/
example : (storedCase 2 : DgCase ℝ).Fits none none none stored ∧ (∀ n ∈ (storedCase 2 : DgCase ℝ).cells, 0 < n) ∧
    (storedCase 2 : DgCase ℝ).order ≤ 1 ∧ (storedCase 2 : DgCase ℝ).basis ∈ ["serendipity", "maximal-order", "tensor"] :=
  ⟨(stored_fits true).1, by simp [storedCase], le_rfl, by simp [storedCase]⟩

/-- Quadratic data in one cell of width one: the coefficients are 0, 0, 1. -/
noncomputable def quadCase : DgCase ℝ := ⟨[1], [⟨0, 1, 1⟩], 3, fun _ c => if c = 2 then 1 else 0, 2, "serendipity", InterpTables.modal1p2, 3⟩

noncomputable def quadStored : GData ℝ :=
  { grid := some [NArr.ofList (⟨0, 1, 1⟩ : Axis ℝ).nodes]
    values := some ⟨[1, 3], [0, 0, 1]⟩
    ctx := { cells := some [1], numComps := some 3, other := [("grid_type", "uniform")] } }

/-- The hypotheses of `C131_quadratic_fails` are met, and the sum of the quadratic coefficients is not zero. -/
example : quadCase.Fits (some 2) (some "ms") none quadStored ∧ quadCase.axes = [⟨0, 1, 1⟩] ∧ quadCase.order = 2 ∧
    ((List.range 1).map fun c => quadCase.f [c] (0 * 3 + 2)).sum ≠ 0 := by
  refine ⟨⟨⟨⟨_, ⟨rfl, by simp [quadCase], (mesh_length (nodes_mesh [(⟨0, 1, 1⟩ : Axis ℝ)])).2, _, rfl, rfl, rfl, ?_⟩, nodes_mesh [(⟨0, 1, 1⟩ : Axis ℝ)]⟩,
    ⟨rfl, rfl⟩, ?_, rfl, ?_, by simp [quadCase]⟩, ⟨.inl rfl, .inl ⟨"ms", rfl, ?_⟩, .inr ⟨rfl, rfl⟩, by simp [quadCase]⟩,
    ⟨?_, fun _ => by simp [quadCase], fun h => by simp [quadCase] at h, ?_⟩⟩, rfl, rfl, by simp [quadCase]⟩
  · intro i hi c hc
    obtain ⟨k, rfl⟩ : ∃ k, i = [k] := by
      have := inRange_length hi
      simp only [quadCase, List.length_singleton] at this
      exact List.length_eq_one_iff.1 this
    simp only [quadCase, inRange, Bool.and_true, decide_eq_true_eq] at hi hc ⊢
    have : k = 0 := by omega
    subst this
    interval_cases c <;> rfl
  · show Dict.get? [("grid_type", "uniform")] "grid_type" = some "uniform"
    decide +kernel
  · intro a ha
    simp only [quadCase, List.mem_singleton] at ha
    subst ha
    norm_num
  · show ("ms", "serendipity") ∈ basisNames
    decide
  · show interpFns 1 2 "serendipity" true = .ok InterpTables.modal1p2
    decide +kernel
  · show 1 ≤ 3 ∧ 3 ≤ 3
    decide

end DgEx

end Pgkyl
