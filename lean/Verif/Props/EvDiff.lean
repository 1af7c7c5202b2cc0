import Verif.Lemmas.EvDiff
import Mathlib.Algebra.Order.Ring.Rat
/-!
# C98-C101: `grad`, `grad2`, `div`, `curl` and `scale_comp` of the `ev` command

Numbers are the elements of an ordered field (exact arithmetic).
-/

namespace Pgkyl
open Spec

section
variable {F : Type} [_root_.Field F] [LinearOrder F] [IsStrictOrderedRing F]
variable {axes : List (List F)} {cells : List Nat} {v : NArr F} {m : Nat} {f : List Nat → Nat → F}

/-- C98: the partial derivative of the specification exists only once: a field that is a polynomial of degree two in the
coordinate of the axis, with coefficients that may depend on the other coordinates, has its exact derivative. -/
theorem C98_exact_for_quadratics (hg : CellGrid axes cells) {g : List Nat → F} {ax : Nat} {idx : List Nat}
    (hi : inRange cells idx = true) {x : List F} (hx : axes[ax]? = some x) {A B C : F}
    (hq : ∀ j, inRange cells (idx.set ax j) = true → g (idx.set ax j) = A + B * centre x j + C * centre x j ^ 2)
    {i : Nat} (hii : idx[ax]? = some i) {s : F} (hs : IsPartial axes cells g ax idx s) :
    s = B + 2 * C * centre x i := by
  obtain ⟨x', n, i', h1, h2, h3, h4⟩ := hs
  rw [hx] at h1; cases h1
  rw [hii] at h3; cases h3
  obtain ⟨k1, k2, k3⟩ := hg.2 ax _ _ hx h2
  obtain ⟨j, hj, hj'⟩ := inRange_getElem hi h2
  rw [hii] at hj; cases hj
  refine parabolaSlope_unique k2 hj' (centre_lt k3 k1) h4 ⟨A, B, C, fun j hj => hq j (inRange_set hi h2 ?_), rfl⟩
  rcases stencil_cases k2 hj' with ⟨a0, e⟩ | ⟨a0, a1, e⟩ | ⟨a0, a1, e⟩ <;> rw [e] at hj <;>
    simp only [List.mem_cons, List.not_mem_nil, or_false] at hj <;> omega

/-- C98: `grad` returns, on the grid of its operand, the partial derivatives of every component along every axis: component
`d * m + c` is the derivative of component `c` along axis `d`. -/
theorem C98_grad (hg : CellGrid axes cells) (hv : IsField v cells m f) :
    ∃ w G, EvCmd.grad [some (axes.map NArr.ofList)] [.arr v] = .ok (some (axes.map NArr.ofList), .arr w) ∧
      IsField w cells (m * cells.length) G ∧
      ∀ i, inRange cells i = true → ∀ d < cells.length, ∀ c < m, IsPartial axes cells (fun i => f i c) d i (G i (d * m + c)) := by
  obtain ⟨w, H, h1, h2, h3⟩ := gradAxes_ok hg hv (A := List.range cells.length) fun a ha => List.mem_range.1 ha
  rw [List.length_range] at h2
  have hl : v.shape.length - 1 = cells.length := by rw [hv.shape]; simp
  refine ⟨w, H, by simp only [EvCmd.grad, hl, h1, bind, Except.bind, pure, Except.pure], h2, fun i hi d hd c hc => ?_⟩
  rw [h3 d d (by simp [hd]) i c hc]
  exact partialOf_ok hg _ hd hi

/-- C98: `grad2` does the same for the axes named by its first operand. -/
theorem C98_grad2 (hg : CellGrid axes cells) (hv : IsField v cells m f) {fn : Fns F} {ax : EvVal F} {A : List Nat}
    (hA : GradNames fn ax A) (hlt : ∀ a ∈ A, a < cells.length) (g0 : EvGrid F) :
    ∃ w G, EvCmd.grad2 fn [g0, some (axes.map NArr.ofList)] [ax, .arr v] = .ok (some (axes.map NArr.ofList), .arr w) ∧
      IsField w cells (m * A.length) G ∧
      ∀ i, inRange cells i = true → ∀ j a, A[j]? = some a → ∀ c < m,
        IsPartial axes cells (fun i => f i c) a i (G i (j * m + c)) := by
  obtain ⟨w, H, h1, h2, h3⟩ := gradAxes_ok hg hv hlt
  refine ⟨w, H, by simp only [EvCmd.grad2, gradRange_ok hA, natAxes_ok, h1, bind, Except.bind, pure, Except.pure], h2, fun i hi j a hj c hc => ?_⟩
  rw [h3 j a hj i c hc]
  exact partialOf_ok hg _ (hlt a (List.mem_of_getElem? hj)) hi

omit [IsStrictOrderedRing F] in
/-- C98 fails for values on the nodes: `grad` and `div` are errors whenever the first axis has as many values as nodes. -/
theorem C98_nodal_fails {x : List F} {rest : List (List F)} {n : Nat} {more : List Nat} (hx : x.length = n)
    (hn : 1 ≤ n) (hm : 1 ≤ m) (hv : IsField v (n :: more) m f) :
    EvCmd.grad [some ((x :: rest).map NArr.ofList)] [.arr v] = .error .valueError ∧
      EvCmd.divergence [some ((x :: rest).map NArr.ofList)] [.arr v] = .error .valueError := by
  have hp : EvCmd.pyGet (NArr.ofList x :: rest.map NArr.ofList) ((0 : Nat) : Int) = .ok (NArr.ofList x) := by
    rw [Integ.pyGet_nat]; rfl
  have hl : v.shape.length - 1 = more.length + 1 := by rw [hv.shape]; simp
  constructor
  · have h := gradient_nodal (v := v) (ax := 0) hx hn (by rw [hv.shape]; rfl)
    simp only [EvCmd.grad, hl, EvCmd.gradAxes, hv.last, List.range_succ_eq_map, List.zipIdx_cons, List.map_cons,
      List.foldlM_cons, EvCmd.gradStep, hp, h, bind, Except.bind]
  · obtain ⟨u, e, hu⟩ := gives_compFlat hv (k := 0) (by omega)
    have h := gradient_nodal (v := u) (ax := 0) hx hn (by rw [hu.shape]; rfl)
    simp only [EvCmd.divergence, hv.last, List.map_cons, List.length_cons, List.range_succ_eq_map, List.foldlM_cons,
      EvCmd.divStep, EvCmd.compSlope, hp, e, h, bind, Except.bind]

omit [IsStrictOrderedRing F] in
/-- C98 fails on an axis with one or two cells: `grad` is an error. -/
theorem C98_short_axis_fails {x : List F} {rest : List (List F)} {n : Nat} {more : List Nat} (hn : n < 3)
    (hv : IsField v (n :: more) m f) :
    EvCmd.grad [some ((x :: rest).map NArr.ofList)] [.arr v] = .error .valueError := by
  have hp : EvCmd.pyGet (NArr.ofList x :: rest.map NArr.ofList) ((0 : Nat) : Int) = .ok (NArr.ofList x) := by
    rw [Integ.pyGet_nat]; rfl
  have hl : v.shape.length - 1 = more.length + 1 := by rw [hv.shape]; simp
  have h0 : v.shape[0]? = some n := by rw [hv.shape]; rfl
  have h : v.gradient (EvCmd.centres (NArr.ofList x)) 0 = .error .valueError := by
    simp only [NArr.gradient, h0]
    rw [if_pos (.inr (.inr hn))]
  simp only [EvCmd.grad, hl, EvCmd.gradAxes, hv.last, List.range_succ_eq_map, List.zipIdx_cons, List.map_cons,
    List.foldlM_cons, EvCmd.gradStep, hp, h, bind, Except.bind]

/-- C99: `div` is the sum of the derivatives of component `d` along axis `d`; surplus components are ignored. -/
theorem C99_div (hg : CellGrid axes cells) (hv : IsField v cells m f) (hm : cells.length ≤ m) :
    ∃ (w : NArr F) (G : List Nat → F) (D : Nat → List Nat → F),
      EvCmd.divergence [some (axes.map NArr.ofList)] [.arr v] = .ok (some (axes.map NArr.ofList), .arr w) ∧
      IsField w cells 1 (fun i _ => G i) ∧
      ∀ i, inRange cells i = true → G i = ((List.range cells.length).map fun d => D d i).sum ∧
        ∀ d < cells.length, IsPartial axes cells (fun i => f i d) d i (D d i) := by
  obtain ⟨w, h1, h2⟩ := div_ok hg hm hv
  exact ⟨w, _, fun d i => partialOf axes cells (fun i => f i d) d i, h1, h2, fun i hi => ⟨rfl, fun d hd => partialOf_ok hg _ hd hi⟩⟩

/-- C99: `curl` of three components on one axis is `(0, -∂f₂, ∂f₁)`. -/
theorem C99_curl_line_partial {x : List F} {n : Nat} (hg : CellGrid [x] [n]) (hv : IsField v [n] 3 f) :
    ∃ w G, EvCmd.curl [some [NArr.ofList x]] [.arr v] = .ok (some [NArr.ofList x], .arr w) ∧ IsField w [n] 3 G ∧
      ∀ i, inRange [n] i = true → G i 0 = 0 ∧ (∃ s, IsPartial [x] [n] (fun i => f i 2) 0 i s ∧ G i 1 = -s) ∧
        IsPartial [x] [n] (fun i => f i 1) 0 i (G i 2) := by
  obtain ⟨w, h1, h2⟩ := curl1_ok hg rfl hv
  exact ⟨w, _, h1, h2, fun i hi => ⟨by simp [curl1Of], ⟨_, partialOf_ok hg _ (by simp) hi, by simp [curl1Of]⟩,
    partialOf_ok hg _ (by simp) hi⟩⟩

/-- C99: `curl` of two components on two axes is the number `∂₀f₁ - ∂₁f₀`. -/
theorem C99_curl_plane_two_partial {x y : List F} {n k : Nat} (hg : CellGrid [x, y] [n, k]) (hv : IsField v [n, k] 2 f) :
    ∃ w G, EvCmd.curl [some [NArr.ofList x, NArr.ofList y]] [.arr v] = .ok (some [NArr.ofList x, NArr.ofList y], .arr w) ∧
      IsField w [n, k] 1 G ∧ ∀ i, inRange [n, k] i = true → ∃ s t, IsPartial [x, y] [n, k] (fun i => f i 1) 0 i s ∧
        IsPartial [x, y] [n, k] (fun i => f i 0) 1 i t ∧ G i 0 = s - t := by
  obtain ⟨w, h1, h2⟩ := curl2_ok hg rfl hv
  exact ⟨w, _, h1, h2, fun i hi => ⟨_, _, partialOf_ok hg _ (by simp) hi, partialOf_ok hg _ (by simp) hi, rfl⟩⟩

/-- C99: `curl` of three components on two axes is `(∂₁f₂, -∂₀f₂, ∂₀f₁ - ∂₁f₀)`; for surplus components the result is zero. -/
theorem C99_curl_plane_partial {x y : List F} {n k : Nat} (hg : CellGrid [x, y] [n, k]) (hm : 3 ≤ m) (hv : IsField v [n, k] m f) :
    ∃ w G, EvCmd.curl [some [NArr.ofList x, NArr.ofList y]] [.arr v] = .ok (some [NArr.ofList x, NArr.ofList y], .arr w) ∧
      IsField w [n, k] m G ∧ ∀ i, inRange [n, k] i = true → IsPartial [x, y] [n, k] (fun i => f i 2) 1 i (G i 0) ∧
        (∃ s, IsPartial [x, y] [n, k] (fun i => f i 2) 0 i s ∧ G i 1 = -s) ∧
        (∃ s t, IsPartial [x, y] [n, k] (fun i => f i 1) 0 i s ∧ IsPartial [x, y] [n, k] (fun i => f i 0) 1 i t ∧
          G i 2 = s - t) ∧ ∀ c, 3 ≤ c → G i c = 0 := by
  obtain ⟨w, h1, h2⟩ := curl3_ok hg rfl hm hv
  refine ⟨w, _, h1, h2, fun i hi => ⟨?_, ⟨_, partialOf_ok hg (fun i => f i 2) (ax := 0) (by simp) hi, by simp [curl3Of]⟩,
    ⟨_, _, partialOf_ok hg _ (by simp) hi, partialOf_ok hg _ (by simp) hi, rfl⟩, fun c hc => ?_⟩⟩
  · simp only [curl3Of, show ¬ (0 = 2) by omega, show ¬ (0 = 1) by omega, if_false, if_true]
    exact partialOf_ok hg _ (by simp) hi
  · simp only [curl3Of, show ¬ (c = 2) by omega, show ¬ (c = 1) by omega, show ¬ (c = 0) by omega, if_false]

omit [IsStrictOrderedRing F] in
/-- C99 fails on three axes: `curl` of three or more components always ends with an `UnboundLocalError`. -/
theorem C99_curl_volume_fails {x y z : List F} (hm : 3 ≤ m) (hv : IsField v cells m f) :
    EvCmd.curl [some [NArr.ofList x, NArr.ofList y, NArr.ofList z]] [.arr v] = .error .unboundLocal := by
  simp only [EvCmd.curl, hv.last, List.length_cons, List.length_nil]
  rw [if_neg (by omega), if_neg (by omega), if_neg (by omega)]

omit [IsStrictOrderedRing F] in
/-- C100: the divergence of a curl is zero (two axes, three components or more). -/
theorem C100_div_curl {x y : List F} {n k : Nat} (hg : CellGrid [x, y] [n, k]) (hm : 3 ≤ m) (hv : IsField v [n, k] m f) :
    ∃ g w u, EvCmd.curl [some [NArr.ofList x, NArr.ofList y]] [.arr v] = .ok (g, .arr w) ∧
      EvCmd.divergence [g] [.arr w] = .ok (g, .arr u) ∧ IsField u [n, k] 1 fun _ _ => 0 := by
  obtain ⟨w, h1, h2⟩ := curl3_ok hg rfl hm hv
  obtain ⟨u, h3, h4⟩ := div_ok hg (m := m) (by simp; omega) h2
  refine ⟨_, w, u, h1, h3, h4.congr fun i _ c _ => ?_⟩
  simp only [List.length_cons, List.length_nil, List.range_succ_eq_map, List.range_zero, List.map_cons, List.map_nil,
    List.sum_cons, List.sum_nil, curl3Of, Nat.succ_eq_add_one, Nat.zero_add, show ¬ (0 = 2) by omega,
    show ¬ (0 = 1) by omega, show ¬ (1 = 2) by omega, if_false, if_true]
  rw [partialOf_neg, partialOf_comm _ _ _ (show (1 : Nat) ≠ 0 by omega)]
  ring

omit [IsStrictOrderedRing F] in
/-- C100: the divergence of a curl is zero (one axis). -/
theorem C100_div_curl_line {x : List F} {n : Nat} (hg : CellGrid [x] [n]) (hv : IsField v [n] 3 f) :
    ∃ g w u, EvCmd.curl [some [NArr.ofList x]] [.arr v] = .ok (g, .arr w) ∧
      EvCmd.divergence [g] [.arr w] = .ok (g, .arr u) ∧ IsField u [n] 1 fun _ _ => 0 := by
  obtain ⟨w, h1, h2⟩ := curl1_ok hg rfl hv
  obtain ⟨u, h3, h4⟩ := div_ok hg (m := 3) (by simp) h2
  refine ⟨_, w, u, h1, h3, h4.congr fun i _ c _ => ?_⟩
  simp only [List.length_cons, List.length_nil, List.range_succ_eq_map, List.range_zero, List.map_cons, List.map_nil,
    List.sum_cons, List.sum_nil, curl1Of, Nat.zero_add, show ¬ (0 = 2) by omega, show ¬ (0 = 1) by omega, if_false]
  rw [partialOf_zero, add_zero]

omit [IsStrictOrderedRing F] in
/-- C100: the curl of a gradient is zero (one component, two axes). -/
theorem C100_curl_grad {x y : List F} {n k : Nat} (hg : CellGrid [x, y] [n, k]) (hv : IsField v [n, k] 1 f) :
    ∃ g w u, EvCmd.grad [some [NArr.ofList x, NArr.ofList y]] [.arr v] = .ok (g, .arr w) ∧
      EvCmd.curl [g] [.arr w] = .ok (g, .arr u) ∧ IsField u [n, k] 1 fun _ _ => 0 := by
  obtain ⟨w, H, h1, h2, h3⟩ := gradAxes_ok hg hv (A := [0, 1]) fun a ha => by
    simp only [List.mem_cons, List.not_mem_nil, or_false] at ha; simp; omega
  have hl : v.shape.length - 1 = 2 := by rw [hv.shape]; rfl
  obtain ⟨u, h4, h5⟩ := curl2_ok hg rfl h2
  refine ⟨_, w, u, by simp only [EvCmd.grad, hl, show List.range 2 = [0, 1] from rfl]; erw [h1]; rfl, h4, h5.congr fun i hi c _ => ?_⟩
  have e1 : ∀ i, H i 1 = partialOf [x, y] [n, k] (fun i => f i 0) 1 i := fun i => h3 1 1 rfl i 0 (by omega)
  have e0 : ∀ i, H i 0 = partialOf [x, y] [n, k] (fun i => f i 0) 0 i := fun i => h3 0 0 rfl i 0 (by omega)
  simp only [curl2Of, e0, e1]
  rw [partialOf_comm _ _ _ (show (0 : Nat) ≠ 1 by omega), sub_self]

omit [IsStrictOrderedRing F] in
/-- C101: `scale_comp` multiplies the named components by the factor and leaves the others alone: named by a text. -/
theorem C101_scale_text_partial {fn : Fns F} {s : List Char} {cs : List Nat} (hv : IsField v cells m f)
    (hs : CompDenotes m (some (IdxArg.str (F := F) s)) cs) (hd : cs.Nodup) (g0 g1 g : EvGrid F) (x : F) :
    ∃ w, EvCmd.scaleCompCmd fn [g0, g1, g] [.arr (NArr.scalar x), .str s, .arr v] = .ok (g, .arr w) ∧
      IsField w cells m fun i c => if c ∈ cs then f i c * x else f i c := by
  refine ⟨_, ?_, (isField_scaleComps hv x cs).congr fun i _ c _ => ?_⟩
  · simp only [EvCmd.scaleCompCmd, NArr.scalar, hv.last, EvCmd.scaleTargets, compSel_denotes _ hs, bind, Except.bind, pure,
      Except.pure]
  · by_cases h : c ∈ cs
    · rw [if_pos h, List.count_eq_one_of_mem hd h, pow_one]
    · rw [if_neg h, List.count_eq_zero_of_not_mem h, pow_zero, mul_one]

omit [IsStrictOrderedRing F] in
/-- C101: named by a number. -/
theorem C101_scale_number {fn : Fns F} {k : Nat} (hk : k < m) (hv : IsField v cells m f) {y : F}
    (hy : fn.toInt y = some (k : Int)) (g0 g1 g : EvGrid F) (x : F) :
    ∃ w, EvCmd.scaleCompCmd fn [g0, g1, g] [.arr (NArr.scalar x), .arr (NArr.scalar y), .arr v] = .ok (g, .arr w) ∧
      IsField w cells m fun i c => if c = k then f i c * x else f i c := by
  refine ⟨_, ?_, isField_scaleComp hv k x⟩
  simp only [EvCmd.scaleCompCmd, NArr.scalar, hv.last, EvCmd.scaleTargets, EvCmd.toInt, hy, intPos_nat hk, bind, Except.bind,
    pure, Except.pure, List.foldl_cons, List.foldl_nil]

omit [IsStrictOrderedRing F] in
/-- C101 fails for a list naming a component twice: it is multiplied twice. -/
theorem C101_scale_twice_fails {fn : Fns F} {k : Nat} (hk : k < m) (hv : IsField v cells m f) (g0 g1 g : EvGrid F) (x : F) :
    ∃ w, EvCmd.scaleCompCmd fn [g0, g1, g] [.arr (NArr.scalar x), .str (dec k ++ ',' :: dec k), .arr v] = .ok (g, .arr w) ∧
      IsField w cells m fun i c => if c = k then f i c * x * x else f i c := by
  have hs : CompDenotes m (some (IdxArg.str (F := F) (dec k ++ ',' :: dec k))) [k, k] :=
    CompDenotes.list k k [] (by simp [hk])
  refine ⟨_, ?_, (isField_scaleComps hv x [k, k]).congr fun i _ c _ => ?_⟩
  · simp only [EvCmd.scaleCompCmd, NArr.scalar, hv.last, EvCmd.scaleTargets, compSel_denotes _ hs, bind, Except.bind, pure,
      Except.pure]
  · by_cases h : c = k
    · subst h; simp [pow_two, mul_assoc]
    · rw [if_neg h, List.count_eq_zero_of_not_mem (by simp [h]), pow_zero, mul_one]

omit [LinearOrder F] [IsStrictOrderedRing F] in
/-- C102: the result of `scale_zi_axis`: the coordinates of axis `k` (counted from the end when negative) are multiplied by the
factor, those of the other axes and the values are as they were. -/
theorem C102_scale_axis {fn : Fns F} {grid : List (NArr F)} {k : Int} {n : Nat}
    (hk : (0 ≤ k ∧ k = n) ∨ (k < 0 ∧ (grid.length : Int) + k = n)) (hn : n < grid.length) {y : F} (hy : fn.toInt y = some k)
    (g0 g1 : EvGrid F) (x : F) (v : NArr F) :
    ∃ out, EvCmd.scaleAxis fn [g0, g1, some grid] [.arr (NArr.scalar x), .arr (NArr.scalar y), .arr v] = .ok (some out, .arr v) ∧
      out.length = grid.length ∧ (∀ j, j ≠ n → out[j]? = grid[j]?) ∧
      ∀ z, grid[n]? = some z → ∃ z', out[n]? = some z' ∧ z'.shape = z.shape ∧ ∀ i, z'.get? i = (z.get? i).map (· * x) := by
  have hg : EvCmd.pyGet grid k = .ok grid[n] := by
    unfold EvCmd.pyGet
    rcases hk with ⟨h0, h1⟩ | ⟨h0, h1⟩
    · simp only [if_neg (Int.not_lt.2 h0)]
      rw [h1, Int.toNat_natCast, List.getElem?_eq_getElem hn]
    · simp only [if_pos h0, h1]
      simp [hn]
  have hj : (if k < 0 then (grid.length : Int) + k else k).toNat = n := by
    split <;> omega
  refine ⟨_, by
    simp only [EvCmd.scaleAxis, NArr.scalar, EvCmd.toInt, hy, hg, hj, bind, Except.bind, pure, Except.pure]
    rfl, by simp, fun j hjn => by rw [List.getElem?_set_ne (Ne.symm hjn)], fun z hz => ?_⟩
  rw [List.getElem?_eq_getElem hn] at hz
  cases hz
  refine ⟨_, List.getElem?_set_self hn, rfl, fun i => ?_⟩
  simp only [NArr.get?, NArr.map1, List.getElem?_map]
  split <;> rfl

/-! ### The hypotheses are met -/

/-- The last of two axes, named by `-1`. -/
example (fn : Fns ℚ) (h : fn.toInt (-1) = some (-1)) (v : NArr ℚ) :
    ∃ out, EvCmd.scaleAxis fn [none, none, some [NArr.ofList [0, 1], NArr.ofList [0, 2]]]
      [.arr (NArr.scalar 3), .arr (NArr.scalar (-1)), .arr v] = .ok (some out, .arr v) ∧ out[0]? = some (NArr.ofList [0, 1]) := by
  obtain ⟨out, h1, -, h2, -⟩ := C102_scale_axis (n := 1) (Or.inr ⟨by decide, rfl⟩) (by decide : 1 < [NArr.ofList [0, 1], NArr.ofList [(0 : ℚ), 2]].length) h none none 3 v
  exact ⟨out, h1, h2 0 (by decide)⟩

/-- Four cells of increasing width and a quadratic field: `grad` gives `2x`. -/
example : CellGrid (F := ℚ) [[0, 1, 3, 4, 8]] [4] := by
  refine ⟨rfl, fun d x n h1 h2 => ?_⟩
  rcases d with - | d
  · simp only [List.getElem?_cons_zero, Option.some.injEq] at h1 h2
    subst h1 h2
    exact ⟨rfl, by omega, by unfold Increasing; decide +kernel⟩
  · simp at h1

example : (EvCmd.gradAxes (F := ℚ) [NArr.ofList [0, 1, 3, 4, 8]] ⟨[4, 1], [1/4, 4, 49/4, 36]⟩ [0]).toOption =
    some ⟨[4, 1], [1, 4, 7, 12]⟩ := by decide +kernel

example : CellGrid (F := ℚ) [[0, 1, 3, 4], [0, 1, 2, 3]] [3, 3] := by
  refine ⟨rfl, fun d x n h1 h2 => ?_⟩
  rcases d with - | - | d <;> simp at h1 h2 <;> subst h1 h2 <;>
    exact ⟨rfl, by omega, by unfold Increasing; decide +kernel⟩

/-- `f = (y, x²)` on three by three cells has the curl `2x - 1`. -/
example : (EvCmd.curl2 (F := ℚ) [NArr.ofList [0, 1, 3, 4], NArr.ofList [0, 1, 2, 3]]
      ⟨[3, 3, 2], [1/2, 1/4, 3/2, 1/4, 5/2, 1/4, 1/2, 4, 3/2, 4, 5/2, 4, 1/2, 49/4, 3/2, 49/4, 5/2, 49/4]⟩).toOption =
    some ⟨[3, 3, 1], [0, 0, 0, 3, 3, 3, 6, 6, 6]⟩ := by
  decide +kernel

example (fn : Fns ℚ) : GradNames fn (.str "0:2".toList) [0, 1] := GradNames.range (F := ℚ) 0 2

example : CompDenotes 4 (some (IdxArg.str (F := ℚ) "1:3".toList)) [1, 2] ∧ [1, 2].Nodup :=
  ⟨CompDenotes.range 1 3 (by omega) (by omega), by decide⟩

end

end Pgkyl
