import Verif.Lemmas.DgDiff
/-! # Lemmas: nodal DG data -/

namespace Pgkyl
namespace Dg
open Spec
variable {F : Type}

theorem interpFns_nodal_size {dim p : Nat} {fns : List Poly} {K : Nat}
    (hf : interpFns dim p "serendipity" false = .ok fns) (hK : numNodes dim p "serendipity" = .ok K) :
    fns.length = K := by
  unfold interpFns at hf
  by_cases hd : dim = 1
  · subst hd
    simp only [if_true, Bool.false_eq_true, if_false] at hf
    split at hf
    · rename_i fs hl
      injection hf with hf
      subst hf
      have := List.all_eq_true.1 interp_sizes _ (mem_of_lookup hl)
      simp only [sizeOK, Bool.and_eq_true, decide_eq_true_eq] at this
      rw [this.2] at hK
      injection hK
    · cases hf
  · simp only [hd, if_false, Bool.false_eq_true] at hf
    split at hf
    · rename_i fs hl
      injection hf with hf
      subst hf
      have := List.all_eq_true.1 interp_sizes _ (mem_of_lookup hl)
      simp only [sizeOK, decide_eq_true_eq] at this
      rw [this] at hK
      injection hK
    · cases hf

theorem interpFns_nodal_pos {dim p : Nat} {fns : List Poly}
    (hf : interpFns dim p "serendipity" false = .ok fns) : 0 < fns.length := by
  have key : InterpTables.all.all (fun e => decide (0 < e.2.length)) = true := by decide +kernel
  unfold interpFns at hf
  simp only at hf
  split at hf
  · rename_i fs hl
    injection hf with hf
    subst hf
    have := List.all_eq_true.1 key _ (mem_of_lookup hl)
    simpa using this
  · cases hf

theorem derivFns_nodal_eq {dim p : Nat} {fns : List Poly}
    (h : derivFns dim p "serendipity" false = .ok fns) : interpFns dim p "serendipity" false = .ok fns := by
  unfold derivFns at h
  unfold interpFns
  simp only [Bool.false_eq_true, if_false, ite_self] at h ⊢
  split at h
  · rename_i fs hl
    injection h with h
    subst h
    have := List.all_eq_true.1 deriv_same _ (mem_of_lookup hl)
    simp only [decide_eq_true_eq, and_true] at this
    by_cases hd : dim = 1
    · rw [if_pos hd] at this ⊢
      rw [this]
    · rw [if_neg hd] at this ⊢
      rw [this]
  · cases h

theorem nodalInit_ok {src : Source F} {p : Nat} {ni : Option Nat} {o : Interp F}
    (h : nodalInit src p "ns" ni = .ok o) :
    o.src = src ∧ o.polyOrder = p ∧ o.basis = "serendipity" ∧ o.numInterp = ni ∧
      numNodes src.numDims p "serendipity" = .ok o.numNodes := by
  unfold nodalInit at h
  simp only [if_true, bind, Except.bind, pure, Except.pure] at h
  split at h
  · cases h
  · rename_i K hK
    injection h with h
    subst h
    exact ⟨rfl, rfl, rfl, rfl, hK⟩

theorem rawModal_shape {o : Interp F} {cells : List Nat} {m : Nat} (hs : o.src.values.shape = cells ++ [m])
    {c : Nat} {q : NArr F} (h : rawModal o c = .ok q) : ∃ k, q.shape = cells ++ [k] := by
  unfold rawModal NArr.comps at h
  simp only [hs, List.getLast?_concat, List.dropLast_concat] at h
  injection h with h
  exact ⟨_, by rw [← h]; rfl⟩

theorem rawNodal_ok {o : Interp F} {cells : List Nat} {nq : Nat} {f : List Nat → Nat → F}
    (h : IsField o.src.values cells (o.numNodes * nq) f) (hm : o.src.numComps = o.numNodes * nq)
    (hK : 0 < o.numNodes) {c : Nat} (hc : c < nq) :
    Gives (rawNodal o c) cells o.numNodes fun i k => f i (c + k * nq) := by
  have hpick : ∀ n, (c * o.numNodes + n * o.src.numComps) / o.numNodes = c + n * nq := by
    intro n
    rw [hm, show c * o.numNodes + n * (o.numNodes * nq) = o.numNodes * (c + n * nq) by ring,
      Nat.mul_div_cancel_left _ hK]
  have hlt : ∀ n < o.numNodes, c + n * nq < o.numNodes * nq := by
    intro n hn
    calc c + n * nq < nq + n * nq := by omega
      _ = (n + 1) * nq := by ring
      _ ≤ o.numNodes * nq := Nat.mul_le_mul_right _ hn
  unfold rawNodal
  rw [h.last, h.dropLast]
  simp only [hpick]
  rw [if_pos (by
    rw [List.all_eq_true]
    intro n hn
    rw [decide_eq_true_eq]
    exact hlt n (List.mem_range.1 hn))]
  refine ⟨_, rfl, isField_of_ofFn fun i hi k hk => ?_⟩
  simp only [List.dropLast_concat, List.getLastD_concat]
  exact h.get i hi _ (hlt k hk)

variable [_root_.Field F] [CharZero F]

theorem basisDim_ser {d : Nat} (h : 1 ≤ d) : BasisDim "serendipity" d :=
  ⟨h, fun h => absurd h (by decide), fun h => absurd h (by decide)⟩

theorem perCell_ser (d n : Nat) : perCell "serendipity" d n = List.replicate d n :=
  perCell_plain (by decide) (by decide)

theorem nodalComp_ok {fns : List Poly} {q : NArr F} {cells : List Nat} {g : List Nat → Nat → F}
    {axes : List (Axis F)} {n : Nat}
    (hq : IsField q cells fns.length g) (hp : 1 ≤ cells.length) (hn : 2 ≤ n)
    (hdx : ∀ a ∈ axes, a.dx ≠ 0) (hal : axes.length = cells.length) :
    GivesPlain (interpOnMesh (matrixOf fns (loopPoints (List.replicate cells.length (points false n)))) q n
        "serendipity" false) (cells.map (· * n))
      (fun idx => cellValue fns axes (g (List.zipWith (· / ·) idx (List.replicate cells.length n)))
        (List.zipWith (· / ·) idx (List.replicate cells.length n))
        (midPt (refineAll axes (List.replicate cells.length n)) idx)) := by
  have := interpComp_ok (fns := fns) (q := q) (g := g) (axes := axes) (basis := "serendipity") (n := n)
    (cMat := matrixOf fns (loopPoints (List.replicate cells.length (points false n))))
    hq (basisDim_ser hp) hn (by rw [perCell_ser, List.map_replicate]) hdx hal
  rw [perCell_ser, zipWith_replicate_eq_map] at this
  exact this

theorem uniform_grid {src : Source F} {cells : List Nat} {m : Nat} {f : List Nat → Nat → F}
    {axes : List (Axis F)} (h : OnMesh src cells m f axes) {n : Nat} (hn : 2 ≤ n) :
    ∃ grid, make1Dgrids (List.replicate cells.length n) src.grid cells.length none = .ok grid ∧
      IsMesh grid (refineAll axes (List.replicate cells.length n)) := by
  obtain ⟨grid, hg, hm⟩ := make1Dgrids_mesh h.grid (ns := List.replicate cells.length n)
    (by rw [List.length_replicate, h.axes_length]) (by
      intro x hx
      rw [List.eq_of_mem_replicate hx]; omega)
  rw [h.axes_length] at hg
  exact ⟨grid, hg, hm⟩

/-! ## Failures -/

omit [_root_.Field F] [CharZero F] in
theorem gather_error {get : Nat → Except Err (NArr F)} (h : ∀ c r, get c ≠ .ok r) (cs : List Nat) (r : NArr F) :
    gather get cs ≠ .ok r := by
  intro hr
  cases cs with
  | nil => cases hr
  | cons c cs =>
    simp only [gather] at hr
    cases hc : get c with
    | ok v => exact h c v hc
    | error e =>
      rw [hc] at hr
      cases hr

omit [CharZero F] in
/-- With a single row in the matrix the loop over at least two points fails. -/
theorem interpOnMesh_one_row {cMat : List (List F)} {q : NArr F} {n : Nat} {basis : String} {c2p : Bool}
    {ns : List Nat} (hns : meshCounts n basis q.shape.dropLast.length = .ok ns) (h2 : 2 ≤ ns.prod)
    (hc : cMat.length = 1) (r : NArr F) : interpOnMesh cMat q n basis c2p ≠ .ok r := by
  intro hr
  unfold interpOnMesh at hr
  simp only [hns, bind, Except.bind] at hr
  obtain ⟨k, hk⟩ : ∃ k, ns.prod = k + 2 := ⟨ns.prod - 2, by omega⟩
  have hrange : List.range (k + 2) = 0 :: 1 :: (List.range k).map (· + 2) := by
    rw [List.range_succ_eq_map, List.range_succ_eq_map]
    simp [Function.comp_def]
  rw [hk, hrange] at hr
  generalize (NArr.zeros _ : NArr F) = out at hr
  rw [List.foldlM_cons] at hr
  have h1 : ∀ out' : NArr F, meshStep cMat q q.shape.dropLast ns c2p out' 1 = .error .indexError := by
    intro out'
    unfold meshStep
    have : cMat[1]? = none := List.getElem?_eq_none (by omega)
    simp only [this]
  cases h0 : meshStep cMat q q.shape.dropLast ns c2p out 0 with
  | error e => rw [h0] at hr; cases hr
  | ok v =>
    rw [h0] at hr
    simp only [bind, Except.bind, List.foldlM_cons, h1] at hr
    cases hr

theorem prod_replicate_two {d : Nat} (hd : 1 ≤ d) : 2 ≤ (List.replicate d 2).prod := by
  rw [List.prod_replicate]
  calc 2 = 2 ^ 1 := rfl
    _ ≤ 2 ^ d := Nat.pow_le_pow_right (by omega) hd

end Dg
end Pgkyl
