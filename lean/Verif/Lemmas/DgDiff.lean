import Verif.Lemmas.DgDeriv
/-! # Lemmas: `differentiate` on whole datasets -/

namespace Pgkyl
namespace Dg
open Spec
variable {F : Type} [_root_.Field F]

theorem midPt_length {axes : List (Axis F)} {ks : List Nat} (h : ks.length = axes.length) :
    (midPt axes ks).length = axes.length := by
  induction axes generalizing ks with
  | nil => rfl
  | cons a axes ih => cases ks with
    | nil => simp at h
    | cons k ks => simp [midPt, ih (by simpa using h)]

/-- The value `differentiate` computes for direction `i` in cell `idx` of the refined mesh. -/
def dirValue (fns : List Poly) (axes : List (Axis F)) (coef : List Nat → Nat → F) (ns : List Nat)
    (i : Nat) (idx : List Nat) : F :=
  cellValue (fns.map (Poly.diff i)) axes (coef (List.zipWith (· / ·) idx ns)) (List.zipWith (· / ·) idx ns)
    (midPt (refineAll axes ns) idx)

theorem cellSize_ok {o : Interp F} {cells : List Nat} {m : Nat} {f : List Nat → Nat → F}
    {axes : List (Axis F)} (h : OnMesh o.src cells m f axes) {i : Nat} {a : Axis F} (ha : axes[i]? = some a)
    (hc : 0 < a.cells) : cellSize o i = .ok a.dx := by
  have hm := h.grid
  unfold IsMesh at hm
  have : ∃ x, o.src.grid[i]? = some x ∧ IsAxis x a := by
    generalize o.src.grid = g at hm
    clear h hc
    induction hm generalizing i with
    | nil => simp at ha
    | @cons x b g axes hx _ ih => cases i with
      | zero =>
        simp only [List.getElem?_cons_zero, Option.some.injEq] at ha
        subst ha
        exact ⟨x, rfl, hx⟩
      | succ i =>
        obtain ⟨y, hy1, hy2⟩ := ih (by simpa using ha)
        exact ⟨y, by simpa using hy1, hy2⟩
  obtain ⟨x, hx, hs, hd⟩ := this
  unfold cellSize
  have h0 : x.data[0]? = some (a.node 0) := by
    rw [hd, List.getElem?_map, List.getElem?_range (by omega)]; rfl
  have h1 : x.data[1]? = some (a.node 1) := by
    rw [hd, List.getElem?_map, List.getElem?_range (by omega)]; rfl
  simp only [hx, hs, h0, h1]
  congr 1
  simp [Axis.node]

variable [CharZero F]

theorem derivComp_ok {o : Interp F} {cells : List Nat} {fns : List Poly} {q : NArr F}
    {g : List Nat → Nat → F} {axes : List (Axis F)} {n i : Nat}
    (hd : o.src.numDims = cells.length) (hfn : derivFns cells.length o.polyOrder o.basis true = .ok fns)
    (hg : cells.length = 1 → o.basis ≠ "gkhybrid" ∧ o.basis ≠ "hybrid")
    (hp : 1 ≤ cells.length) (hn : 2 ≤ n) (hi : i < cells.length)
    (hq : IsField q cells fns.length g) (hdx : ∀ a ∈ axes, a.dx ≠ 0) (hal : axes.length = cells.length) :
    ∃ cMat, createDerivativeMatrix o.src.numDims o.polyOrder o.basis n true i = .ok cMat ∧
      GivesPlain (interpOnMesh cMat q n o.basis false)
        (List.zipWith (· * ·) cells (List.replicate cells.length n))
        (dirValue fns axes g (List.replicate cells.length n) i) := by
  have hnb : o.basis ≠ "gkhybrid" ∧ o.basis ≠ "hybrid" := by
    by_cases h1 : cells.length = 1
    · exact hg h1
    · rcases derivFns_basis hfn h1 with h | h <;> rw [h] <;> decide
  have hper : perCell o.basis cells.length n = List.replicate cells.length n := perCell_plain hnb.1 hnb.2
  have hbd : BasisDim o.basis cells.length :=
    ⟨hp, fun h => absurd h hnb.1, fun h => absurd h hnb.2⟩
  refine ⟨matrixOf (fns.map (Poly.diff i)) (loopPoints (List.replicate cells.length (points false n))), ?_, ?_⟩
  · unfold createDerivativeMatrix
    rw [hd, hfn]
    simp only [bind, Except.bind]
    rw [if_neg (by omega)]
    rfl
  · have := interpComp_ok (fns := fns.map (Poly.diff i)) (q := q) (g := g) (axes := axes) (basis := o.basis)
      (n := n) (cMat := matrixOf (fns.map (Poly.diff i)) (loopPoints (List.replicate cells.length (points false n))))
      (by rw [List.length_map]; exact hq) hbd hn (by rw [hper, List.map_replicate]) hdx hal
    rw [hper] at this
    exact this

/-- One component of the gradient, before the new axis. -/
def derivScaled (o : Interp F) (n : Nat) (q : NArr F) (i : Nat) : Except Err (NArr F) := do
  let cMat ← createDerivativeMatrix o.src.numDims o.polyOrder o.basis n true i
  let v ← interpOnMesh cMat q n o.basis false
  let dx ← cellSize o i
  return v.map1 fun x => x * (((2 : Nat) : F) / dx)

omit [CharZero F] in
theorem derivNext_eq (o : Interp F) (n : Nat) (q : NArr F) :
    derivNext o n q = fun acc i => (do
      acc.appendLast ((← derivScaled o n q i).newLast)) := by
  funext acc i
  simp only [derivNext, derivScaled, bind_assoc, pure_bind]

omit [_root_.Field F] [CharZero F] in
theorem isPlain_map1 {a : NArr F} {cells : List Nat} {f : List Nat → F} (h : IsPlain a cells f) (op : F → F) :
    IsPlain (a.map1 op) cells fun i => op (f i) :=
  ⟨NArr.map1_WF h.wf, h.shape, fun i hi => by rw [NArr.map1_get?, h.get i hi]; rfl⟩

theorem deriv_grid {o : Interp F} {cells : List Nat} {m : Nat} {f : List Nat → Nat → F}
    {axes : List (Axis F)} (h : OnMesh o.src cells m f axes) {n : Nat} (hn : 2 ≤ n) :
    ∃ grid, make1Dgrids (List.replicate o.src.numDims (rootRound (n ^ o.src.numDims) o.src.numDims))
      o.src.grid o.src.numDims (some o.src.gridType) = .ok grid ∧
      IsMesh grid (refineAll axes (List.replicate cells.length n)) := by
  have hp := h.pos
  obtain ⟨grid, hg, hm⟩ := make1Dgrids_mesh h.grid (ns := List.replicate cells.length n)
    (by rw [List.length_replicate, h.axes_length]) (by
      intro x hx
      rw [List.eq_of_mem_replicate hx]; omega)
  refine ⟨grid, ?_, hm⟩
  rw [h.uniform, h.dims, rootRound_pow (by omega)]
  rw [h.axes_length] at hg
  unfold make1Dgrids at hg ⊢
  rw [if_pos (Or.inl rfl)] at hg
  rw [if_pos (Or.inr rfl)]
  exact hg

theorem differentiate_ok {o : Interp F} {cells : List Nat} {m : Nat} {f : List Nat → Nat → F}
    {axes : List (Axis F)} (h : OnMesh o.src cells m f axes) {fns : List Poly}
    (hfn : derivFns cells.length o.polyOrder o.basis true = .ok fns)
    (hg : cells.length = 1 → o.basis ≠ "gkhybrid" ∧ o.basis ≠ "hybrid")
    (hK : fns.length = o.numNodes) {n : Nat} (hni : o.numInterp = some n) (hn : 2 ≤ n)
    (hc : ∀ x ∈ cells, 0 < x) {c : Nat} (hm : (c + 1) * fns.length ≤ m) :
    ∃ grid, IsMesh grid (refineAll axes (List.replicate cells.length n)) ∧
      (∀ (i : Nat) (a : Axis F), axes[i]? = some a →
        ∃ v, modalDifferentiate o (some i) c = .ok (grid, v) ∧
          IsField v (List.zipWith (· * ·) cells (List.replicate cells.length n)) 1
            (fun idx _ => dirValue fns axes (fun cell k => f cell (c * fns.length + k))
              (List.replicate cells.length n) i idx * 2 / a.dx)) ∧
      ∃ v, modalDifferentiate o none c = .ok (grid, v) ∧
        IsField v (List.zipWith (· * ·) cells (List.replicate cells.length n)) cells.length
          (fun idx i => dirValue fns axes (fun cell k => f cell (c * fns.length + k))
            (List.replicate cells.length n) i idx * (if i = 0 then 1 else 2) /
              ((axes.map (·.dx)).getD i 0)) := by
  have hal := h.axes_length
  obtain ⟨grid, hgr, hgm⟩ := deriv_grid h hn
  obtain ⟨q, hq, hqf⟩ := rawModal_ok h.values (c := c) (by rw [← hK]; exact hm)
  rw [← hK] at hqf
  have hcell : ∀ (i : Nat) (a : Axis F), axes[i]? = some a → 0 < a.cells := by
    intro i a ha
    apply hc
    rw [← h.cells_eq]
    exact List.mem_map_of_mem (List.mem_of_getElem? ha)
  have hget : ∀ (i : Nat), i < cells.length → ∃ a, axes[i]? = some a := by
    intro i hi
    exact ⟨_, List.getElem?_eq_getElem (by rw [hal]; exact hi)⟩
  have one : ∀ (i : Nat) (a : Axis F), axes[i]? = some a →
      ∃ cMat v, createDerivativeMatrix o.src.numDims o.polyOrder o.basis n true i = .ok cMat ∧
        interpOnMesh cMat q n o.basis false = .ok v ∧ cellSize o i = .ok a.dx ∧
        IsPlain v (List.zipWith (· * ·) cells (List.replicate cells.length n))
          (dirValue fns axes (fun cell k => f cell (c * fns.length + k)) (List.replicate cells.length n) i) := by
    intro i a ha
    have hi : i < cells.length := by rw [← hal]; exact (List.getElem?_eq_some_iff.1 ha).1
    obtain ⟨cMat, h1, v, h2, h3⟩ := derivComp_ok h.dims hfn hg h.pos hn hi hqf h.dx hal
    exact ⟨cMat, v, h1, h2, cellSize_ok h ha (hcell i a ha), h3⟩
  refine ⟨grid, hgm, ?_, ?_⟩
  · intro i a ha
    obtain ⟨cMat, v, h1, h2, h3, h4⟩ := one i a ha
    refine ⟨(v.map1 fun x => x * ((2 : Nat) : F) / a.dx).newLast, ?_, ?_⟩
    · unfold modalDifferentiate
      simp only [hni, hq, derivAlong, h1, h2, h3, hgr, bind, Except.bind, pure, Except.pure]
    · refine (isPlain_newLast (isPlain_map1 h4 _)).congr fun idx _ _ _ => ?_
      simp
  · obtain ⟨a0, ha0⟩ := hget 0 (by have := h.pos; omega)
    obtain ⟨cMat, v, h1, h2, h3, h4⟩ := one 0 a0 ha0
    have hfirst : derivFirst o n q = .ok (v.map1 fun x => x / a0.dx).newLast := by
      simp only [derivFirst, h1, h2, h3, bind, Except.bind, pure, Except.pure]
    obtain ⟨w, hw, hwf⟩ := foldlM_append (get := derivScaled o n q)
      (cells := List.zipWith (· * ·) cells (List.replicate cells.length n))
      (v := fun i idx => dirValue fns axes (fun cell k => f cell (c * fns.length + k))
            (List.replicate cells.length n) i idx * (if i = 0 then 1 else 2) / ((axes.map (·.dx)).getD i 0))
      (List.range' 1 (cells.length - 1)) (by
        intro i hi
        rw [List.mem_range'_1] at hi
        obtain ⟨a, ha⟩ := hget i (by omega)
        obtain ⟨cMat, v, h1, h2, h3, h4⟩ := one i a ha
        refine ⟨v.map1 fun x => x * (((2 : Nat) : F) / a.dx), ?_, ?_⟩
        · simp only [derivScaled, h1, h2, h3, bind, Except.bind, pure, Except.pure]
        · have := isPlain_map1 h4 fun x => x * (((2 : Nat) : F) / a.dx)
          refine ⟨this.wf, this.shape, fun idx hidx => ?_⟩
          rw [this.get idx hidx, if_neg (by omega)]
          congr 1
          have : (axes.map (·.dx)).getD i 0 = a.dx := by
            rw [List.getD_eq_getElem?_getD, List.getElem?_map, ha]; rfl
          rw [this]
          push_cast
          ring) [0] (v.map1 fun x => x / a0.dx).newLast (by simp) (by
        refine (isPlain_newLast (isPlain_map1 h4 _)).congr fun idx _ j hj => ?_
        have hj0 : j = 0 := by omega
        subst hj0
        have : (axes.map (·.dx)).getD 0 0 = a0.dx := by
          rw [List.getD_eq_getElem?_getD, List.getElem?_map, ha0]; rfl
        simp only [List.getD_cons_zero, if_true, this, mul_one])
    have hrange : [0] ++ List.range' 1 (cells.length - 1) = List.range cells.length := by
      have := h.pos
      rw [List.range_eq_range', show cells.length = (cells.length - 1) + 1 by omega, List.range'_succ]
      simp
    rw [hrange] at hwf
    rw [List.length_range] at hwf
    refine ⟨w, ?_, hwf.congr fun idx _ i hi => ?_⟩
    · unfold modalDifferentiate
      rw [← h.dims] at hw
      rw [← derivNext_eq] at hw
      simp only [hni, hq, hfirst, hgr, bind, Except.bind, pure, Except.pure]
      rw [hw]
    · rw [List.getD_eq_getElem?_getD, List.getElem?_range hi]
      rfl

omit [_root_.Field F] [CharZero F] in
theorem zipWith_replicate_eq_map' {α β γ : Type} (g : α → β → γ) (l : List α) (b : β) :
    List.zipWith g l (List.replicate l.length b) = l.map fun a => g a b := by
  induction l with
  | nil => rfl
  | cons x xs ih => simp [List.replicate_succ, ih]

omit [_root_.Field F] [CharZero F] in
theorem zipWith_replicate_eq_map (l : List Nat) (n : Nat) :
    List.zipWith (· * ·) l (List.replicate l.length n) = l.map (· * n) :=
  zipWith_replicate_eq_map' _ _ _

omit [CharZero F] in
theorem differentiate_grid {o : Interp F} {n : Nat} (hn : o.numInterp = some n) {dir : Option Nat} {c : Nat}
    {grid : List (NArr F)} {v : NArr F} (hok : modalDifferentiate o dir c = .ok (grid, v)) :
    make1Dgrids (List.replicate o.src.numDims (rootRound (n ^ o.src.numDims) o.src.numDims))
      o.src.grid o.src.numDims (some o.src.gridType) = .ok grid := by
  unfold modalDifferentiate at hok
  simp only [hn, bind, Except.bind, pure, Except.pure] at hok
  generalize make1Dgrids (List.replicate o.src.numDims (rootRound (n ^ o.src.numDims) o.src.numDims))
    o.src.grid o.src.numDims (some o.src.gridType) = R at hok
  cases R with
  | error e =>
    exfalso
    split at hok
    · cases hok
    · cases dir with
      | some d =>
        simp only at hok
        split at hok <;> cases hok
      | none =>
        simp only at hok
        split at hok
        · cases hok
        · split at hok <;> cases hok
  | ok g =>
    split at hok
    · cases hok
    · cases dir with
      | some d =>
        simp only at hok
        split at hok
        · cases hok
        · injection hok with hok
          injection hok with h1 h2
          rw [h1]
      | none =>
        simp only at hok
        split at hok
        · cases hok
        · split at hok
          · cases hok
          · injection hok with hok
            injection hok with h1 h2
            rw [h1]

omit [_root_.Field F] [CharZero F] in
theorem lineAt_self {x : NArr F} {N : Nat} (hs : x.shape = [N]) (hl : x.data.length = N) : lineAt x 0 = x := by
  have hx : x = NArr.ofList x.data := by
    obtain ⟨s, d⟩ := x
    simp only at hs hl
    subst hs hl
    rfl
  have key : ∀ idx, inRange [N] idx = true →
      x.get? ((List.replicate x.shape.length 0).set 0 (idx.headD 0)) = x.get? idx := by
    intro idx hi
    cases idx with
    | nil => simp [inRange] at hi
    | cons i is => cases is with
      | nil => rw [hs]; rfl
      | cons => simp [inRange] at hi
  have hw : x.WF := by simp [NArr.WF, hs, hl]
  have hsome : ∀ idx, inRange [N] idx = true →
      (x.get? ((List.replicate x.shape.length 0).set 0 (idx.headD 0))).isSome := by
    intro idx hi
    rw [key idx hi]
    exact NArr.get?_isSome hw (by rw [hs]; exact hi)
  have hsh : x.shape.getD 0 0 = N := by rw [hs]; rfl
  unfold lineAt
  rw [hsh]
  refine NArr.ext_get? (NArr.ofFn_WF hsome) hw hs.symm fun idx hi => ?_
  rw [NArr.ofFn_get? hsome hi, key idx hi]

theorem mapped_mesh {x : NArr F} {N : Nat} {node : Nat → F} (hN : 1 ≤ N)
    (hx : x.shape = [N + 1] ∧ x.data = (List.range (N + 1)).map node) {n : Nat} (hn1 : 1 ≤ n)
    {grid : List (NArr F)}
    (hok : make1Dgrids (List.replicate 1 n) [x] 1 (some "mapped") = .ok grid) :
    ∃ g, grid = [g] ∧ g.shape = [N * n + 1] ∧
      ∀ k < N, ∀ j ≤ n, g.get? [k * n + j] = some (node k + (j : F) / (n : F) * (node (k + 1) - node k)) := by
  obtain ⟨hs, hd⟩ := hx
  have hl : x.data.length = N + 1 := by rw [hd]; simp
  have hget : ∀ t, t ≤ N → x.data[t]? = some (node t) := by
    intro t ht
    rw [hd, List.getElem?_map, List.getElem?_range (by omega)]; rfl
  have hlast : x.data.getLast? = some (node N) := by
    rw [List.getLast?_eq_getElem?, hl]
    exact hget N le_rfl
  have hprev : x.data[N + 1 - 2]? = some (node (N - 1)) := hget (N - 1) (by omega)
  unfold make1Dgrids at hok
  rw [if_neg (by decide), if_pos rfl] at hok
  simp only [List.range_one, List.mapM_cons, List.mapM_nil, List.replicate_one,
    List.getElem?_cons_zero, hs, List.length_cons, List.length_nil, Nat.reduceAdd, Nat.reduceSub,
    if_true, bind, Except.bind, pure, Except.pure] at hok
  rw [lineAt_self hs hl] at hok
  unfold makeMesh at hok
  simp only [hs] at hok
  rw [if_neg (by decide), if_pos trivial] at hok
  simp only [hlast, hprev, Nat.add_sub_cancel] at hok
  rw [if_neg (by omega)] at hok
  injection hok with hok
  have hn0 : (n : F) ≠ 0 := by exact_mod_cast (show n ≠ 0 by omega)
  obtain ⟨gg, hgk, hok⟩ : ∃ gg : Nat → List F, (∀ i < N, gg i = (List.range n).map fun (j : Nat) =>
        node i + (j : F) * ((node (i + 1) - node i) / (n : F))) ∧
      [NArr.ofList ((List.range N).flatMap gg ++ [node (N - 1) + (n : F) * ((node N - node (N - 1)) / (n : F))])] =
        grid := by
    refine ⟨_, fun i hi => ?_, hok⟩
    simp only [hget i (by omega), hget (i + 1) (by omega)]
  have hlen : ∀ i < N, (gg i).length = n := by
    intro i hi
    rw [hgk i hi]; simp
  have hfl : ∀ M ≤ N, ((List.range M).flatMap gg).length = M * n := by
    intro M
    induction M with
    | zero => simp
    | succ M ih =>
      intro hM
      rw [List.range_succ, List.flatMap_append, List.length_append, ih (by omega)]
      simp [hlen M (by omega)]; ring
  refine ⟨_, hok.symm, ?_, ?_⟩
  · simp [NArr.ofList, hfl N le_rfl]
  · have inner : ∀ k < N, ∀ j < n, (NArr.ofList ((List.range N).flatMap gg ++
        [node (N - 1) + (n : F) * ((node N - node (N - 1)) / (n : F))])).get? [k * n + j] =
        some (node k + (j : F) / (n : F) * (node (k + 1) - node k)) := by
      intro k hk j hj
      rw [NArr.ofList_get?, List.getElem?_append_left, getElem?_flatMap_range gg n N hlen k j hk hj, hgk k hk,
        List.getElem?_map, List.getElem?_range hj]
      · simp only [Option.map_some]
        congr 2
        ring
      · rw [hfl N le_rfl]
        calc k * n + j < k * n + n := by omega
          _ = (k + 1) * n := by ring
          _ ≤ N * n := Nat.mul_le_mul_right _ hk
    intro k hk j hj
    rcases Nat.lt_or_eq_of_le hj with hj | hj
    · exact inner k hk j hj
    · subst hj
      have hval : node k + (j : F) / (j : F) * (node (k + 1) - node k) = node (k + 1) := by
        rw [div_self hn0]; ring
      rw [hval, show k * j + j = (k + 1) * j by ring]
      rcases Nat.lt_or_eq_of_le (show k + 1 ≤ N by omega) with h | h
      · have := inner (k + 1) h 0 (by omega)
        simpa using this
      · rw [NArr.ofList_get?, List.getElem?_append_right (by rw [hfl N le_rfl, h]), hfl N le_rfl, h]
        simp only [Nat.sub_self, List.getElem?_cons_zero]
        congr 1
        rw [mul_div_cancel₀ _ hn0]
        ring

end Dg
end Pgkyl
