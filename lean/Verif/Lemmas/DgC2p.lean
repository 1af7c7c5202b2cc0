import Verif.Lemmas.DgNodal
/-! # Lemmas: interpolation of mapped grids stored as expansions -/

namespace Pgkyl
namespace Dg
open Spec

/-! ## Which entries a local point fills (shared nodes) -/

theorem stridedLen_node {c n s : Nat} (hn : 1 ≤ n) (hs : s ≤ n) :
    NArr.stridedLen (c * n + 1) (s, c * n + s, n) = c := by
  unfold NArr.stridedLen
  simp only
  rcases Nat.eq_zero_or_pos s with h | h
  · subst h
    rw [Nat.add_zero, Nat.sub_zero, Nat.min_eq_left (by omega)]
    rw [show c * n + (n - 1) = (n - 1) + n * c by ring, Nat.add_mul_div_left _ _ (by omega),
      Nat.div_eq_of_lt (by omega), Nat.zero_add]
  · rw [Nat.min_eq_right (by omega)]
    cases c with
    | zero =>
      rw [Nat.zero_mul, Nat.zero_add]
      exact Nat.div_eq_of_lt (by omega)
    | succ c =>
      have : (c + 1) * n + 1 - s + (n - 1) = (n - s) + n * (c + 1) := by
        rw [Nat.mul_comm n]
        have : n ≤ (c + 1) * n := Nat.le_mul_of_pos_left _ (by omega)
        omega
      rw [this, Nat.add_mul_div_left _ _ (by omega), Nat.div_eq_of_lt (by omega), Nat.zero_add]

theorem stridedPos_node {c n s i pos : Nat}
    (h : NArr.stridedPos (c * n + 1) (s, c * n + s, n) i = some pos) : i = pos * n + s := by
  unfold NArr.stridedPos at h
  simp only at h
  split at h
  · rename_i hc
    injection h with h
    have h3 := Nat.div_add_mod (i - s) n
    rw [hc.2.2, h, Nat.add_zero] at h3
    rw [Nat.mul_comm]
    omega
  · cases h

theorem stridedPos_node_ex {c n i : Nat} (hn : 1 ≤ n) (hc : 1 ≤ c) (hi : i < c * n + 1) :
    ∃ s pos, s ≤ n ∧ NArr.stridedPos (c * n + 1) (s, c * n + s, n) i = some pos := by
  rcases Nat.lt_or_ge i (c * n) with h | h
  · refine ⟨i % n, i / n, (Nat.mod_lt _ (by omega)).le, ?_⟩
    have hdm := Nat.div_add_mod i n
    have h1 : i - i % n = n * (i / n) := by omega
    unfold NArr.stridedPos
    simp only
    rw [if_pos ⟨by omega, by omega, by rw [h1]; exact Nat.mul_mod_right _ _⟩, h1, Nat.mul_div_cancel_left _ (by omega)]
  · have hi' : i = c * n := by omega
    subst hi'
    refine ⟨n, c - 1, le_rfl, ?_⟩
    have h1 : c * n - n = n * (c - 1) := by
      rw [Nat.mul_sub, Nat.mul_one, Nat.mul_comm]
    have h2 : n ≤ c * n := Nat.le_mul_of_pos_left _ (by omega)
    unfold NArr.stridedPos
    simp only
    rw [if_pos ⟨h2, by omega, by rw [h1]; exact Nat.mul_mod_right _ _⟩, h1, Nat.mul_div_cancel_left _ (by omega)]

theorem meshSlices_node {n : Nat} (hn : 1 ≤ n) {cells start : List Nat}
    (hs : inRange (List.replicate cells.length (n + 1)) start = true) :
    (cells.map (· * n + 1)).length = (meshSlices true cells (List.replicate cells.length (n + 1)) start).length ∧
    (∀ s ∈ meshSlices true cells (List.replicate cells.length (n + 1)) start, 0 < s.2.2) ∧
    cells = List.zipWith NArr.stridedLen (cells.map (· * n + 1))
      (meshSlices true cells (List.replicate cells.length (n + 1)) start) := by
  induction cells generalizing start with
  | nil => simp [meshSlices]
  | cons c cs ih => cases start with
    | nil => simp [inRange, List.replicate_succ] at hs
    | cons s ss =>
      simp only [List.length_cons, List.replicate_succ, inRange, Bool.and_eq_true, decide_eq_true_eq] at hs
      obtain ⟨h1, h2, h3⟩ := ih hs.2
      have e : meshSlices true (c :: cs) (List.replicate (c :: cs).length (n + 1)) (s :: ss) =
          (s, c * n + s, n) :: meshSlices true cs (List.replicate cs.length (n + 1)) ss := rfl
      rw [e]
      refine ⟨by simpa using h1, ?_, ?_⟩
      · intro t ht
        rcases List.mem_cons.1 ht with rfl | ht
        · show 0 < n
          omega
        · exact h2 t ht
      · simp only [List.map_cons, List.zipWith_cons_cons]
        rw [stridedLen_node hn (by omega), ← h3]

theorem hit_node {n : Nat} {cells start idx pos : List Nat}
    (hs : inRange (List.replicate cells.length (n + 1)) start = true)
    (hi : inRange (cells.map (· * n + 1)) idx = true)
    (h : NArr.hit (cells.map (· * n + 1)) (meshSlices true cells (List.replicate cells.length (n + 1)) start) idx =
      some pos) : idx = List.zipWith (fun c l => c * n + l) pos start := by
  induction cells generalizing start idx pos with
  | nil => cases start with
    | cons => simp [inRange] at hs
    | nil => cases idx with
      | cons => simp [inRange] at hi
      | nil => simp
  | cons c cs ih => cases start with
    | nil => simp [inRange, List.replicate_succ] at hs
    | cons s ss => cases idx with
      | nil => simp [inRange] at hi
      | cons i is =>
        simp only [List.length_cons, List.replicate_succ, inRange, Bool.and_eq_true, decide_eq_true_eq] at hs
        simp only [List.map_cons, inRange, Bool.and_eq_true, decide_eq_true_eq] at hi
        have e : meshSlices true (c :: cs) (List.replicate (c :: cs).length (n + 1)) (s :: ss) =
            (s, c * n + s, n) :: meshSlices true cs (List.replicate cs.length (n + 1)) ss := rfl
        rw [e, List.map_cons, NArr.hit_cons] at h
        cases hp : NArr.stridedPos (c * n + 1) (s, c * n + s, n) i with
        | none => rw [hp] at h; cases h
        | some p =>
          rw [hp] at h
          cases hq : NArr.hit (cs.map (· * n + 1)) (meshSlices true cs (List.replicate cs.length (n + 1)) ss) is with
          | none => rw [hq] at h; cases h
          | some ps =>
            rw [hq] at h
            simp only [Option.bind_some, Option.map_some, Option.some.injEq] at h
            subst h
            rw [List.zipWith_cons_cons, ← ih hs.2 hi.2 hq, ← stridedPos_node hp]

theorem hit_node_ex {n : Nat} (hn : 1 ≤ n) {cells idx : List Nat} (hc : ∀ c ∈ cells, 1 ≤ c)
    (hi : inRange (cells.map (· * n + 1)) idx = true) :
    ∃ start pos, inRange (List.replicate cells.length (n + 1)) start = true ∧
      NArr.hit (cells.map (· * n + 1)) (meshSlices true cells (List.replicate cells.length (n + 1)) start) idx =
        some pos := by
  induction cells generalizing idx with
  | nil => cases idx with
    | cons => simp [inRange] at hi
    | nil => exact ⟨[], [], rfl, rfl⟩
  | cons c cs ih => cases idx with
    | nil => simp [inRange] at hi
    | cons i is =>
      simp only [List.map_cons, inRange, Bool.and_eq_true, decide_eq_true_eq] at hi
      obtain ⟨ss, ps, h1, h2⟩ := ih (fun x hx => hc x (List.mem_cons_of_mem _ hx)) hi.2
      obtain ⟨s, p, h3, h4⟩ := stridedPos_node_ex hn (hc c List.mem_cons_self) hi.1
      refine ⟨s :: ss, p :: ps, ?_, ?_⟩
      · simp only [List.length_cons, List.replicate_succ, inRange, Bool.and_eq_true, decide_eq_true_eq]
        exact ⟨by omega, h1⟩
      · have e : meshSlices true (c :: cs) (List.replicate (c :: cs).length (n + 1)) (s :: ss) =
            (s, c * n + s, n) :: meshSlices true cs (List.replicate cs.length (n + 1)) ss := rfl
        rw [e, List.map_cons, NArr.hit_cons, h4, h2]
        rfl

/-! ## One coordinate -/

variable {F : Type} [_root_.Field F] [CharZero F]

omit [CharZero F] in
theorem zipWith_pointsC {n : Nat} {start : List Nat} {d : Nat}
    (hs : inRange (List.replicate d (n + 1)) start = true) :
    List.zipWith (fun (l : List F) i => l.getD i 0) (List.replicate d (points true (n + 1))) start =
      start.map fun (l : Nat) => -1 + (l : F) * 2 / (n : F) := by
  induction start generalizing d with
  | nil => simp
  | cons s ss ih => cases d with
    | zero => simp [inRange] at hs
    | succ d =>
      simp only [List.replicate_succ, inRange, Bool.and_eq_true, decide_eq_true_eq] at hs
      simp only [List.replicate_succ, List.zipWith_cons_cons]
      rw [ih hs.2]
      congr 1
      rw [points, List.getD_eq_getElem?_getD, List.getElem?_map, List.getElem?_range hs.1]
      simp

omit [CharZero F] in
theorem c2pComp_ok {fns : List Poly} {q : NArr F} {cells : List Nat} {g : List Nat → Nat → F} {basis : String}
    {n : Nat} (hq : IsField q cells fns.length g) (hb : basis ≠ "gkhybrid" ∧ basis ≠ "hybrid") (hn : 1 ≤ n)
    (hc : ∀ c ∈ cells, 1 ≤ c) :
    ∃ r, interpOnMesh (matrixOf fns (loopPoints (List.replicate cells.length (points true (n + 1))))) q (n + 1) basis
        true = .ok r ∧ r.WF ∧ r.shape = cells.map (· * n + 1) ∧
      ∀ idx, inRange (cells.map (· * n + 1)) idx = true →
        ∃ cell loc, inRange cells cell = true ∧ inRange (List.replicate cells.length (n + 1)) loc = true ∧
          idx = List.zipWith (fun c l => c * n + l) cell loc ∧
          r.get? idx = some (expand fns (g cell) (loc.map fun (l : Nat) => -1 + (l : F) * 2 / (n : F))) := by
  set cMat := matrixOf fns (loopPoints (List.replicate cells.length (points (F := F) true (n + 1)))) with hcm
  have hlens : (List.replicate cells.length (points (F := F) true (n + 1))).map List.length =
      List.replicate cells.length (n + 1) := by
    rw [List.map_replicate, points_length]
  have hrowget : ∀ k < (List.replicate cells.length (n + 1)).prod, ∃ row, cMat[k]? = some row ∧ row.length = fns.length := by
    intro k hk
    have hlt : k < (loopPoints (List.replicate cells.length (points (F := F) true (n + 1)))).length := by
      rw [loopPoints_length, hlens]; exact hk
    rw [hcm, matrixOf, List.getElem?_map, List.getElem?_eq_getElem hlt]
    exact ⟨_, rfl, by simp⟩
  have hpos : ∀ m ∈ List.replicate cells.length (n + 1), 0 < m := by
    intro m hm
    rw [List.eq_of_mem_replicate hm]; omega
  have hmc : meshCounts (n + 1) basis cells.length = .ok (List.replicate cells.length (n + 1)) := by
    unfold meshCounts
    rw [if_neg hb.1, if_neg hb.2, max_eq_left (by omega)]
  have hshape : List.zipWith (fun c m => if True then c * (m - 1) + 1 else c * m) cells
      (List.replicate cells.length (n + 1)) = cells.map (· * n + 1) := by
    simp only [if_true]
    rw [zipWith_replicate_eq_map']
    rfl
  obtain ⟨r, hr, hrw, hrs, hg⟩ := foldlM_meshStep (cMat := cMat) (q := q) (cells := cells)
    (ns := List.replicate cells.length (n + 1)) (c2p := true) (K := fns.length)
    (out := NArr.zeros (cells.map (· * n + 1))) hq.wf hq.shape (zeros_WF _) _ hrowget
    (fun k _ => meshSlices_node hn (unravelF_inRange hpos k))
  refine ⟨r, ?_, hrw, hrs, ?_⟩
  · unfold interpOnMesh
    simp only [hq.dropLast, hmc, bind, Except.bind]
    rw [hshape]
    exact hr
  · intro idx hidx
    rcases hg idx hidx with ⟨k, hk, pos, ha, hb', hc'⟩ | ⟨ha, -⟩
    · have hloc := unravelF_inRange hpos k
      refine ⟨pos, unravelF (List.replicate cells.length (n + 1)) k, hb', hloc, hit_node hloc hidx ha, ?_⟩
      rw [hc']
      congr 1
      have hrow : cMat.getD k [] = fns.map fun f => f.eval
          ((unravelF (List.replicate cells.length (n + 1)) k).map fun (l : Nat) => -1 + (l : F) * 2 / (n : F)) := by
        have h3 := loopPoints_get (pts := List.replicate cells.length (points (F := F) true (n + 1)))
          (is := unravelF (List.replicate cells.length (n + 1)) k) (by rw [hlens]; exact hloc)
        rw [hlens, ravelF_unravelF hk, zipWith_pointsC hloc] at h3
        rw [List.getD_eq_getElem?_getD, hcm, matrixOf, List.getElem?_map, h3]
        rfl
      rw [hrow, dotAt, expand, List.length_map]
      apply Finset.sum_congr rfl
      intro j hj
      have hj' : j < fns.length := Finset.mem_range.1 hj
      rw [hq.get _ hb' j hj']
      simp only [List.getD_eq_getElem?_getD, List.getElem?_map, List.getElem?_eq_getElem hj',
        Option.map_some, Option.getD_some]
      exact mul_comm _ _
    · exfalso
      obtain ⟨start, pos, h1, h2⟩ := hit_node_ex hn hc hidx
      have h3 := ha (ravelF (List.replicate cells.length (n + 1)) start) (ravelF_lt h1)
      rw [unravelF_ravelF h1] at h3
      rw [show (NArr.zeros (cells.map (· * n + 1)) : NArr F).shape = cells.map (· * n + 1) from rfl] at h3
      rw [h2] at h3
      cases h3

omit [CharZero F] in
theorem createInterp_c2p {dim p n : Nat} {b : String} {fns : List Poly} (hfn : interpFns dim p b true = .ok fns)
    (hb : b ≠ "gkhybrid" ∧ b ≠ "hybrid") : createInterpMatrix dim p b n true true =
      .ok (matrixOf fns (loopPoints (List.replicate dim (points (F := F) true (n + 1))))) := by
  unfold createInterpMatrix
  rw [hfn]
  simp only [bind, Except.bind, pure, Except.pure]
  unfold pointCounts
  simp only [if_true, if_neg hb.1, if_neg hb.2, ite_self]
  rw [List.map_const', List.length_range, List.map_replicate]

omit [_root_.Field F] [CharZero F] in
theorem mapM_range_get {α : Type} {g : Nat → Except Err α} {m : Nat} {l : List α}
    (h : (List.range m).mapM g = .ok l) : l.length = m ∧ ∀ (d : Nat) (x : α), l[d]? = some x → g d = .ok x := by
  have key : ∀ (is : List Nat) (l : List α), is.mapM g = .ok l →
      l.length = is.length ∧ ∀ (d : Nat) (x : α), l[d]? = some x → ∃ i, is[d]? = some i ∧ g i = .ok x := by
    intro is
    induction is with
    | nil =>
      intro l h
      injection h with h
      subst h
      exact ⟨rfl, by simp⟩
    | cons i is ih =>
      intro l h
      rw [List.mapM_cons] at h
      cases hg : g i with
      | error e => rw [hg] at h; cases h
      | ok y =>
        rw [hg] at h
        cases ht : is.mapM g with
        | error e => rw [ht] at h; cases h
        | ok ys =>
          rw [ht] at h
          injection h with h
          subst h
          obtain ⟨h1, h2⟩ := ih ys ht
          refine ⟨by simp [h1], fun d x hd => ?_⟩
          cases d with
          | zero =>
            simp only [List.getElem?_cons_zero, Option.some.injEq] at hd
            subst hd
            exact ⟨i, rfl, hg⟩
          | succ d =>
            simp only [List.getElem?_cons_succ] at hd ⊢
            exact h2 d x hd
  obtain ⟨h1, h2⟩ := key _ _ h
  rw [List.length_range] at h1
  refine ⟨h1, fun d x hd => ?_⟩
  obtain ⟨i, hi, hg⟩ := h2 d x hd
  rw [List.getElem?_eq_some_iff] at hi
  obtain ⟨hlt, hi⟩ := hi
  rw [List.getElem_range] at hi
  rw [hi]
  exact hg

theorem localPt_node {n : Nat} (hn : 1 ≤ n) {cells cell loc : List Nat} (hl : cell.length = cells.length)
    (hs : inRange (List.replicate cells.length (n + 1)) loc = true) :
    localPt (unitAxes (F := F) cells) cell
        (nodePt (refineAll (unitAxes cells) (List.replicate cells.length n))
          (List.zipWith (fun c l => c * n + l) cell loc)) =
      loc.map (fun (l : Nat) => -1 + (l : F) * 2 / (n : F)) ∧
    NodeOf n cell (List.zipWith (fun c l => c * n + l) cell loc) := by
  induction cells generalizing cell loc with
  | nil =>
    cases cell with
    | cons => simp at hl
    | nil => cases loc with
      | cons => simp [inRange] at hs
      | nil => exact ⟨rfl, .nil⟩
  | cons c cells ih => cases cell with
    | nil => simp at hl
    | cons k cell => cases loc with
      | nil => simp [inRange, List.replicate_succ] at hs
      | cons l loc =>
        simp only [List.length_cons, List.replicate_succ, inRange, Bool.and_eq_true, decide_eq_true_eq] at hs
        obtain ⟨h1, h2⟩ := ih (cell := cell) (loc := loc) (by simpa using hl) hs.2
        have hn0 : (n : F) ≠ 0 := Nat.cast_ne_zero.2 (by omega)
        constructor
        · simp only [unitAxes, List.map_cons, List.length_cons, List.replicate_succ, refineAll, List.zipWith_cons_cons,
            nodePt, localPt]
          rw [List.cons.injEq]
          refine ⟨?_, h1⟩
          unfold Axis.local Axis.mid Axis.refine Axis.node
          push_cast
          have h2 : (2 : F) ≠ 0 := OfNat.ofNat_ne_zero 2
          field_simp
          ring
        · refine .cons ⟨Nat.le_add_right _ _, ?_⟩ h2
          show k * n + l ≤ (k + 1) * n
          rw [Nat.add_mul]
          omega

omit [_root_.Field F] [CharZero F] in
theorem mapM_ex {α β : Type} {g : β → Except Err α} {is : List β} (h : ∀ i ∈ is, ∃ x, g i = .ok x) :
    ∃ l, is.mapM g = .ok l := by
  induction is with
  | nil => exact ⟨[], rfl⟩
  | cons i is ih =>
    obtain ⟨x, hx⟩ := h i List.mem_cons_self
    obtain ⟨l, hl⟩ := ih fun j hj => h j (List.mem_cons_of_mem _ hj)
    refine ⟨x :: l, ?_⟩
    rw [List.mapM_cons, hx, hl]
    rfl

omit [_root_.Field F] [CharZero F] in
theorem foldlM_set {α : Type} {step : List α → Nat → Except Err (List α)} {c m : Nat} {P : Nat → α → Prop}
    (h : ∀ d < m, ∃ a, P d a ∧ ∀ g, step g d = .ok (g.set (c + d) a)) (g : List α) :
    ∃ g', (List.range m).foldlM step g = .ok g' ∧ g'.length = g.length ∧
      (∀ i < c, g'[i]? = g[i]?) ∧ (∀ d < m, c + d < g.length → ∃ a, P d a ∧ g'[c + d]? = some a) := by
  induction m with
  | zero => exact ⟨g, rfl, rfl, fun _ _ => rfl, by omega⟩
  | succ m ih =>
    obtain ⟨g', h1, h2, h3, h4⟩ := ih fun d hd => h d (by omega)
    obtain ⟨a, ha, hs⟩ := h m (by omega)
    refine ⟨g'.set (c + m) a, ?_, by simp [h2], ?_, ?_⟩
    · rw [List.range_succ, List.foldlM_append, h1]
      simp only [bind, Except.bind, List.foldlM_cons, List.foldlM_nil, hs, pure, Except.pure]
    · intro i hi
      rw [List.getElem?_set_ne (by omega)]
      exact h3 i hi
    · intro d hd hl
      rcases Nat.lt_succ_iff_lt_or_eq.1 hd with hd | rfl
      · obtain ⟨b, hb, hg⟩ := h4 d hd hl
        exact ⟨b, hb, by rw [List.getElem?_set_ne (by omega), hg]⟩
      · exact ⟨a, ha, by rw [List.getElem?_set_self (by omega)]⟩

theorem meshArr_axis {x : NArr F} {a : Axis F} (hx : IsAxis x a) {n : Nat} (hn : 0 < n) :
    ∃ y, meshArr n x = .ok y ∧ IsAxis y (a.refine n) := by
  obtain ⟨l, hl1, hl2⟩ := makeMesh_axis hx hn
  refine ⟨_, ?_, hl2⟩
  unfold meshArr
  rw [hx.1]
  simp only [hl1, bind, Except.bind, pure, Except.pure]

omit [CharZero F] in
theorem meshArr_field {x : NArr F} {c K : Nat} {g : List Nat → Nat → F} (hx : IsField x [c] K g) (hc : 1 ≤ c)
    (n : Nat) : ∃ y, meshArr n x = .ok y := by
  unfold meshArr
  rw [hx.shape]
  simp only [List.cons_append, List.nil_append]
  rw [if_neg (by omega)]
  exact ⟨_, rfl⟩

/-- The values of `GInterpModal.interpolate`, on any reference axes. -/
theorem modal_values {src : Source F} {cells : List Nat} {m : Nat} {f : List Nat → Nat → F}
    {axes : List (Axis F)} (hv : IsField src.values cells m f) (hdim : src.numDims = cells.length)
    (hax : axes.map (·.cells) = cells) (hdx : ∀ a ∈ axes, a.dx ≠ 0) (hpos : 1 ≤ cells.length)
    {po : Option Nat} {b : Option String} {ni : Option Nat} {o : Interp F}
    (ho : modalInit src po b ni = .ok o)
    {fns : List Poly} (hfn : interpFns cells.length o.polyOrder o.basis true = .ok fns)
    (hg : cells.length = 1 → o.basis ≠ "gkhybrid") (h0 : o.polyOrder = 0 → o.basis = "serendipity")
    {n : Nat} (hn : o.numInterp = some n) (hn2 : 2 ≤ n)
    {comp : Comp} {cs : List Nat} (hcs : comp.list = .ok cs)
    (hm : ∀ c ∈ cs, (c + 1) * fns.length ≤ m) :
    BasisDim o.basis cells.length ∧
    ∃ values, (∀ grid, modalGrid o n (perCell o.basis cells.length n).prod = .ok grid →
        modalInterpolate o comp = .ok (grid, values)) ∧
      IsField values (List.zipWith (· * ·) cells (perCell o.basis cells.length n)) cs.length
        (fun idx j =>
          let cell := List.zipWith (· / ·) idx (perCell o.basis cells.length n)
          cellValue fns axes (fun k => f cell (cs.getD j 0 * fns.length + k)) cell
            (midPt (refineAll axes (perCell o.basis cells.length n)) idx)) := by
  obtain ⟨h1, h2, h3, -⟩ := modalInit_ok ho
  subst h1
  have hal : axes.length = cells.length := by rw [← hax, List.length_map]
  have hbd : BasisDim o.basis cells.length :=
    basisDim_of hfn hpos (fun hd => ⟨hg hd, h3 (by rw [hdim]; exact hd)⟩)
  have hK : fns.length = o.numNodes := by
    rw [hdim] at h2 h3
    exact interpFns_size hfn h2 (fun hd => ⟨hg hd, h3 hd, h0⟩)
  refine ⟨hbd, ?_⟩
  generalize hns : perCell o.basis cells.length n = ns
  set cMat := matrixOf fns (loopPoints (ns.map (points (F := F) false))) with hcm
  have hcreate : createInterpMatrix o.src.numDims o.polyOrder o.basis n true false = .ok cMat := by
    unfold createInterpMatrix
    rw [hdim, hfn, pointCounts_eq hbd, hns]
    rfl
  obtain ⟨values, hv, hvf⟩ := gather_ok (get := fun c => do interpOnMesh cMat (← rawModal o c) n o.basis false)
    (cells := List.zipWith (· * ·) cells ns)
    (v := fun c idx => cellValue fns axes (fun k => f (List.zipWith (· / ·) idx ns) (c * fns.length + k))
      (List.zipWith (· / ·) idx ns) (midPt (refineAll axes ns) idx))
    (comp_list_ne hcs) (fun c hc => by
      obtain ⟨q, hq, hqf⟩ := rawModal_ok hv (c := c) (by rw [← hK]; exact hm c hc)
      rw [← hK] at hqf
      obtain ⟨r, hr, hrp⟩ := interpComp_ok (axes := axes) (basis := o.basis) (n := n) (cMat := cMat) hqf hbd hn2
        (by rw [hcm, hns]) hdx hal
      rw [hns] at hrp
      refine ⟨r, ?_, hrp⟩
      simp only [hq, bind, Except.bind]
      exact hr)
  have hrows : cMat.length = ns.prod := by
    rw [hcm, matrixOf, List.length_map, loopPoints_length, List.map_map]
    congr 1
    conv_rhs => rw [← List.map_id ns]
    apply List.map_congr_left
    intro x _
    simp [points_length]
  refine ⟨values, ?_, hvf⟩
  intro grid hmg
  unfold modalInterpolate
  simp only [bind, Except.bind] at hv
  simp only [hn, hcreate, hcs, hv, hrows, hmg, bind, Except.bind, pure, Except.pure]

theorem truthyIdx_get {row : List Nat} {k i : Nat} (h : truthyIdx row k = some i) : row[i]? = some k ∧ 1 ≤ i := by
  unfold truthyIdx at h
  split at h
  · rename_i j hj
    injection h with h
    subst h
    rw [List.findIdx?_eq_some_iff_getElem] at hj
    obtain ⟨hlt, hv, -⟩ := hj
    rw [decide_eq_true_eq] at hv
    exact ⟨by rw [List.getElem?_eq_getElem hlt, hv], by omega⟩
  · cases h

theorem pyGet_of {α : Type} {l : List α} {i : Nat} {x : α} {j : Int} (hj : j = (i : Int))
    (h : l[i]? = some x) : pyGet l j = .ok x := by
  subst hj
  unfold pyGet
  simp only [Int.natCast_nonneg, Int.not_lt.2, if_false, if_true, Int.toNat_natCast, h]

/-- The basis guessed from the number of components has that number of coefficients. -/
theorem basisOf_size {dim K p : Nat} {b : String} (h : basisOf dim K = .ok (some (b, p))) :
    numNodes dim p b = .ok K ∧ 1 ≤ p ∧ (b = "serendipity" ∨ b = "tensor") := by
  unfold basisOf at h
  cases hS : pyGet nodesSerendipity ((dim : Int) - 1) with
  | error e => rw [hS] at h; cases h
  | ok rowS =>
    cases hT : pyGet nodesTensor ((dim : Int) - 1) with
    | error e => rw [hS, hT] at h; cases h
    | ok rowT =>
      rw [hS, hT] at h
      simp only [bind, Except.bind, pure, Except.pure] at h
      cases ht : truthyIdx rowT K with
      | some i =>
        rw [ht] at h
        simp only [Except.ok.injEq, Option.some.injEq, Prod.mk.injEq] at h
        obtain ⟨rfl, rfl⟩ := h
        obtain ⟨h1, h2⟩ := truthyIdx_get ht
        refine ⟨?_, by omega, Or.inr rfl⟩
        unfold numNodes
        rw [if_neg (by decide), if_neg (by decide), if_pos rfl, hT]
        exact pyGet_of (by omega) h1
      | none =>
        rw [ht] at h
        cases hs : truthyIdx rowS K with
        | none => rw [hs] at h; cases h
        | some i =>
          rw [hs] at h
          simp only [Option.map_some, Except.ok.injEq, Option.some.injEq, Prod.mk.injEq] at h
          obtain ⟨rfl, rfl⟩ := h
          obtain ⟨h1, h2⟩ := truthyIdx_get hs
          refine ⟨?_, h2, Or.inl rfl⟩
          unfold numNodes
          rw [if_pos rfl, hS]
          exact pyGet_of rfl h1

end Dg
end Pgkyl
