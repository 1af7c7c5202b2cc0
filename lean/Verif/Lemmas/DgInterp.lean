import Verif.Lemmas.Dg
import Verif.Lemmas.GkylProps
import Verif.Lemmas.DgTables
/-! # Lemmas: the interpolation of whole datasets -/

namespace Pgkyl
namespace Dg
open Spec
variable {F : Type}

/-! ## Numbers of points -/

theorem rootRound_pow {n d : Nat} (hd : 0 < d) : rootRound (n ^ d) d = n := by
  have hlt : ∀ k : Nat, k < n → ¬ (2 ^ d * n ^ d < (2 * k + 1) ^ d) := by
    intro k hk h
    rw [← Nat.mul_pow] at h
    have : 2 * n < 2 * k + 1 := lt_of_pow_lt_pow_left₀ d (by omega) h
    omega
  have hn : 2 ^ d * n ^ d < (2 * n + 1) ^ d := by
    rw [← Nat.mul_pow]
    exact Nat.pow_lt_pow_left (by omega) (by omega)
  have hle : n ≤ n ^ d := Nat.le_self_pow (by omega) n
  unfold rootRound
  have : (List.range (n ^ d + 1)).find? (fun k => decide (2 ^ d * n ^ d < (2 * k + 1) ^ d)) = some n := by
    rw [List.find?_range_eq_some]
    refine ⟨by simpa using hn, by simp; omega, ?_⟩
    intro j hj
    simpa using Nat.le_of_not_lt (hlt j hj)
  rw [this]
  rfl

/-- The bases in the dimensions for which the numbers of points are defined. -/
def BasisDim (basis : String) (dims : Nat) : Prop :=
  1 ≤ dims ∧ (basis = "gkhybrid" → 2 ≤ dims ∧ dims ≤ 5) ∧ (basis = "hybrid" → 2 ≤ dims)

theorem perCell_length (basis : String) (dims n : Nat) : (perCell basis dims n).length = dims := by
  simp [perCell]

theorem perCell_pos {basis : String} {dims n : Nat} (hn : 0 < n) : ∀ m ∈ perCell basis dims n, 0 < m := by
  intro m hm
  simp only [perCell, List.mem_map] at hm
  obtain ⟨d, -, rfl⟩ := hm
  generalize (if dims < 2 then none else _ : Option Nat) = v
  by_cases h : v = some d
  · rw [if_pos h]; omega
  · rw [if_neg h]; omega

theorem replicate_set (dims v a b : Nat) :
    (List.replicate dims a).set v b = (List.range dims).map fun d => if v = d then b else a := by
  apply List.ext_getElem?
  intro i
  rw [List.getElem?_set, List.getElem?_map]
  by_cases hi : i < dims
  · rw [List.getElem?_range hi, List.getElem?_replicate, if_pos hi]
    by_cases h : v = i
    · simp [h, hi]
    · simp [h]
  · rw [List.getElem?_replicate, if_neg hi, List.getElem?_eq_none (l := List.range dims) (by simp; omega)]
    simp; omega

theorem replicate_eq (dims a : Nat) : List.replicate dims a = (List.range dims).map fun _ => a := by
  simp

theorem meshCounts_eq {basis : String} {dims n : Nat} (hb : BasisDim basis dims) (hn : 2 ≤ n) :
    meshCounts n basis dims = .ok (perCell basis dims n) := by
  obtain ⟨h1, h2, h3⟩ := hb
  have hmax : max n 2 = n := by omega
  unfold meshCounts perCell
  rw [hmax]
  by_cases hg : basis = "gkhybrid"
  · obtain ⟨h4, h5⟩ := h2 hg
    have : dims = 2 ∨ dims = 3 ∨ dims = 4 ∨ dims = 5 := by omega
    subst hg
    rcases this with rfl | rfl | rfl | rfl <;> rfl
  · simp only [if_neg hg]
    by_cases hh : basis = "hybrid"
    · have := h3 hh
      simp only [if_pos hh]
      rw [if_neg (by omega), replicate_set]
      congr 1
      apply List.map_congr_left
      intro d _
      rw [if_neg (by omega : ¬ dims < 2)]
      simp [eq_comm]
    · simp only [if_neg hh]
      rw [replicate_eq]
      congr 1
      apply List.map_congr_left
      intro d _
      split <;> simp_all

theorem pointCounts_eq {basis : String} {dims n : Nat} (hb : BasisDim basis dims) :
    pointCounts dims basis n false = perCell basis dims n := by
  obtain ⟨h1, h2, h3⟩ := hb
  unfold pointCounts perCell
  simp only [Bool.false_eq_true, if_false]
  by_cases hg : basis = "gkhybrid"
  · obtain ⟨h4, h5⟩ := h2 hg
    have : dims = 2 ∨ dims = 3 ∨ dims = 4 ∨ dims = 5 := by omega
    subst hg
    rcases this with rfl | rfl | rfl | rfl <;> rfl
  · apply List.map_congr_left
    intro d _
    simp only [if_neg hg]
    by_cases hh : basis = "hybrid"
    · have := h3 hh
      rw [if_neg (by omega), if_pos hh, if_neg (by omega : ¬ dims < 2), if_pos hh]
      simp [eq_comm]
    · simp [hh]

theorem perCell_plain {basis : String} {dims n : Nat} (hg : basis ≠ "gkhybrid") (hh : basis ≠ "hybrid") :
    perCell basis dims n = List.replicate dims n := by
  rw [replicate_eq]
  unfold perCell
  apply List.map_congr_left
  intro d _
  simp [hg, hh]

theorem gridCounts_eq {basis : String} {dims n : Nat} (hb : BasisDim basis dims) :
    gridCounts basis n (perCell basis dims n).prod dims = .ok (perCell basis dims n) := by
  obtain ⟨h1, h2, h3⟩ := hb
  unfold gridCounts
  by_cases hg : basis = "gkhybrid"
  · obtain ⟨h4, h5⟩ := h2 hg
    have : dims = 2 ∨ dims = 3 ∨ dims = 4 ∨ dims = 5 := by omega
    subst hg
    rcases this with rfl | rfl | rfl | rfl <;> rfl
  · rw [if_neg hg]
    by_cases hh : basis = "hybrid"
    · have := h3 hh
      rw [if_pos hh, if_neg (by omega), replicate_set]
      unfold perCell
      congr 1
      apply List.map_congr_left
      intro d _
      rw [if_neg (by omega : ¬ dims < 2), if_neg hg, if_pos hh]
      simp [eq_comm]
    · rw [if_neg hh, perCell_plain hg hh, List.prod_replicate, rootRound_pow (by omega)]

/-! ## Appending components -/

theorem isPlain_newLast {a : NArr F} {cells : List Nat} {f : List Nat → F} (h : IsPlain a cells f) :
    IsField a.newLast cells 1 fun i _ => f i := by
  have hw : a.newLast.WF := by
    have := h.wf
    simp only [NArr.WF, NArr.newLast, List.prod_append, List.prod_cons, List.prod_nil, mul_one] at this ⊢
    exact this
  refine ⟨hw, by simp [NArr.newLast, h.shape], ?_⟩
  intro i hi c hc
  have hc0 : c = 0 := by omega
  subst hc0
  have hg := h.get i hi
  have hin : inRange (a.shape ++ [1]) (i ++ [0]) = true := inRange_snoc_iff.2 ⟨by rw [h.shape]; exact hi, by omega⟩
  have hin' : inRange a.shape i = true := by rw [h.shape]; exact hi
  have hrav : ∀ (sh ix : List Nat), inRange sh ix = true → ravel (sh ++ [1]) (ix ++ [0]) = ravel sh ix := by
    intro sh
    induction sh with
    | nil => intro ix hix; cases ix with
      | nil => rfl
      | cons _ _ => simp [inRange] at hix
    | cons s sh ih => intro ix hix; cases ix with
      | nil => simp [inRange] at hix
      | cons x ix =>
        simp only [inRange, Bool.and_eq_true] at hix
        simp only [List.cons_append, ravel, ih ix hix.2, List.prod_append, List.prod_cons, List.prod_nil, mul_one]
  simp only [NArr.get?, hin', if_true] at hg
  simp only [NArr.get?, NArr.newLast, hin, if_true]
  rw [hrav _ _ hin', hg]

theorem isField_appendLast {a b : NArr F} {cells : List Nat} {m n : Nat} {f g : List Nat → Nat → F}
    (ha : IsField a cells m f) (hb : IsField b cells n g) :
    Gives (a.appendLast b) cells (m + n) fun i c => if c < m then f i c else g i (c - m) := by
  refine ⟨_, by simp only [NArr.appendLast, ha.last, hb.last, ha.dropLast, hb.dropLast, if_true]; rfl, ?_⟩
  refine isField_of_ofFn fun i hi c hc => ?_
  simp only [List.getLastD_concat, List.dropLast_concat]
  split
  · exact ha.get i hi c (by assumption)
  · exact hb.get i hi (c - m) (by omega)

theorem foldlM_append {get : Nat → Except Err (NArr F)} {cells : List Nat} {v : Nat → List Nat → F}
    (cs : List Nat) (hg : ∀ c ∈ cs, GivesPlain (get c) cells (v c)) :
    ∀ (pre : List Nat) (acc : NArr F), pre ≠ [] →
      IsField acc cells pre.length (fun i j => v (pre.getD j 0) i) →
      Gives (cs.foldlM (fun (acc : NArr F) c => do acc.appendLast ((← get c).newLast)) acc) cells
        (pre ++ cs).length (fun i j => v ((pre ++ cs).getD j 0) i) := by
  induction cs with
  | nil =>
    intro pre acc _ h
    refine ⟨acc, rfl, ?_⟩
    simpa using h
  | cons c cs ih =>
    intro pre acc hp h
    obtain ⟨r, hr, hpl⟩ := hg c (by simp)
    obtain ⟨s, hs, hf⟩ := isField_appendLast h (isPlain_newLast hpl)
    have h2 := ih (fun x hx => hg x (by simp [hx])) (pre ++ [c]) s (by simp) (by
      simp only [List.length_append, List.length_cons, List.length_nil]
      refine hf.congr fun i hi j hj => ?_
      split
      · rename_i hlt
        simp [List.getD_eq_getElem?_getD, List.getElem?_append_left hlt]
      · rename_i hge
        have : j = pre.length := by omega
        subst this
        simp [List.getD_eq_getElem?_getD])
    simp only [List.append_assoc, List.singleton_append] at h2
    simp only [List.foldlM_cons, hr, bind, Except.bind, hs]
    exact h2

theorem gather_ok {get : Nat → Except Err (NArr F)} {cells : List Nat} {v : Nat → List Nat → F}
    [Add F] [Sub F] [Mul F] [Div F] [Neg F] [Zero F] [One F] [IntCast F] [NatCast F]
    {cs : List Nat} (hne : cs ≠ []) (hg : ∀ c ∈ cs, GivesPlain (get c) cells (v c)) :
    Gives (gather get cs) cells cs.length (fun i j => v (cs.getD j 0) i) := by
  cases cs with
  | nil => exact absurd rfl hne
  | cons c cs =>
    obtain ⟨r, hr, hpl⟩ := hg c (by simp)
    have h2 := foldlM_append cs (fun x hx => hg x (by simp [hx])) [c] r.newLast (by simp) (by
      refine (isPlain_newLast hpl).congr fun i hi j hj => ?_
      have : j = 0 := by simp at hj; omega
      subst this
      rfl)
    simp only [gather, hr, bind, Except.bind]
    exact h2

theorem comp_list_ne {comp : Comp} {cs : List Nat} (h : comp.list = .ok cs) : cs ≠ [] := by
  cases comp with
  | int c => injection h with h; subst h; simp
  | tuple l => cases l with
    | nil => cases h
    | cons c l => injection h with h; subst h; simp
  | slice a b => injection h with h; subst h; simp

/-! ## The grid -/

section
variable [_root_.Field F] [CharZero F]

theorem makeMesh_axis {x : NArr F} {a : Axis F} (hx : IsAxis x a) {n : Nat} (hn : 0 < n) :
    ∃ l, makeMesh n x none = .ok l ∧ IsAxis (NArr.ofList l) (a.refine n) := by
  obtain ⟨hs, hd⟩ := hx
  have hhead : x.data.head? = some (a.node 0) := by
    rw [hd, List.head?_map, List.head?_range]; simp
  have hlast : x.data.getLast? = some (a.node a.cells) := by
    rw [hd, List.getLast?_map, List.getLast?_range]; simp
  refine ⟨GkylReader.linspace (a.node 0) (a.node a.cells) (n * a.cells + 1), ?_, ?_⟩
  · simp only [makeMesh, hs, hhead, hlast, Nat.add_sub_cancel]
    rfl
  · have hn' : (n : F) ≠ 0 := by exact_mod_cast hn.ne'
    refine ⟨by simp [Axis.refine, GkylReader.linspace, Nat.mul_comm], ?_⟩
    show GkylReader.linspace _ _ _ = _
    apply List.ext_getElem?
    intro i
    by_cases hi : i < n * a.cells + 1
    · have hi' : i < (a.refine n).cells + 1 := by
        show i < a.cells * n + 1
        rw [Nat.mul_comm]; exact hi
      rw [List.getElem?_map, List.getElem?_range hi', Option.map_some]
      by_cases hc : a.cells = 0
      · have h0 : i = 0 := by rw [hc] at hi; omega
        subst h0
        rw [hc]
        simp [GkylReader.linspace, Axis.node, Axis.refine]
      · have hcn : (a.cells : F) ≠ 0 := by exact_mod_cast hc
        rw [GkylReader.linspace_get _ _ (Nat.mul_pos hn (Nat.pos_of_ne_zero hc)) (by omega)]
        congr 1
        simp only [Axis.node, Axis.refine]
        push_cast
        field_simp
        ring
    · rw [List.getElem?_eq_none (by rw [GkylReader.linspace_length]; omega),
        List.getElem?_eq_none (by
          simp only [List.length_map, List.length_range]
          show a.cells * n + 1 ≤ i
          rw [Nat.mul_comm]; omega)]

theorem mapM_range_ok {α : Type} {f : Nat → Except Err α} {n : Nat} {l : List α} (hl : l.length = n)
    (h : ∀ (i : Nat) (a : α), l[i]? = some a → f i = .ok a) : (List.range n).mapM f = .ok l := by
  subst hl
  induction l using List.reverseRecOn with
  | nil => rfl
  | append_singleton l a ih =>
    rw [List.length_append, List.length_singleton, List.range_succ, List.mapM_append,
      ih (fun i x hx => h i x (by
        rw [List.getElem?_append_left (by
          have := List.getElem?_eq_some_iff.1 hx
          exact this.1)]
        exact hx))]
    have := h l.length a (by simp)
    simp [this, bind, Except.bind, pure, Except.pure]

theorem make1Dgrids_mesh {grid : List (NArr F)} {axes : List (Axis F)} (hm : IsMesh grid axes)
    {ns : List Nat} (hl : ns.length = axes.length) (hpos : ∀ m ∈ ns, 0 < m) :
    ∃ g, make1Dgrids ns grid axes.length none = .ok g ∧ IsMesh g (refineAll axes ns) := by
  have key : ∃ g : List (NArr F), g.length = axes.length ∧ IsMesh g (refineAll axes ns) ∧
      ∀ (i : Nat) (a : NArr F), g[i]? = some a → (match ns[i]?, grid[i]? with
        | some n, some x => meshArr n x
        | _, _ => .error .indexError) = .ok a := by
    unfold IsMesh at hm
    induction hm generalizing ns with
    | nil =>
      refine ⟨[], rfl, ?_, by simp⟩
      cases ns with
      | nil => exact List.Forall₂.nil
      | cons _ _ => simp at hl
    | @cons x a grid axes hx _ ih =>
      cases ns with
      | nil => simp at hl
      | cons n ns =>
        obtain ⟨g, hg1, hg2, hg3⟩ := ih (by simpa using hl) (fun m hm => hpos m (by simp [hm]))
        obtain ⟨l, hl1, hl2⟩ := makeMesh_axis hx (hpos n (by simp))
        refine ⟨NArr.ofList l :: g, by simp [hg1], List.Forall₂.cons hl2 hg2, ?_⟩
        intro i y hy
        cases i with
        | zero =>
          simp only [List.getElem?_cons_zero, Option.some.injEq] at hy
          subst hy
          simp only [List.getElem?_cons_zero]
          unfold meshArr
          rw [hx.1]
          simp only [hl1, bind, Except.bind, pure, Except.pure]
        | succ i =>
          simp only [List.getElem?_cons_succ] at hy ⊢
          exact hg3 i y hy
  obtain ⟨g, hg1, hg2, hg3⟩ := key
  refine ⟨g, ?_, hg2⟩
  unfold make1Dgrids
  rw [if_pos (Or.inl rfl)]
  exact mapM_range_ok hg1 hg3

/-! ## The points -/

theorem points_local {a : Axis F} (hdx : a.dx ≠ 0) {n k : Nat} (hn : 0 < n) :
    (points false n : List F).getD (k % n) 0 = a.local (k / n) ((a.refine n).mid k) := by
  have hn' : (n : F) ≠ 0 := by exact_mod_cast hn.ne'
  have h2 : (2 : F) ≠ 0 := OfNat.ofNat_ne_zero 2
  have hdm : (k : F) = (n : F) * ((k / n : Nat) : F) + ((k % n : Nat) : F) := by
    rw [← Nat.cast_mul, ← Nat.cast_add, Nat.div_add_mod]
  have hpred : ((n - 1 : Nat) : F) = (n : F) - 1 := by
    rw [Nat.cast_sub (by omega), Nat.cast_one]
  rw [points, List.getD_eq_getElem?_getD, List.getElem?_map, List.getElem?_range (Nat.mod_lt _ hn)]
  simp only [Option.map_some, Option.getD_some, Bool.false_eq_true, if_false, hpred]
  simp only [Axis.local, Axis.mid, Axis.node, Axis.refine]
  push_cast
  rw [hdm]
  field_simp
  ring

theorem zipWith_points {axes : List (Axis F)} {ns idx : List Nat} (hdx : ∀ a ∈ axes, a.dx ≠ 0)
    (hl : ns.length = axes.length) (hi : idx.length = axes.length) (hpos : ∀ m ∈ ns, 0 < m) :
    List.zipWith (fun (l : List F) i => l.getD i 0) (ns.map (points false)) (List.zipWith (· % ·) idx ns) =
      localPt axes (List.zipWith (· / ·) idx ns) (midPt (refineAll axes ns) idx) := by
  induction axes generalizing ns idx with
  | nil =>
    cases ns with
    | nil => rfl
    | cons _ _ => simp at hl
  | cons a axes ih => cases ns with
    | nil => simp at hl
    | cons n ns => cases idx with
      | nil => simp at hi
      | cons k idx =>
        simp only [List.map_cons, List.zipWith_cons_cons, refineAll, midPt, localPt]
        rw [points_local (hdx a (by simp)) (hpos n (by simp)),
          ih (fun b hb => hdx b (by simp [hb])) (by simpa using hl) (by simpa using hi)
            (fun m hm => hpos m (by simp [hm]))]
        rfl

/-- One component on the refined mesh. -/
theorem interpComp_ok {fns : List Poly} {q : NArr F} {cells : List Nat} {g : List Nat → Nat → F}
    {axes : List (Axis F)} {basis : String} {n : Nat} {cMat : List (List F)}
    (hq : IsField q cells fns.length g) (hb : BasisDim basis cells.length) (hn : 2 ≤ n)
    (hm : cMat = matrixOf fns (loopPoints ((perCell basis cells.length n).map (points false))))
    (hdx : ∀ a ∈ axes, a.dx ≠ 0) (hal : axes.length = cells.length) :
    GivesPlain (interpOnMesh cMat q n basis false)
      (List.zipWith (· * ·) cells (perCell basis cells.length n))
      (fun idx => cellValue fns axes (g (List.zipWith (· / ·) idx (perCell basis cells.length n)))
        (List.zipWith (· / ·) idx (perCell basis cells.length n))
        (midPt (refineAll axes (perCell basis cells.length n)) idx)) := by
  have hpos : ∀ m ∈ perCell basis cells.length n, 0 < m := perCell_pos (by omega)
  have hlen := perCell_length basis cells.length n
  have hlens : ((perCell basis cells.length n).map (points (F := F) false)).map List.length =
      perCell basis cells.length n := by
    rw [List.map_map]
    conv_rhs => rw [← List.map_id (perCell basis cells.length n)]
    apply List.map_congr_left
    intro m _
    simp [points_length]
  generalize hns : perCell basis cells.length n = ns at *
  have hrowget : ∀ r < ns.prod, ∃ row, cMat[r]? = some row ∧ row.length = fns.length := by
    intro r hr
    have hlt : r < (loopPoints (ns.map (points (F := F) false))).length := by
      rw [loopPoints_length, hlens]; exact hr
    rw [hm, matrixOf, List.getElem?_map, List.getElem?_eq_getElem hlt]
    exact ⟨_, rfl, by simp⟩
  obtain ⟨r, hr, hrw, hrs, hg⟩ := interpOnMesh_ok (cMat := cMat) (basis := basis) (n := n) hq.wf hq.shape
    (by rw [meshCounts_eq hb hn, hns]) hlen.symm hpos hrowget
  refine ⟨r, hr, hrw, hrs, ?_⟩
  intro idx hidx
  rw [hg idx hidx]
  obtain ⟨h1, h2⟩ := inRange_mod hlen.symm hidx
  have hidl : idx.length = axes.length := by
    have := inRange_length hidx
    rw [this, List.length_zipWith, hlen, hal]; simp
  have hrow : cMat.getD (ravelF ns (List.zipWith (· % ·) idx ns)) [] =
      fns.map fun f => f.eval (localPt axes (List.zipWith (· / ·) idx ns) (midPt (refineAll axes ns) idx)) := by
    rw [List.getD_eq_getElem?_getD, hm, matrixOf, List.getElem?_map]
    have h3 := loopPoints_get (pts := ns.map (points (F := F) false)) (is := List.zipWith (· % ·) idx ns)
      (by rw [hlens]; exact h1)
    rw [hlens] at h3
    rw [h3, zipWith_points hdx (by rw [hlen, hal]) hidl hpos]
    rfl
  congr 1
  rw [hrow, dotAt, cellValue, expand, List.length_map]
  apply Finset.sum_congr rfl
  intro k hk
  have hk' : k < fns.length := Finset.mem_range.1 hk
  rw [hq.get _ h2 k hk']
  simp only [List.getD_eq_getElem?_getD, List.getElem?_map, List.getElem?_eq_getElem hk',
    Option.map_some, Option.getD_some]
  exact mul_comm _ _

omit [CharZero F] in
theorem _root_.Pgkyl.Spec.OnMesh.axes_length {src : Source F} {cells : List Nat} {m : Nat}
    {f : List Nat → Nat → F} {axes : List (Axis F)} (h : OnMesh src cells m f axes) :
    axes.length = cells.length := by rw [← h.cells_eq, List.length_map]

omit [_root_.Field F] [CharZero F] in
theorem rawModal_ok {o : Interp F} {cells : List Nat} {m : Nat} {f : List Nat → Nat → F}
    (h : IsField o.src.values cells m f) {c : Nat} (hc : (c + 1) * o.numNodes ≤ m) :
    Gives (rawModal o c) cells o.numNodes fun i k => f i (c * o.numNodes + k) := by
  have h1 : c * o.numNodes + o.numNodes ≤ m := by rw [Nat.add_mul, Nat.one_mul] at hc; exact hc
  obtain ⟨r, hr, hf⟩ := gives_comps h (i := c * o.numNodes) (j := c * o.numNodes + o.numNodes) h1 (by omega)
  rw [Nat.add_sub_cancel_left] at hf
  exact ⟨r, hr, hf⟩

omit [_root_.Field F] [CharZero F] in
theorem modalInit_ok {src : Source F} {po : Option Nat} {b : Option String} {ni : Option Nat}
    {o : Interp F} (h : modalInit src po b ni = .ok o) :
    o.src = src ∧ numNodes src.numDims o.polyOrder o.basis = .ok o.numNodes ∧
      (src.numDims = 1 → o.basis ≠ "hybrid") ∧ (∃ n, o.numInterp = some n) := by
  unfold modalInit at h
  simp only [bind, Except.bind, pure, Except.pure] at h
  split at h
  · cases h
  · rename_i p hp
    split at h
    · cases h
    · rename_i bb hbb
      split at h
      · cases h
      · rename_i K hK
        injection h with h
        subst h
        refine ⟨rfl, hK, ?_, ⟨_, rfl⟩⟩
        intro hd
        show (if src.numDims = 1 ∧ bb = "hybrid" then "serendipity" else bb) ≠ "hybrid"
        split
        · decide
        · rename_i hc
          exact fun hx => hc ⟨hd, hx⟩

theorem basisDim_of {dims p : Nat} {basis : String} {fns : List Poly}
    (hf : interpFns dims p basis true = .ok fns) (hd : 1 ≤ dims)
    (hg : dims = 1 → basis ≠ "gkhybrid" ∧ basis ≠ "hybrid") : BasisDim basis dims := by
  have key : InterpTables.all.all (fun e => match e.1.kind with
      | .modal b => decide (b = "gkhybrid" → 2 ≤ e.1.dim ∧ e.1.dim ≤ 5)
      | _ => true) = true := by decide +kernel
  refine ⟨hd, ?_, ?_⟩
  · intro hb
    by_cases h1 : dims = 1
    · exact absurd hb (hg h1).1
    · unfold interpFns at hf
      simp only [h1, if_true, if_false] at hf
      split at hf
      · rename_i fs hl
        have := List.all_eq_true.1 key _ (mem_of_lookup hl)
        simp only [decide_eq_true_eq] at this
        exact this hb
      · cases hf
  · intro hb
    by_cases h1 : dims = 1
    · exact absurd hb (hg h1).2
    · omega

end

end Dg
end Pgkyl
