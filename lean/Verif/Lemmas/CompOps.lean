import Verif.Model.CompOps
import Verif.Spec.Field
import Verif.Lemmas.NumOps
import Verif.Lemmas.NArr
import Mathlib.Tactic.Common
/-! # Lemmas on component arrays -/

namespace Pgkyl
open Spec

section
variable {F : Type}

/-- The array `a` holds one number `f i` in each cell. -/
structure IsPlain (a : NArr F) (cells : List Nat) (f : List Nat → F) : Prop where
  wf : a.WF
  shape : a.shape = cells
  get : ∀ i, inRange cells i = true → a.get? i = some (f i)

/-- The result is an array holding `f i` in each cell. -/
def GivesPlain (x : Except Err (NArr F)) (cells : List Nat) (f : List Nat → F) : Prop :=
  ∃ r, x = .ok r ∧ IsPlain r cells f

theorem inRange_snoc_iff {s : List Nat} {n : Nat} {i : List Nat} {k : Nat} :
    inRange (s ++ [n]) (i ++ [k]) = true ↔ inRange s i = true ∧ k < n := by
  induction s generalizing i with
  | nil =>
    cases i with
    | nil => simp [inRange]
    | cons x xs => cases xs <;> simp [inRange]
  | cons y ys ih =>
    cases i with
    | nil => cases ys <;> simp [inRange]
    | cons x xs => simp [inRange, ih, and_assoc]

theorem inRange_snoc' {cells idx : List Nat} {m : Nat} (h : inRange (cells ++ [m]) idx = true) :
    ∃ i c, idx = i ++ [c] ∧ inRange cells i = true ∧ c < m := by
  have hl := inRange_length h
  simp only [List.length_append, List.length_cons, List.length_nil] at hl
  obtain ⟨i, c, rfl⟩ : ∃ i c, idx = i ++ [c] := by
    have : idx ≠ [] := by rintro rfl; simp at hl
    exact ⟨idx.dropLast, idx.getLast this, (List.dropLast_append_getLast this).symm⟩
  exact ⟨i, c, rfl, inRange_snoc_iff.1 h⟩

theorem isField_of_ofFn {cells : List Nat} {m : Nat} {g : List Nat → Option F} {f : List Nat → Nat → F}
    (h : ∀ i, inRange cells i = true → ∀ c < m, g (i ++ [c]) = some (f i c)) :
    IsField (NArr.ofFn (cells ++ [m]) g) cells m f := by
  have hs : ∀ idx, inRange (cells ++ [m]) idx = true → (g idx).isSome := by
    intro idx hi
    obtain ⟨i, c, rfl, h1, h2⟩ := inRange_snoc' hi
    rw [h i h1 c h2]; rfl
  refine ⟨NArr.ofFn_WF hs, rfl, fun i hi c hc => ?_⟩
  rw [NArr.ofFn_get? hs (inRange_snoc_iff.2 ⟨hi, hc⟩), h i hi c hc]

theorem isPlain_of_ofFn {cells : List Nat} {g : List Nat → Option F} {f : List Nat → F}
    (h : ∀ i, inRange cells i = true → g i = some (f i)) : IsPlain (NArr.ofFn cells g) cells f := by
  have hs : ∀ idx, inRange cells idx = true → (g idx).isSome := by
    intro idx hi
    rw [h idx hi]; rfl
  refine ⟨NArr.ofFn_WF hs, rfl, fun i hi => ?_⟩
  rw [NArr.ofFn_get? hs hi, h i hi]

variable {cells : List Nat} {m : Nat} {a b : NArr F} {f g : List Nat → Nat → F}

theorem _root_.Pgkyl.Spec.IsField.last (h : IsField a cells m f) : a.shape.getLast? = some m := by rw [h.shape]; simp

theorem _root_.Pgkyl.Spec.IsField.dropLast (h : IsField a cells m f) : a.shape.dropLast = cells := by rw [h.shape]; simp

theorem _root_.Pgkyl.Spec.IsField.congr (h : IsField a cells m f) (he : ∀ i, inRange cells i = true → ∀ c < m, f i c = g i c) :
    IsField a cells m g := ⟨h.wf, h.shape, fun i hi c hc => by rw [h.get i hi c hc, he i hi c hc]⟩

theorem _root_.Pgkyl.Spec.Gives.congr {x : Except Err (NArr F)} (h : Gives x cells m f)
    (he : ∀ i, inRange cells i = true → ∀ c < m, f i c = g i c) : Gives x cells m g := by
  obtain ⟨r, hr, hf⟩ := h
  exact ⟨r, hr, hf.congr he⟩

/-- Sequencing. -/
theorem gives_bind {x : Except Err (NArr F)} {k : NArr F → Except Err (NArr F)} {cells' : List Nat} {m' : Nat}
    (h : Gives x cells m f) (hk : ∀ r, IsField r cells m f → Gives (k r) cells' m' g) : Gives (x >>= k) cells' m' g := by
  obtain ⟨r, rfl, hr⟩ := h
  exact hk r hr

theorem plain_bind {x : Except Err (NArr F)} {k : NArr F → Except Err (NArr F)} {cells' : List Nat} {f : List Nat → F}
    {g : List Nat → F} (h : GivesPlain x cells f) (hk : ∀ r, IsPlain r cells f → GivesPlain (k r) cells' g) :
    GivesPlain (x >>= k) cells' g := by
  obtain ⟨r, rfl, hr⟩ := h
  exact hk r hr

theorem plain_gives_bind {x : Except Err (NArr F)} {k : NArr F → Except Err (NArr F)} {cells' : List Nat}
    {f : List Nat → F} (h : GivesPlain x cells f) (hk : ∀ r, IsPlain r cells f → Gives (k r) cells' m g) :
    Gives (x >>= k) cells' m g := by
  obtain ⟨r, rfl, hr⟩ := h
  exact hk r hr

theorem gives_plain_bind {x : Except Err (NArr F)} {k : NArr F → Except Err (NArr F)} {cells' : List Nat}
    {g : List Nat → F} (h : Gives x cells m f) (hk : ∀ r, IsField r cells m f → GivesPlain (k r) cells' g) :
    GivesPlain (x >>= k) cells' g := by
  obtain ⟨r, rfl, hr⟩ := h
  exact hk r hr

theorem gives_pure (h : IsField a cells m f) : Gives (pure a) cells m f := ⟨a, rfl, h⟩

theorem gives_comp (h : IsField a cells m f) {k : Nat} (hk : k < m) : Gives (a.comp k) cells 1 fun i _ => f i k := by
  refine ⟨_, by simp only [NArr.comp, h.last]; rw [if_neg (by omega)], ?_⟩
  rw [h.dropLast]
  refine isField_of_ofFn fun i hi c _ => ?_
  simp [h.get i hi k hk]

theorem gives_compFlat (h : IsField a cells m f) {k : Nat} (hk : k < m) :
    GivesPlain (a.compFlat k) cells fun i => f i k := by
  refine ⟨_, by simp only [NArr.compFlat, h.last]; rw [if_neg (by omega)], ?_⟩
  rw [h.dropLast]
  exact isPlain_of_ofFn fun i hi => h.get i hi k hk

theorem gives_comps (h : IsField a cells m f) {i j : Nat} (hj : j ≤ m) (hij : i ≤ j) :
    Gives (a.comps i j) cells (j - i) fun ix c => f ix (i + c) := by
  have e1 : sliceBound m (i : Int) = i := by simp only [sliceBound]; rw [if_neg (by omega)]; omega
  have e2 : sliceBound m (j : Int) = j := by simp only [sliceBound]; rw [if_neg (by omega)]; omega
  refine ⟨_, by simp only [NArr.comps, h.last, e1, e2]; rfl, ?_⟩
  rw [h.dropLast]
  refine isField_of_ofFn fun ix hix c hc => ?_
  simp [h.get ix hix (i + c) (by omega)]

theorem isField_map1 (h : IsField a cells m f) (op : F → F) : IsField (a.map1 op) cells m fun i c => op (f i c) :=
  ⟨NArr.map1_WF h.wf, h.shape, fun i hi c hc => by rw [NArr.map1_get?, h.get i hi c hc]; rfl⟩

/-! ### Broadcasting over the components -/

theorem bcastShape_snoc_same (cells : List Nat) (m : Nat) : bcastShape (cells ++ [m]) (cells ++ [m]) = some (cells ++ [m]) :=
  bcastShape_self _

theorem bcastShape_snoc_one (cells : List Nat) (m : Nat) : bcastShape (cells ++ [m]) (cells ++ [1]) = some (cells ++ [m]) := by
  simp only [bcastShape, List.reverse_append, List.reverse_cons, List.reverse_nil, List.nil_append, List.singleton_append,
    bcastRev, bcastRev_self]
  by_cases h : m = 1
  · simp [h]
  · simp [h]

theorem bcastShape_one_snoc (cells : List Nat) (m : Nat) : bcastShape (cells ++ [1]) (cells ++ [m]) = some (cells ++ [m]) := by
  simp only [bcastShape, List.reverse_append, List.reverse_cons, List.reverse_nil, List.nil_append, List.singleton_append,
    bcastRev, bcastRev_self]
  by_cases h : 1 = m
  · simp [← h]
  · simp [h]

theorem bcastIdx_snoc {cells i : List Nat} (hi : inRange cells i = true) (m c : Nat) :
    bcastIdx (cells ++ [m]) (i ++ [c]) = i ++ [if m = 1 then 0 else c] := by
  have h := bcastIdx_self hi
  simp only [bcastIdx] at h
  simp only [bcastIdx, List.reverse_append, List.reverse_cons, List.reverse_nil, List.nil_append, List.singleton_append,
    bcastIdxRev]
  simp [h]

theorem bcastIdx_snoc_ok {cells i : List Nat} (hi : inRange cells i = true) {m c : Nat} (hc : c < m) :
    bcastIdx (cells ++ [m]) (i ++ [c]) = i ++ [c] := by
  rw [bcastIdx_snoc hi]
  by_cases h : m = 1
  · have : c = 0 := by omega
    simp [h, this]
  · simp [h]

theorem gives_zip (op : F → F → F) (ha : IsField a cells m f) (hb : IsField b cells m g) :
    Gives (NArr.zip2 op a b) cells m fun i c => op (f i c) (g i c) := by
  refine ⟨_, by simp only [NArr.zip2, ha.shape, hb.shape, bcastShape_snoc_same]; rfl, ?_⟩
  refine isField_of_ofFn fun i hi c hc => ?_
  rw [bcastIdx_snoc_ok hi hc, ha.get i hi c hc, hb.get i hi c hc]
  rfl

theorem gives_zip_one (op : F → F → F) (ha : IsField a cells m f) (hb : IsField b cells 1 g) :
    Gives (NArr.zip2 op a b) cells m fun i c => op (f i c) (g i 0) := by
  refine ⟨_, by simp only [NArr.zip2, ha.shape, hb.shape, bcastShape_snoc_one]; rfl, ?_⟩
  refine isField_of_ofFn fun i hi c hc => ?_
  rw [bcastIdx_snoc_ok hi hc, bcastIdx_snoc hi, ha.get i hi c hc, if_pos rfl, hb.get i hi 0 (by omega)]
  rfl

theorem foldl_add_sum [AddCommMonoid F] (l : List F) : l.foldl (· + ·) 0 = l.sum := by
  have key : ∀ (l : List F) (x : F), l.foldl (· + ·) x = x + l.sum := by
    intro l
    induction l with
    | nil => simp
    | cons y ys ih => intro x; rw [List.foldl_cons, ih, List.sum_cons, add_assoc]
  rw [key, zero_add]

theorem gives_sumLast [AddCommMonoid F] (h : IsField a cells m f) :
    Gives a.sumLast cells 1 fun i _ => ((List.range m).map (f i)).sum := by
  refine ⟨_, by simp only [NArr.sumLast, h.last]; rfl, ?_⟩
  rw [h.dropLast]
  refine isField_of_ofFn fun i hi c _ => ?_
  have : ((List.range m).filterMap fun c' => a.get? ((i ++ [c]).dropLast ++ [c'])) = (List.range m).map (f i) := by
    rw [← List.filterMap_eq_map]
    refine List.filterMap_congr fun c' hc' => ?_
    simp [h.get i hi c' (List.mem_range.1 hc')]
  rw [this, foldl_add_sum]

theorem gives_sumFlat [AddCommMonoid F] (h : IsField a cells m f) :
    GivesPlain a.sumFlat cells fun i => ((List.range m).map (f i)).sum := by
  refine ⟨_, by simp only [NArr.sumFlat, h.last]; rfl, ?_⟩
  rw [h.dropLast]
  refine isPlain_of_ofFn fun i hi => ?_
  have : ((List.range m).filterMap fun c' => a.get? (i ++ [c'])) = (List.range m).map (f i) := by
    rw [← List.filterMap_eq_map]
    refine List.filterMap_congr fun c' hc' => ?_
    simp [h.get i hi c' (List.mem_range.1 hc')]
  rw [this, foldl_add_sum]

theorem plain_zip {f g : List Nat → F} (op : F → F → F) (ha : IsPlain a cells f) (hb : IsPlain b cells g) :
    GivesPlain (NArr.zip2 op a b) cells fun i => op (f i) (g i) := by
  refine ⟨_, by simp only [NArr.zip2, ha.shape, hb.shape, bcastShape_self]; rfl, ?_⟩
  refine isPlain_of_ofFn fun i hi => ?_
  rw [bcastIdx_self hi, ha.get i hi, hb.get i hi]
  rfl

/-! ### Assigning components -/

theorem gives_assign {p : List Nat → F} (ha : IsField a cells m f) {k : Nat} (hk : k < m) (hb : IsPlain b cells p) :
    Gives (a.assignComp k b) cells m fun i c => if c = k then p i else f i c := by
  refine ⟨_, by
    simp only [NArr.assignComp, ha.last, ha.dropLast, hb.shape, bcastShape_self]
    rw [if_neg (by omega), if_neg (by simp)], ?_⟩
  rw [ha.shape]
  refine isField_of_ofFn fun i hi c hc => ?_
  by_cases h : c = k
  · simp [h, bcastIdx_self hi, hb.get i hi]
  · simp [h, ha.get i hi c hc]

theorem isField_zeros [Zero F] (cells : List Nat) (m : Nat) : IsField (NArr.zeros (α := F) (cells ++ [m])) cells m fun _ _ => 0 := by
  refine ⟨by simp [NArr.WF, NArr.zeros], rfl, fun i hi c hc => ?_⟩
  have h := ravel_lt (inRange_snoc_iff.2 ⟨hi, hc⟩)
  simp only [NArr.get?, NArr.zeros, inRange_snoc_iff.2 ⟨hi, hc⟩, if_true]
  rw [List.getElem?_replicate, if_pos h]

/-! ### Squeezing -/

theorem filter_ones {cells : List Nat} {k : Nat} {rest : List Nat} (h : cells = List.replicate k 1 ++ rest) (hr : 1 ∉ rest) :
    cells.filter (· ≠ 1) = rest := by
  subst h
  rw [List.filter_append, List.filter_eq_nil_iff.2 (by simp [List.mem_replicate]), List.nil_append,
    List.filter_eq_self.2]
  intro x hx
  simp only [ne_eq, decide_not, Bool.not_eq_eq_eq_not, Bool.not_true, decide_eq_false_iff_not]
  rintro rfl
  exact hr hx

theorem bcastRev_prefix (rest : List Nat) : ∀ ones : List Nat, bcastRev rest (rest ++ ones) = some (rest ++ ones) := by
  intro ones
  induction rest with
  | nil => cases ones <;> simp [bcastRev]
  | cons x xs ih => simp [bcastRev, ih]

theorem bcastIdxRev_prefix : ∀ {rest idx : List Nat}, inRange rest (idx.take rest.length) = true →
    bcastIdxRev rest idx = idx.take rest.length
  | [], _, _ => by simp [bcastIdxRev]
  | n :: ns, [], h => by simp [inRange] at h
  | n :: ns, i :: is, h => by
    simp only [List.length_cons, List.take_succ_cons] at h ⊢
    simp only [inRange, Bool.and_eq_true, decide_eq_true_eq] at h
    rw [bcastIdxRev, bcastIdxRev_prefix h.2]
    by_cases hn : n = 1
    · have : i = 0 := by omega
      simp [hn, this]
    · simp [hn]

/-- The entries of `idx` along the axes of `sh` that are not of length 1. -/
def dropOnes : List Nat → List Nat → List Nat
  | n :: ns, i :: is => if n = 1 then dropOnes ns is else i :: dropOnes ns is
  | _, _ => []

theorem prod_filter_ones : ∀ sh : List Nat, (sh.filter (· ≠ 1)).prod = sh.prod
  | [] => rfl
  | n :: ns => by
    by_cases h : n = 1
    · simp [h, ← prod_filter_ones ns]
    · simp [h, ← prod_filter_ones ns]

theorem ravel_dropOnes : ∀ {sh idx : List Nat}, inRange sh idx = true →
    ravel (sh.filter (· ≠ 1)) (dropOnes sh idx) = ravel sh idx ∧ inRange (sh.filter (· ≠ 1)) (dropOnes sh idx) = true
  | [], [], _ => ⟨rfl, rfl⟩
  | [], _ :: _, h => by simp [inRange] at h
  | _ :: _, [], h => by simp [inRange] at h
  | n :: ns, i :: is, h => by
    simp only [inRange, Bool.and_eq_true, decide_eq_true_eq] at h
    obtain ⟨h1, h2⟩ := ravel_dropOnes h.2
    by_cases hn : n = 1
    · have : i = 0 := by omega
      rw [List.filter_cons_of_neg (by simp [hn])]
      simp only [dropOnes, if_pos hn]
      refine ⟨?_, h2⟩
      rw [h1, ravel, this]; simp
    · rw [List.filter_cons_of_pos (by simp [hn])]
      simp only [dropOnes, if_neg hn]
      refine ⟨?_, by simp only [inRange, h.1, h2, decide_true, Bool.and_self]⟩
      rw [ravel, ravel, h1, prod_filter_ones]

theorem squeeze_get? {sh idx : List Nat} (hs : a.shape = sh) (h : inRange sh idx = true) :
    a.squeeze.get? (dropOnes sh idx) = a.get? idx := by
  obtain ⟨h1, h2⟩ := ravel_dropOnes h
  subst hs
  simp only [NArr.get?, NArr.squeeze, h2, h, if_true, h1]

theorem dropOnes_leading : ∀ (k : Nat) {rest i : List Nat}, 1 ∉ rest →
    inRange (List.replicate k 1 ++ rest) i = true → dropOnes (List.replicate k 1 ++ rest ++ [1]) (i ++ [0]) = i.drop k
  | 0, [], i, _, h => by
    cases i with
    | nil => rfl
    | cons x xs => simp [inRange] at h
  | 0, n :: ns, i, hr, h => by
    cases i with
    | nil => simp [inRange] at h
    | cons x xs =>
      simp only [List.replicate_zero, List.nil_append, inRange, Bool.and_eq_true, decide_eq_true_eq] at h
      have := dropOnes_leading 0 (rest := ns) (i := xs) (fun h => hr (by simp [h])) (by simpa using h.2)
      simp only [List.replicate_zero, List.nil_append, List.drop_zero] at this
      have hn : n ≠ 1 := fun h => hr (by simp [h])
      simp [dropOnes, hn, this]
  | k + 1, rest, i, hr, h => by
    cases i with
    | nil => simp [inRange, List.replicate_succ] at h
    | cons x xs =>
      simp only [List.replicate_succ, List.cons_append, inRange, Bool.and_eq_true, decide_eq_true_eq] at h
      have := dropOnes_leading k hr h.2
      simp only [List.append_assoc] at this
      simp [dropOnes, List.replicate_succ, this]

theorem inRange_drop : ∀ (k : Nat) {pre rest i : List Nat}, pre.length = k → inRange (pre ++ rest) i = true →
    inRange rest (i.drop k) = true
  | 0, [], rest, i, _, h => by simpa using h
  | k + 1, p :: ps, rest, i, hp, h => by
    cases i with
    | nil => simp [inRange] at h
    | cons x xs =>
      simp only [List.cons_append, inRange, Bool.and_eq_true] at h
      simpa using inRange_drop k (by simpa using hp) h.2

/-- `out[..., k] = np.squeeze(a)` where only leading axes have length 1. -/
theorem gives_assign_squeeze {out : NArr F} {h : List Nat → Nat → F} (ho : IsField out cells m h) {k : Nat} (hk : k < m)
    (ha : IsField a cells 1 f) (hl : LeadingOnes cells) :
    Gives (out.assignComp k a.squeeze) cells m fun i c => if c = k then f i 0 else h i c := by
  obtain ⟨n, rest, hcells, hr⟩ := hl
  have hsh : a.squeeze.shape = rest := by
    show a.shape.filter (· ≠ 1) = rest
    rw [ha.shape, List.filter_append, filter_ones hcells hr]; simp
  have hb : bcastShape rest cells = some cells := by
    rw [bcastShape, hcells, List.reverse_append, bcastRev_prefix]; simp
  refine ⟨_, by
    simp only [NArr.assignComp, ho.last, ho.dropLast, hsh, hb]
    rw [if_neg (by omega), if_neg (by simp)], ?_⟩
  rw [ho.shape]
  refine isField_of_ofFn fun i hi c hc => ?_
  by_cases h : c = k
  · have hrr : inRange rest (i.drop n) = true := by
      rw [hcells] at hi
      exact inRange_drop n (by simp) hi
    have hil := inRange_length hi
    have h1 : bcastIdx rest i = i.drop n := by
      have hlen : i.length = n + rest.length := by rw [hil, hcells]; simp
      have hrev : i.reverse.take rest.reverse.length = (i.drop n).reverse := by
        rw [List.length_reverse, List.take_reverse]
        congr 2; omega
      rw [bcastIdx, bcastIdxRev_prefix (by rw [hrev]; exact inRange_reverse hrr), hrev, List.reverse_reverse]
    have h2 : dropOnes (cells ++ [1]) (i ++ [0]) = i.drop n := by
      rw [hcells]
      exact dropOnes_leading n hr (by rw [← hcells]; exact hi)
    have := squeeze_get? ha.shape (inRange_snoc_iff.2 ⟨hi, Nat.zero_lt_one⟩)
    rw [h2, ha.get i hi 0 (by omega)] at this
    simp [h, h1, this]
  · simp [h, ho.get i hi c hc]

theorem bcastRev_filter : ∀ {c : List Nat}, bcastRev (c.filter (· ≠ 1)) c = some c →
    ∃ (k : Nat) (rest : List Nat), c = rest ++ List.replicate k 1 ∧ 1 ∉ rest
  | [], _ => ⟨0, [], rfl, by simp⟩
  | x :: xs, h => by
    by_cases hx : x = 1
    · rw [List.filter_cons_of_neg (by simp [hx])] at h
      cases hf : xs.filter (· ≠ 1) with
      | nil =>
        refine ⟨xs.length + 1, [], ?_, by simp⟩
        rw [List.nil_append, List.replicate_succ, ← hx]
        congr 1
        refine List.eq_replicate_iff.2 ⟨rfl, fun y hy => ?_⟩
        have := (List.filter_eq_nil_iff.1 hf) y hy
        simp at this; omega
      | cons y ys =>
        rw [hf] at h
        have hy : y ≠ 1 := by
          have : y ∈ xs.filter (· ≠ 1) := by rw [hf]; simp
          simpa using (List.mem_filter.1 this).2
        rw [bcastRev, if_neg (by omega), if_neg hy, if_pos hx] at h
        obtain ⟨w, -, hw⟩ := Option.map_eq_some_iff.1 h
        simp only [List.cons.injEq] at hw
        omega
    · rw [List.filter_cons_of_pos (by simp [hx]), bcastRev, if_pos rfl] at h
      obtain ⟨w, hw, hw'⟩ := Option.map_eq_some_iff.1 h
      simp only [List.cons.injEq, true_and] at hw'
      rw [hw'] at hw
      obtain ⟨k, rest, h1, h2⟩ := bcastRev_filter (c := xs) hw
      exact ⟨k, x :: rest, by rw [h1]; rfl, by simp [h2, Ne.symm hx]⟩

/-- `out[..., k] = np.squeeze(a)` fails as soon as an axis of length 1 follows a longer one. -/
theorem assign_squeeze_fails {out : NArr F} {h : List Nat → Nat → F} (ho : IsField out cells m h) {k : Nat} (hk : k < m)
    (ha : IsField a cells 1 f) (hl : ¬ LeadingOnes cells) : out.assignComp k a.squeeze = .error .valueError := by
  have hsh : a.squeeze.shape = cells.filter (· ≠ 1) := by
    show a.shape.filter (· ≠ 1) = _
    rw [ha.shape, List.filter_append]; simp
  simp only [NArr.assignComp, ho.last, ho.dropLast, hsh]
  rw [if_neg (by omega), if_pos]
  intro hb
  apply hl
  rw [bcastShape] at hb
  obtain ⟨w, hw, hw'⟩ := Option.map_eq_some_iff.1 hb
  obtain rfl : w = cells.reverse := by rw [← hw', List.reverse_reverse]
  rw [← List.filter_reverse] at hw
  obtain ⟨k', rest, h1, h2⟩ := bcastRev_filter hw
  refine ⟨k', rest.reverse, ?_, by simpa using h2⟩
  have := congrArg List.reverse h1
  simpa using this

end
end Pgkyl
