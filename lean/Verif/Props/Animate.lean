import Verif.Lemmas.StoreActive
import Verif.Props.SetFrame
import Verif.Props.PlotData
import Mathlib.Tactic.Linarith
import Mathlib.Tactic.Ring
import Mathlib.Tactic.FieldSimp
import Mathlib.Tactic.NormNum
import Mathlib.Tactic.IntervalCases
/-!
# C82-C85: what `animate` draws
-/

namespace Pgkyl.Anim

open Spec

/-! ## Which datasets -/

theorem visit_map_snd (active : Nat → Bool) (l : List Nat) :
    (visit active true l).map (·.2) = l.filter active := by
  unfold visit
  rw [List.map_map]
  have : ∀ (l : List Nat) (k : Nat), ((l.zipIdx k).filter fun e => !true || active e.1).map
      ((·.2) ∘ fun e : Nat × Nat => (e.2, e.1)) = l.filter active := by
    intro l
    induction l with
    | nil => intro k; rfl
    | cons a l ih =>
      intro k
      rw [List.zipIdx_cons, List.filter_cons, List.filter_cons]
      simp only [Bool.not_true, Bool.false_or]
      split
      · rw [List.map_cons, ← ih (k + 1)]; simp
      · rw [← ih (k + 1)]; simp
  exact this l 0

theorem toList_selected {s : Space ℝ} {use : Option Tag} {ids : List Nat} (h : Selected s use ids) (enum : Bool) :
    ∃ l, s.toList use enum true .none = .ok l ∧ l.map (·.2) = ids := by
  cases use with
  | none =>
    have := Space.toList_none (Space.tagsOf_none_lookup s) enum true
    refine ⟨_, this, ?_⟩
    rw [h, List.map_flatMap]
    have ht : s.tagsOf none = s.dict.map Prod.fst := rfl
    rw [ht]
    congr 1
    funext t
    exact visit_map_snd _ _
  | some t =>
    obtain ⟨h0, hc, l, hl, rfl⟩ := h
    have ht : s.tagsOf (some t) = [t] := by
      cases t with
      | nil => exact absurd rfl h0
      | cons c cs => simp [Space.tagsOf, splitOn_notMem hc]
    have := Space.toList_none (s := s) (tag := some t) (ls := fun _ => l) (fun u hu => by
      rw [ht, List.mem_singleton] at hu
      rw [hu, hl]) enum true
    refine ⟨_, this, ?_⟩
    rw [ht]
    simp [visit_map_snd]

/-! ## Limits -/

theorem accum_ok {ys zs : ℝ} (a : Acc) {d : GData ℝ} (h : HasValues d) :
    ∃ r lo hi, accum ys zs a d = .ok ⟨r, a.extrema ++ [lo, hi], some d.numDims⟩ ∧ Extremes (scaled ys zs d) lo hi ∧
      r = match a.range with
        | none => some (lo, hi)
        | some (x, y) => some (if lo < x then lo else x, if y < hi then hi else y) := by
  obtain ⟨v, hv, hne⟩ := h
  have hs : scaled ys zs d = v.data.map (· * if d.numDims = 1 then ys else zs) := by simp [scaled, hv]
  have hne' : v.data.map (· * if d.numDims = 1 then ys else zs) ≠ [] := by simpa using hne
  obtain ⟨lo, h1, h2, h3⟩ := minOf_spec hne'
  obtain ⟨hi, h4, h5, h6⟩ := maxOf_spec hne'
  refine ⟨_, lo, hi, ?_, ⟨hs ▸ h2, hs ▸ h5, fun x hx => ?_⟩, rfl⟩
  · unfold accum
    rw [hv]
    simp only [Plot.widen, h1, h4, bind, Except.bind, pure, Except.pure]
    cases a.range <;> rfl
  · rw [hs] at hx
    exact ⟨h3 x hx, h6 x hx⟩

/-- What the loop over the datasets maintains. -/
def Acc.Good (a : Acc) : Prop :=
  match a.range with
  | none => a.extrema = []
  | some (lo, hi) => Extremes a.extrema lo hi

theorem accum_fold (ys zs : ℝ) : ∀ (ds : List (GData ℝ)) (a : Acc), (∀ d ∈ ds, HasValues d) → a.Good →
    ∃ a', ds.foldlM (accum ys zs) a = .ok a' ∧ a'.Good ∧
      (∀ x ∈ a.extrema, x ∈ a'.extrema) ∧
      (∀ x ∈ a'.extrema, x ∈ a.extrema ∨ ∃ d ∈ ds, x ∈ scaled ys zs d) ∧
      (∀ d ∈ ds, ∃ lo ∈ a'.extrema, ∃ hi ∈ a'.extrema, ∀ x ∈ scaled ys zs d, lo ≤ x ∧ x ≤ hi) ∧
      a'.dims = (ds.getLast?.map (·.numDims)).or a.dims := by
  intro ds
  induction ds with
  | nil => intro a _ hg; exact ⟨a, rfl, hg, fun _ h => h, fun _ h => Or.inl h, by simp, by simp⟩
  | cons d ds ih =>
    intro a hv hg
    obtain ⟨r, lo, hi, h1, h2, h3⟩ := accum_ok (ys := ys) (zs := zs) a (hv d (by simp))
    have hg' : Acc.Good ⟨r, a.extrema ++ [lo, hi], some d.numDims⟩ := by
      have hle : lo ≤ hi := (h2.2.2 lo h2.1).2
      unfold Acc.Good at hg ⊢
      rw [h3]
      simp only
      cases hr : a.range with
      | none =>
        rw [hr] at hg
        simp only at hg ⊢
        rw [hg]
        refine ⟨by simp, by simp, ?_⟩
        intro x hx
        simp only [List.nil_append, List.mem_cons, List.not_mem_nil, or_false] at hx
        rcases hx with rfl | rfl
        · exact ⟨le_rfl, hle⟩
        · exact ⟨hle, le_rfl⟩
      | some p =>
        obtain ⟨x, y⟩ := p
        rw [hr] at hg
        simp only at hg ⊢
        obtain ⟨e1, e2, e3⟩ := hg
        refine ⟨?_, ?_, ?_⟩
        · split <;> simp [e1]
        · split <;> simp [e2]
        · intro z hz
          have h4 : (if lo < x then lo else x) ≤ lo ∧ (if lo < x then lo else x) ≤ x := by
            split
            · rename_i h; exact ⟨le_rfl, h.le⟩
            · rename_i h; exact ⟨not_lt.1 h, le_rfl⟩
          have h5 : hi ≤ (if y < hi then hi else y) ∧ y ≤ (if y < hi then hi else y) := by
            split
            · rename_i h; exact ⟨le_rfl, h.le⟩
            · rename_i h; exact ⟨not_lt.1 h, le_rfl⟩
          simp only [List.mem_append, List.mem_cons, List.not_mem_nil, or_false] at hz
          rcases hz with hz | rfl | rfl
          · exact ⟨h4.2.trans (e3 z hz).1, (e3 z hz).2.trans h5.2⟩
          · exact ⟨h4.1, hle.trans h5.1⟩
          · exact ⟨h4.1.trans hle, h5.1⟩
    obtain ⟨a', f1, f2, f3, f4, f5, f6⟩ := ih _ (fun e he => hv e (by simp [he])) hg'
    refine ⟨a', ?_, f2, fun x hx => f3 x (by simp [hx]), fun x hx => ?_, fun e he => ?_, ?_⟩
    · rw [List.foldlM_cons, h1]; exact f1
    · rcases f4 x hx with h | ⟨e, he, h⟩
      · simp only [List.mem_append, List.mem_cons, List.not_mem_nil, or_false] at h
        rcases h with h | rfl | rfl
        · exact Or.inl h
        · exact Or.inr ⟨d, by simp, h2.1⟩
        · exact Or.inr ⟨d, by simp, h2.2.1⟩
      · exact Or.inr ⟨e, by simp [he], h⟩
    · rcases List.mem_cons.1 he with rfl | he
      · exact ⟨lo, f3 lo (by simp), hi, f3 hi (by simp), h2.2.2⟩
      · exact f5 e he
    · rw [f6, List.getLast?_cons]
      cases ds.getLast? <;> rfl

/-- A cut-off that makes sense. -/
def CutoffOK (c : Option ℝ) : Prop := c = none ∨ ∃ x, c = some x ∧ 0 < x ∧ x ≤ 1

/-! ## Percentiles -/

/-- The value at a (real) position of a list. -/
noncomputable def at_ (v : List ℝ) (x : ℝ) : ℝ :=
  (v[⌊x⌋₊]?).getD 0 + ((v[⌊x⌋₊ + 1]?).elim 0 fun b => (b - (v[⌊x⌋₊]?).getD 0) * (x - ⌊x⌋₊))

theorem percentile_eq {v : List ℝ} (hv : v ≠ []) {q : ℝ} (h0 : 0 ≤ q) (h1 : q ≤ 100) :
    percentile v q = .ok (at_ v (q / 100 * (v.length - 1))) := by
  have hl : 1 ≤ v.length := List.length_pos_iff.2 hv
  have hl' : (1 : ℝ) ≤ v.length := by exact_mod_cast hl
  have hx : q / 100 * (v.length - 1) ≤ v.length - 1 := by
    have : q / 100 ≤ 1 := by linarith
    nlinarith
  have hx0 : 0 ≤ q / 100 * ((v.length : ℝ) - 1) := mul_nonneg (by linarith) (by linarith)
  have hk : ⌊q / 100 * ((v.length : ℝ) - 1)⌋₊ < v.length := by
    rw [Nat.floor_lt hx0]; linarith
  unfold percentile at_
  rw [if_neg (by push Not; exact ⟨h0, h1⟩)]
  simp only
  rw [List.getElem?_eq_getElem hk]
  simp only [Option.getD_some]
  cases v[⌊q / 100 * ((v.length : ℝ) - 1)⌋₊ + 1]? with
  | none => simp
  | some b => rfl

theorem at_mono {v : List ℝ} (hs : v.Pairwise (· ≤ ·)) {x y : ℝ} (h0 : 0 ≤ x) (hxy : x ≤ y)
    (hy : y ≤ v.length - 1) (hv : v ≠ []) : at_ v x ≤ at_ v y := by
  have hl : 1 ≤ v.length := List.length_pos_iff.2 hv
  have hky : ⌊y⌋₊ < v.length := by
    rw [Nat.floor_lt (h0.trans hxy)]; linarith
  have hle : ⌊x⌋₊ ≤ ⌊y⌋₊ := Nat.floor_mono hxy
  have hget : ∀ {i j : Nat} (hi : i < v.length) (hj : j < v.length), i ≤ j → v[i] ≤ v[j] := by
    intro i j hi hj hij
    rcases Nat.lt_or_eq_of_le hij with h | rfl
    · exact List.pairwise_iff_getElem.1 hs i j hi hj h
    · exact le_rfl
  have hfx : (⌊x⌋₊ : ℝ) ≤ x := Nat.floor_le h0
  have hfy : (⌊y⌋₊ : ℝ) ≤ y := Nat.floor_le (h0.trans hxy)
  have hfx' : x < ⌊x⌋₊ + 1 := Nat.lt_floor_add_one x
  rcases Nat.lt_or_eq_of_le hle with hlt | heq
  · -- different intervals
    have hx1 : ⌊x⌋₊ + 1 < v.length := by omega
    have hx2 : ⌊x⌋₊ < v.length := by omega
    have e1 : at_ v x ≤ v[⌊x⌋₊ + 1] := by
      unfold at_
      rw [List.getElem?_eq_getElem hx1, List.getElem?_eq_getElem hx2]
      simp only [Option.getD_some, Option.elim_some]
      have := hget hx2 hx1 (by omega)
      nlinarith
    have e2 : v[⌊y⌋₊] ≤ at_ v y := by
      unfold at_
      rw [List.getElem?_eq_getElem hky]
      simp only [Option.getD_some]
      rcases Nat.lt_or_ge (⌊y⌋₊ + 1) v.length with h | h
      · rw [List.getElem?_eq_getElem h]
        simp only [Option.elim_some]
        have := hget hky h (by omega)
        nlinarith
      · rw [List.getElem?_eq_none h]; simp
    exact e1.trans ((hget hx1 hky (by omega)).trans e2)
  · unfold at_
    rw [← heq]
    have hx2 : ⌊x⌋₊ < v.length := by omega
    rw [List.getElem?_eq_getElem hx2]
    rcases Nat.lt_or_ge (⌊x⌋₊ + 1) v.length with h | h
    · rw [List.getElem?_eq_getElem h]
      simp only [Option.getD_some, Option.elim_some]
      have := hget hx2 h (by omega)
      nlinarith
    · rw [List.getElem?_eq_none h]; simp

theorem at_zero {v : List ℝ} : at_ v 0 = (v[0]?).getD 0 := by
  unfold at_
  simp only [Nat.floor_zero, Nat.cast_zero, sub_zero, mul_zero]
  cases v[0 + 1]? <;> simp

theorem at_last {v : List ℝ} (hv : v ≠ []) : at_ v (v.length - 1) = (v[v.length - 1]?).getD 0 := by
  have hl : 1 ≤ v.length := List.length_pos_iff.2 hv
  have hf : ⌊(v.length : ℝ) - 1⌋₊ = v.length - 1 := by
    rw [show (v.length : ℝ) - 1 = ((v.length - 1 : Nat) : ℝ) by push_cast [hl]; ring, Nat.floor_natCast]
  unfold at_
  rw [hf, show v[v.length - 1 + 1]? = none from List.getElem?_eq_none (by omega)]
  simp

theorem sorted_ends {e : List ℝ} {lo hi : ℝ} (h : Extremes e lo hi) :
    ((e.mergeSort (fun a b => decide (a ≤ b)))[0]?).getD 0 = lo ∧
    ((e.mergeSort (fun a b => decide (a ≤ b)))[(e.mergeSort (fun a b => decide (a ≤ b))).length - 1]?).getD 0 = hi := by
  set v := e.mergeSort (fun a b => decide (a ≤ b)) with hv
  have hs : v.Pairwise (· ≤ ·) := by
    have := List.pairwise_mergeSort (le := fun a b : ℝ => decide (a ≤ b)) (fun a b c => by
      simp only [decide_eq_true_eq]; exact le_trans) (fun a b => by simpa using le_total a b) e
    simpa [hv] using this
  have hmem : ∀ x, x ∈ v ↔ x ∈ e := fun x => (List.mergeSort_perm e _).mem_iff
  have hget : ∀ {i j : Nat} (hi : i < v.length) (hj : j < v.length), i ≤ j → v[i] ≤ v[j] := by
    intro i j hi hj hij
    rcases Nat.lt_or_eq_of_le hij with h | rfl
    · exact List.pairwise_iff_getElem.1 hs i j hi hj h
    · exact le_rfl
  obtain ⟨i, hil, hi1⟩ := List.mem_iff_getElem.1 ((hmem lo).2 h.1)
  obtain ⟨j, hjl, hj1⟩ := List.mem_iff_getElem.1 ((hmem hi).2 h.2.1)
  have hpos : 0 < v.length := by omega
  rw [List.getElem?_eq_getElem hpos, List.getElem?_eq_getElem (by omega : v.length - 1 < v.length)]
  simp only [Option.getD_some]
  constructor
  · exact le_antisymm (hi1 ▸ hget hpos hil (by omega)) (h.2.2 _ ((hmem _).1 (List.getElem_mem _))).1
  · exact le_antisymm (h.2.2 _ ((hmem _).1 (List.getElem_mem _))).2 (hj1 ▸ hget hjl (by omega) (by omega))

theorem sorted_pairwise (e : List ℝ) : (e.mergeSort (fun a b => decide (a ≤ b))).Pairwise (· ≤ ·) := by
  have := List.pairwise_mergeSort (le := fun a b : ℝ => decide (a ≤ b)) (fun a b c => by
    simp only [decide_eq_true_eq]; exact le_trans) (fun a b => by simpa using le_total a b) e
  simpa using this

/-- C83 (`--cutoffglobalrange`): of a list of extreme values with smallest member `lo` and largest member `hi`, the
limits for a cut-off `c ≤ c'` lie within those for `c'`; they are in order; and `c = 1` gives the full range. -/
theorem C83_cutoff {e : List ℝ} {lo hi : ℝ} (h : Extremes e lo hi) {c c' : ℝ} (h0 : 0 ≤ c) (hc : c ≤ c') (h1 : c' ≤ 1) :
    ∃ a b a' b', cutoffRange c e = .ok (a, b) ∧ cutoffRange c' e = .ok (a', b') ∧
      lo ≤ a' ∧ a' ≤ a ∧ a ≤ b ∧ b ≤ b' ∧ b' ≤ hi ∧ (c' = 1 → a' = lo ∧ b' = hi) := by
  obtain ⟨el, eh⟩ := sorted_ends h
  have hs := sorted_pairwise e
  have hv : e.mergeSort (fun a b => decide (a ≤ b)) ≠ [] := by
    intro h'
    have := (List.mergeSort_perm e (fun a b => decide (a ≤ b))).mem_iff.2 h.1
    rw [h'] at this; cases this
  have hcut : ∀ x, 0 ≤ x → x ≤ 1 → cutoffRange x e = .ok
      (at_ (e.mergeSort (fun a b => decide (a ≤ b)))
          (100 * (1 - x) / 2 / 100 * ((e.mergeSort (fun a b => decide (a ≤ b))).length - 1)),
        at_ (e.mergeSort (fun a b => decide (a ≤ b)))
          ((100 - 100 * (1 - x) / 2) / 100 * ((e.mergeSort (fun a b => decide (a ≤ b))).length - 1))) := by
    intro x hx0 hx1
    unfold cutoffRange
    simp only
    rw [percentile_eq hv (by linarith) (by linarith), percentile_eq hv (by linarith) (by linarith)]
    rfl
  generalize e.mergeSort (fun a b => decide (a ≤ b)) = v at *
  have hl : (1 : ℝ) ≤ v.length := by exact_mod_cast List.length_pos_iff.2 hv
  have hm : ∀ {p q : ℝ}, 0 ≤ p → p ≤ q → q ≤ 1 → at_ v (p * (v.length - 1)) ≤ at_ v (q * (v.length - 1)) := by
    intro p q hp hpq hq
    exact at_mono hs (mul_nonneg hp (by linarith)) (by nlinarith) (by nlinarith) hv
  refine ⟨_, _, _, _, hcut c h0 (hc.trans h1), hcut c' (h0.trans hc) h1, ?_, ?_, ?_, ?_, ?_, ?_⟩
  · have := hm (p := 0) (q := 100 * (1 - c') / 2 / 100) le_rfl (by linarith) (by linarith)
    rwa [zero_mul, at_zero, el] at this
  · exact hm (by linarith) (by linarith) (by linarith)
  · exact hm (by linarith) (by linarith) (by linarith)
  · exact hm (by linarith) (by linarith) (by linarith)
  · have := hm (p := (100 - 100 * (1 - c') / 2) / 100) (q := 1) (by linarith) (by linarith) le_rfl
    rwa [one_mul, at_last hv, eh] at this
  · rintro rfl
    constructor
    · rw [show (100 * (1 - 1) / 2 / 100 * ((v.length : ℝ) - 1)) = 0 by ring, at_zero, el]
    · rw [show ((100 - 100 * (1 - 1) / 2) / 100 * ((v.length : ℝ) - 1)) = v.length - 1 by ring, at_last hv, eh]

/-- The limits of a list of datasets. -/
theorem globalrange_ok {ys zs : ℝ} {c : Option ℝ} (hc : CutoffOK c) {ds : List (GData ℝ)} (hne : ds ≠ [])
    (hv : ∀ d ∈ ds, HasValues d) : ∃ lo hi n, globalrange ys zs c ds = .ok ((lo, hi), n) ∧
      (ds.getLast?.map (·.numDims) = some n) ∧ lo ≤ hi ∧
      ((c = none ∨ c = some 1) → Extremes (ds.flatMap (scaled ys zs)) lo hi) := by
  obtain ⟨a, h1, h2, h3, h4, h5, h6⟩ := accum_fold ys zs ds {} hv rfl
  have hdim : ∃ n, ds.getLast?.map (·.numDims) = some n := by
    cases h : ds.getLast? with
    | none => exact absurd (List.getLast?_eq_none_iff.1 h) hne
    | some d => exact ⟨_, rfl⟩
  obtain ⟨n, hn⟩ := hdim
  rw [hn] at h6
  cases hr : a.range with
  | none =>
    exfalso
    unfold Acc.Good at h2
    rw [hr] at h2
    simp only at h2
    obtain ⟨d, hd⟩ := List.exists_mem_of_ne_nil ds hne
    obtain ⟨lo, hlo, -⟩ := h5 d hd
    rw [h2] at hlo; cases hlo
  | some p =>
    obtain ⟨lo, hi⟩ := p
    unfold Acc.Good at h2
    rw [hr] at h2
    simp only at h2
    have hex : Extremes (ds.flatMap (scaled ys zs)) lo hi := by
      refine ⟨?_, ?_, ?_⟩
      · rcases h4 lo h2.1 with h | ⟨d, hd, h⟩
        · cases h
        · exact List.mem_flatMap.2 ⟨d, hd, h⟩
      · rcases h4 hi h2.2.1 with h | ⟨d, hd, h⟩
        · cases h
        · exact List.mem_flatMap.2 ⟨d, hd, h⟩
      · intro x hx
        obtain ⟨d, hd, hx⟩ := List.mem_flatMap.1 hx
        obtain ⟨l', hl', u', hu', h⟩ := h5 d hd
        exact ⟨(h2.2.2 _ hl').1.trans (h x hx).1, (h x hx).2.trans (h2.2.2 _ hu').2⟩
    rcases hc with rfl | ⟨x, rfl, hx0, hx1⟩
    · refine ⟨lo, hi, n, ?_, hn, (h2.2.2 lo h2.1).2, fun _ => hex⟩
      simp [globalrange, h1, hr, h6, bind, Except.bind, pure, Except.pure]
    · obtain ⟨p, q, p', q', e1, e2, e3, e4, e5, e6, e7, e8⟩ := C83_cutoff h2 hx0.le le_rfl hx1
      refine ⟨p', q', n, ?_, hn, e4.trans (e5.trans e6), ?_⟩
      · simp [globalrange, h1, hr, h6, bind, Except.bind, pure, Except.pure, hx0.ne', e2]
      · rintro (h | h)
        · cases h
        · cases h
          obtain ⟨r1, r2⟩ := e8 rfl
          rw [r1, r2]; exact hex

/-! ## Drawing -/

theorem update_fixed {o : Opts} (hf : (o.multiblock && o.float) = false) (s : Space ℝ) (l : Lim) {ids : List Nat}
    (h : ids ≠ []) : update o s l ids = .ok l := by
  simp [update, frameLim, hf, bind, Except.bind, h]

theorem drawFrom_fixed {o : Opts} (hf : (o.multiblock && o.float) = false) (s : Space ℝ) (fig : Nat) (l : Lim) :
    ∀ (frames : List (List Nat)) (i : Nat), (∀ ids ∈ frames, ids ≠ []) →
    drawFrom o s fig i l frames = .ok (l, (frames.zipIdx i).map fun e => ⟨fig, e.2, e.1, l⟩) := by
  intro frames
  induction frames with
  | nil => intro i _; rfl
  | cons ids rest ih =>
    intro i h
    simp only [drawFrom, update_fixed hf s l (h ids (by simp)), ih (i + 1) (fun x hx => h x (by simp [hx])), bind,
      Except.bind, pure, Except.pure, List.zipIdx_cons, List.map_cons]

/-- The pictures of a figure with fixed limits. -/
def pics (fig : Nat) (l : Lim) (frames : List (List Nat)) : List Shown :=
  frames.zipIdx.map fun e => ⟨fig, e.2, e.1, l⟩

theorem pics_single (fig : Nat) (l : Lim) (ids : List Nat) : pics fig l (ids.map fun i => [i]) = single fig l ids := by
  unfold pics single
  rw [List.zipIdx_map, List.map_map]
  rfl

/-- What is written for a figure. -/
def written (o : Opts) (name : Str) (ps : List Shown) : Result :=
  match o.saveframes with
  | some (c :: cs) => { images := ps.map fun p => (imageName (c :: cs) p.frame, p) }
  | _ => match o.saveas with
    | some (c :: cs) => { films := [(c :: cs, ps)] }
    | _ => if o.save then { films := [(name, ps)] } else {}

theorem figure_fixed {o : Opts} (hf : (o.multiblock && o.float) = false) (s : Space ℝ) (fig : Nat) (name : Str)
    (l : Lim) {frames : List (List Nat)} (h : ∀ ids ∈ frames, ids ≠ []) :
    figure o s fig name l frames = .ok (l, written o name (pics fig l frames)) := by
  have hd : drawFrom o s fig 0 l frames = .ok (l, pics fig l frames) := drawFrom_fixed hf s fig l frames 0 h
  unfold figure written
  rcases o.saveframes with _ | _ | ⟨c, cs⟩ <;> simp only [hd, bind, Except.bind, pure, Except.pure] <;>
    rcases o.saveas with _ | _ | ⟨c', cs'⟩ <;> simp only <;> split <;> rfl

theorem screen_fixed {o : Opts} (hf : (o.multiblock && o.float) = false) (s : Space ℝ) (l : Lim) :
    ∀ (figs : List (List (List Nat))) (k : Nat), (∀ f ∈ figs, ∀ ids ∈ f, ids ≠ []) →
    screen o s k l figs = .ok ((figs.zipIdx k).flatMap fun e => pics e.2 l e.1) := by
  intro figs
  induction figs with
  | nil => intro k _; rfl
  | cons f rest ih =>
    intro k h
    simp only [screen, drawFrom_fixed hf s k l f 0 (h f (by simp)), bind, Except.bind,
      ih (k + 1) (fun x hx => h x (by simp [hx])), pure, Except.pure, List.zipIdx_cons, List.flatMap_cons]
    rfl

/-- Whether the pictures are shown on the screen. -/
def onScreen (o : Opts) : Bool :=
  match o.saveframes with
  | some (_ :: _) => false
  | _ => o.show_

theorem finish_fixed {o : Opts} (hf : (o.multiblock && o.float) = false) (s : Space ℝ) (l : Lim)
    {figs : List (List (List Nat))} (h : ∀ f ∈ figs, ∀ ids ∈ f, ids ≠ []) {r : Result} (hr : r.screen = []) :
    finish o s l figs r =
      .ok { r with screen := if onScreen o then figs.zipIdx.flatMap (fun e => pics e.2 l e.1) else [] } := by
  have hs := screen_fixed hf s l figs 0 h
  obtain ⟨im, fi, sc⟩ := r
  simp only at hr
  subst hr
  unfold finish onScreen
  rcases o.saveframes with _ | _ | ⟨c, cs⟩ <;> simp only [Bool.false_eq_true, if_false] <;>
    cases o.show_ <;> simp [hs, bind, Except.bind, pure, Except.pure]

theorem written_screen (o : Opts) (name : Str) (ps : List Shown) : (written o name ps).screen = [] := by
  unfold written
  split
  · rfl
  · split
    · rfl
    · split <;> rfl

/-- The objects named exist and have values. -/
def Drawable (s : Space ℝ) (ids : List Nat) : Prop := ∀ i ∈ ids, ∃ d, s.heap[i]? = some d ∧ HasValues d

theorem objects_ok {s : Space ℝ} {ids : List Nat} (h : Drawable s ids) : ∀ d ∈ objects s ids, HasValues d := by
  intro d hd
  obtain ⟨i, hi, he⟩ := List.mem_filterMap.1 hd
  obtain ⟨d', h1, h2⟩ := h i hi
  rw [h1] at he
  cases he
  exact h2

theorem objects_ne {s : Space ℝ} {ids : List Nat} (h : Drawable s ids) (hne : ids ≠ []) : objects s ids ≠ [] := by
  obtain ⟨i, hi⟩ := List.exists_mem_of_ne_nil ids hne
  obtain ⟨d, h1, -⟩ := h i hi
  intro h'
  have : d ∈ objects s ids := List.mem_filterMap.2 ⟨i, hi, h1⟩
  rw [h'] at this; cases this

/-- The limits of all pictures. -/
theorem initialLim_ok {o : Opts} {s : Space ℝ} {ids : List Nat} (hsel : Selected s o.use ids) (hne : ids ≠ [])
    (hd : Drawable s ids) (hc : CutoffOK o.cutoff) : ∃ l, initialLim o s = .ok l := by
  unfold initialLim
  split
  · obtain ⟨l, h1, h2⟩ := toList_selected hsel false
    obtain ⟨lo, hi, n, h3, -⟩ := globalrange_ok (ys := o.yscale) (zs := o.zscale) hc (objects_ne hd hne) (objects_ok hd)
    refine ⟨o.lim.fill (lo, hi) n, ?_⟩
    simp [h1, h2, h3, bind, Except.bind, pure, Except.pure]
  · exact ⟨_, rfl⟩

theorem framesOf_plain {o : Opts} (hm : o.multiblock = false) (s : Space ℝ) (ids : List Nat) :
    framesOf o s ids = .ok (ids.map fun i => [i]) := by simp [framesOf, hm]

/-- Without `--grouptags`: everything from the frames and the limits. -/
theorem animate_eq {o : Opts} {s : Space ℝ} {ids : List Nat} (hsel : Selected s o.use ids)
    (hg : o.grouptags = false) (hf : (o.multiblock && o.float) = false) {l : Lim} (hl : initialLim o s = .ok l)
    {frames : List (List Nat)} (hfr : framesOf o s ids = .ok frames) (hne : ∀ f ∈ frames, f ≠ []) :
    animate o s = .ok { written o "anim.mp4".toList (pics 0 l frames) with
      screen := if onScreen o then pics 0 l frames else [] } := by
  obtain ⟨l', h1, h2⟩ := toList_selected hsel false
  unfold animate
  simp only [hl, hg, bind, Except.bind, h1, h2, hfr, figure_fixed hf s 0 _ l hne, Bool.false_eq_true, if_false]
  rw [finish_fixed hf s l (by simpa using hne) (written_screen _ _ _)]
  simp

/-- C82: without `--grouptags` and `--multiblock`, the `k`-th picture shows exactly the `k`-th active dataset chosen by
`--use`, all with the same limits.  `--saveframes p` writes them to `p_0.png`, `p_1.png`, ... and nothing else;
`--saveas f` writes one film `f`, `--save` one film `anim.mp4`; otherwise only the screen is used. -/
theorem C82_pictures {o : Opts} {s : Space ℝ} {ids : List Nat} (hsel : Selected s o.use ids) (hne : ids ≠ [])
    (hd : Drawable s ids) (hc : CutoffOK o.cutoff) (hg : o.grouptags = false) (hm : o.multiblock = false) :
    ∃ l r, animate o s = .ok r ∧
      (∀ p, p ≠ [] → o.saveframes = some p →
        r.images = (single 0 l ids).map (fun q => (p ++ "_".toList ++ Nat.toDigits 10 q.frame ++ ".png".toList, q)) ∧
        r.films = [] ∧ r.screen = []) ∧
      (o.saveframes = none →
        r.images = [] ∧ r.screen = (if o.show_ then single 0 l ids else []) ∧
        (∀ f, f ≠ [] → o.saveas = some f → r.films = [(f, single 0 l ids)]) ∧
        (o.saveas = none → r.films = if o.save then [("anim.mp4".toList, single 0 l ids)] else [])) := by
  obtain ⟨l, hl⟩ := initialLim_ok hsel hne hd hc
  refine ⟨l, _, animate_eq hsel hg (by simp [hm]) hl (framesOf_plain hm s ids) (by simp), ?_, ?_⟩
  · intro p hp hs
    cases p with
    | nil => exact absurd rfl hp
    | cons c cs =>
      simp only [written, onScreen, hs, pics_single]
      refine ⟨?_, trivial, rfl⟩
      refine List.map_congr_left fun q _ => ?_
      simp [imageName]
  · intro hs
    simp only [written, onScreen, hs, pics_single]
    refine ⟨?_, trivial, ?_, ?_⟩
    · split
      · rfl
      · split <;> rfl
    · intro f hf hsa
      cases f with
      | nil => exact absurd rfl hf
      | cons c cs => simp [hsa]
    · intro hsa
      simp only [hsa]
      split <;> rfl

/-- C82: no picture is written over another one. -/
theorem C82_distinct_files {o : Opts} {s : Space ℝ} {ids : List Nat} (hsel : Selected s o.use ids) (hne : ids ≠ [])
    (hd : Drawable s ids) (hc : CutoffOK o.cutoff) (hg : o.grouptags = false) (hm : o.multiblock = false) {r : Result}
    (hr : animate o s = .ok r) : (r.images.map (·.1)).Nodup ∧ (r.films.map (·.1)).Nodup := by
  obtain ⟨l, hl⟩ := initialLim_ok hsel hne hd hc
  rw [animate_eq hsel hg (by simp [hm]) hl (framesOf_plain hm s ids) (by simp)] at hr
  cases hr
  simp only [pics_single]
  unfold written
  split
  · rename_i c cs _
    refine ⟨?_, by simp⟩
    simp only [List.map_map]
    have : (((fun x => x.1) ∘ fun p : Shown => (imageName (c :: cs) p.frame, p)) = imageName (c :: cs) ∘ Shown.frame) := rfl
    rw [this, ← List.map_map]
    have h2 : (single 0 l ids).map Shown.frame = List.range ids.length := by
      unfold single
      rw [List.map_map, List.range_eq_range', ← List.zipIdx_map_snd 0 ids]
      rfl
    rw [h2]
    refine List.Nodup.map ?_ List.nodup_range
    intro a b hab
    simp only [imageName] at hab
    have h3 := List.append_cancel_right hab
    have h4 := List.append_cancel_left h3
    have h5 : Nat.toDigits 10 a = Nat.toDigits 10 b := by simpa using h4
    rw [← natOfDigits_toDigits a, ← natOfDigits_toDigits b, h5]
  · split
    · simp
    · split <;> simp

/-- C83: without `--float`, `--grouptags` and `--cutoffglobalrange`, and if all datasets drawn have the same number of
dimensions, the limits of every picture hold for all pictures: they are the smallest and the largest (scaled) value of
all datasets, unless the user has given a limit, which is kept. -/
theorem C83_limits_partial {o : Opts} {s : Space ℝ} {ids : List Nat} (hsel : Selected s o.use ids) (hne : ids ≠ [])
    (hd : Drawable s ids) (hc : o.cutoff = none) (hg : o.grouptags = false) (hm : o.multiblock = false)
    (hf : o.float = false) {n : Nat} (hn : ∀ i ∈ ids, ∀ d, s.heap[i]? = some d → d.numDims = n) {r : Result}
    (hr : animate o s = .ok r) : ∃ lo hi, Extremes ((objects s ids).flatMap (scaled o.yscale o.zscale)) lo hi ∧
      ∀ p ∈ pictures r,
        (n = 1 → p.lim.ymin = some (o.lim.ymin.getD lo) ∧ p.lim.ymax = some (o.lim.ymax.getD hi) ∧
          p.lim.zmin = o.lim.zmin ∧ p.lim.zmax = o.lim.zmax) ∧
        (n ≠ 1 → p.lim.zmin = some (o.lim.zmin.getD lo) ∧ p.lim.zmax = some (o.lim.zmax.getD hi) ∧
          p.lim.ymin = o.lim.ymin ∧ p.lim.ymax = o.lim.ymax) := by
  obtain ⟨l', h1, h2⟩ := toList_selected hsel false
  obtain ⟨lo, hi, m, h3, h4, -, h5⟩ := globalrange_ok (ys := o.yscale) (zs := o.zscale) (c := o.cutoff) (Or.inl hc)
    (objects_ne hd hne) (objects_ok hd)
  have hmn : m = n := by
    cases hl : (objects s ids).getLast? with
    | none => rw [hl] at h4; cases h4
    | some d =>
      rw [hl] at h4
      have hmem := List.mem_of_getLast? hl
      obtain ⟨i, hi, he⟩ := List.mem_filterMap.1 hmem
      cases h4
      exact hn i hi d he
  subst hmn
  have hl : initialLim o s = .ok (o.lim.fill (lo, hi) m) := by
    simp [initialLim, hf, hg, h1, h2, h3, bind, Except.bind, pure, Except.pure]
  rw [animate_eq hsel hg (by simp [hm]) hl (framesOf_plain hm s ids) (by simp)] at hr
  refine ⟨lo, hi, h5 (Or.inl hc), ?_⟩
  have hall : ∀ p ∈ pictures r, p.lim = o.lim.fill (lo, hi) m := by
    cases hr
    intro p hp
    simp only [pics_single] at hp
    have hs : p ∈ single 0 (o.lim.fill (lo, hi) m) ids := by
      simp only [pictures, List.mem_append] at hp
      rcases hp with (hp | hp) | hp
      · unfold written at hp
        split at hp
        · simp only [List.map_map, List.mem_map] at hp
          obtain ⟨q, hq, rfl⟩ := hp
          exact hq
        · split at hp
          · simp at hp
          · split at hp <;> simp at hp
      · unfold written at hp
        split at hp
        · simp at hp
        · split at hp
          · simpa using hp
          · split at hp
            · simpa using hp
            · simp at hp
      · split at hp
        · exact hp
        · cases hp
    unfold single at hs
    obtain ⟨e, -, rfl⟩ := List.mem_map.1 hs
    rfl
  intro p hp
  rw [hall p hp]
  unfold Lim.fill
  constructor
  · rintro rfl
    simp only [if_true]
    refine ⟨?_, ?_, trivial, trivial⟩
    · cases o.lim.ymin <;> rfl
    · cases o.lim.ymax <;> rfl
  · intro h
    simp only [if_neg h]
    refine ⟨?_, ?_, trivial, trivial⟩
    · cases o.lim.zmin <;> rfl
    · cases o.lim.zmax <;> rfl

/-! ## Groups of tags -/

/-- The limits that belong to the datasets of a tag. -/
def TagLim (o : Opts) (s : Space ℝ) (ids : List Nat) (l : Lim) : Prop :=
  ∃ lo hi n, ((objects s ids).getLast?.map (·.numDims) = some n) ∧
    (o.cutoff = none → Extremes ((objects s ids).flatMap (scaled o.yscale o.zscale)) lo hi) ∧
    (n = 1 → l.ymin = some lo ∧ l.ymax = some hi) ∧ (n ≠ 1 → l.zmin = some lo ∧ l.zmax = some hi)

/-- The number of dimensions of the last of some datasets. -/
def lastDims (s : Space ℝ) (ids : List Nat) : Option Nat := (objects s ids).getLast?.map (·.numDims)

theorem group_reset (l : Lim) (lo hi : ℝ) {n : Nat} (h : n ≠ 1) :
    (l.group true (lo, hi) n).1.ymin = none ∧ (l.group true (lo, hi) n).1.ymax = none := by
  simp [Lim.group, Lim.force, h]

theorem group_yset (l : Lim) (yset : Bool) (lo hi : ℝ) (n : Nat) :
    (l.group yset (lo, hi) n).2 = (yset || decide (n = 1)) := by
  by_cases h : n = 1 <;> simp [Lim.group, h]

/-- No limits of an earlier one-dimensional tag are left in those of a tag of another dimension. -/
def NoLeftover (s : Space ℝ) (ids : Tag → List Nat) (tl : List (Tag × Lim)) : Prop :=
  ∀ (j k : Nat) (d e : Tag × Lim), j < k → tl[j]? = some d → tl[k]? = some e → lastDims s (ids d.1) = some 1 →
    lastDims s (ids e.1) ≠ some 1 → e.2.ymin = none ∧ e.2.ymax = none

theorem group_lim (l : Lim) (yset : Bool) (lo hi : ℝ) (n : Nat) :
    (n = 1 → (l.group yset (lo, hi) n).1.ymin = some lo ∧ (l.group yset (lo, hi) n).1.ymax = some hi) ∧
    (n ≠ 1 → (l.group yset (lo, hi) n).1.zmin = some lo ∧ (l.group yset (lo, hi) n).1.zmax = some hi) := by
  constructor
  · rintro rfl; exact ⟨rfl, rfl⟩
  · intro h
    simp [Lim.group, Lim.force, h]

/-- The default name of the film of a tag. -/
def tagFilm (t : Tag) : Str := "anim_".toList ++ t ++ ".mp4".toList

/-- The pictures of a tag. -/
def tagPics (n fig : Nat) (l : Lim) (ids : List Nat) : List Shown := pics fig l ((ids.map fun i => [i]).take n)

theorem tagPics_eq (n fig : Nat) (l : Lim) (ids : List Nat) : tagPics n fig l ids = single fig l (ids.take n) := by
  unfold tagPics
  rw [← List.map_take, pics_single]

theorem groupTags_ok {o : Opts} (hf : (o.multiblock && o.float) = false) {s : Space ℝ} (hc : CutoffOK o.cutoff)
    (ids : Tag → List Nat) (n : Nat) : ∀ (tags : List Tag) (fig : Nat) (yset : Bool) (l : Lim)
      (figs : List (List (List Nat))) (r : Result),
    (∀ t ∈ tags, Selected s (some t) (ids t) ∧ ids t ≠ [] ∧ Drawable s (ids t)) → r.screen = [] →
    (∀ f ∈ figs, ∀ x ∈ f, x ≠ []) →
    ∃ tl : List (Tag × Lim), tl.map (·.1) = tags ∧ (∀ e ∈ tl, TagLim o s (ids e.1) e.2) ∧
      (NoLeftover s ids tl ∧ (yset = true → ∀ e ∈ tl, lastDims s (ids e.1) ≠ some 1 → e.2.ymin = none ∧ e.2.ymax = none)) ∧
      groupTags o s n fig yset l figs r tags = .ok
        { images := r.images ++ (tl.zipIdx fig).flatMap
            fun e => (written o (tagFilm e.1.1) (tagPics n e.2 e.1.2 (ids e.1.1))).images
          films := r.films ++ (tl.zipIdx fig).flatMap
            fun e => (written o (tagFilm e.1.1) (tagPics n e.2 e.1.2 (ids e.1.1))).films
          screen := if onScreen o then
              (figs ++ tags.map fun t => ((ids t).map fun i => [i]).take n).zipIdx.flatMap
                fun e => pics e.2 ((tl.getLast?.map (·.2)).getD l) e.1
            else [] } := by
  intro tags
  induction tags with
  | nil =>
    intro fig yset l figs r _ hr hfig
    refine ⟨[], rfl, by simp, ⟨fun j k d e _ h => by simp at h, by simp⟩, ?_⟩
    simp only [groupTags, finish_fixed hf s l hfig hr]
    simp
  | cons t ts ih =>
    intro fig yset l figs r ht hr hfig
    obtain ⟨h1, h2, h3⟩ := ht t (by simp)
    obtain ⟨l', e1, e2⟩ := toList_selected h1 false
    obtain ⟨lo, hi, m, g1, g2, -, g3⟩ := globalrange_ok (ys := o.yscale) (zs := o.zscale) hc (objects_ne h3 h2)
      (objects_ok h3)
    have hfr : ∀ x ∈ ((ids t).map fun i => [i]).take n, x ≠ [] := by
      intro x hx
      obtain ⟨i, -, rfl⟩ := List.mem_map.1 (List.mem_of_mem_take hx)
      simp
    have hfg := figure_fixed hf s fig (tagFilm t) (l.group yset (lo, hi) m).1 hfr
    obtain ⟨tl, f1, f2, ⟨f4, f5⟩, f3⟩ := ih (fig + 1) (l.group yset (lo, hi) m).2 (l.group yset (lo, hi) m).1
      (figs ++ [((ids t).map fun i => [i]).take n])
      { r with
        images := r.images ++ (written o (tagFilm t) (tagPics n fig (l.group yset (lo, hi) m).1 (ids t))).images
        films := r.films ++ (written o (tagFilm t) (tagPics n fig (l.group yset (lo, hi) m).1 (ids t))).films }
      (fun u hu => ht u (by simp [hu])) hr (by
        intro f hf x hx
        rcases List.mem_append.1 hf with h | h
        · exact hfig f h x hx
        · rw [List.mem_singleton] at h
          subst h
          exact hfr x hx)
    refine ⟨(t, (l.group yset (lo, hi) m).1) :: tl, by simp [f1], ?_, ⟨?_, ?_⟩, ?_⟩
    · intro e he
      rcases List.mem_cons.1 he with rfl | he
      · exact ⟨lo, hi, m, g2, fun h => g3 (Or.inl h), group_lim _ _ _ _ _⟩
      · exact f2 e he
    · intro j k d e hjk hd he h1' hne
      obtain ⟨k, rfl⟩ : ∃ k', k = k' + 1 := ⟨k - 1, by omega⟩
      rw [List.getElem?_cons_succ] at he
      cases j with
      | zero =>
        simp only [List.getElem?_cons_zero, Option.some.injEq] at hd
        subst hd
        have hm1 : m = 1 := by
          have : lastDims s (ids t) = some m := g2
          rw [this] at h1'
          exact Option.some.inj h1'
        exact f5 (by rw [group_yset, hm1]; simp) e (List.mem_of_getElem? he) hne
      | succ j => exact f4 j k d e (by omega) (by simpa using hd) he h1' hne
    · intro hy e he hne
      rcases List.mem_cons.1 he with rfl | he
      · have hm1 : m ≠ 1 := by
          rintro rfl
          exact hne g2
        rw [hy]
        exact group_reset l lo hi hm1
      · exact f5 (by rw [group_yset, hy]; rfl) e he hne
    · have hstep : groupTags o s n fig yset l figs r (t :: ts) =
          groupTags o s n (fig + 1) (l.group yset (lo, hi) m).2 (l.group yset (lo, hi) m).1
            (figs ++ [((ids t).map fun i => [i]).take n])
            { r with
              images := r.images ++ (written o (tagFilm t) (tagPics n fig (l.group yset (lo, hi) m).1 (ids t))).images
              films := r.films ++
                (written o (tagFilm t) (tagPics n fig (l.group yset (lo, hi) m).1 (ids t))).films } ts := by
        rw [groupTags]
        simp only [e1, bind, Except.bind, e2, g1]
        have hname : ("anim_".toList ++ t ++ ".mp4".toList) = tagFilm t := rfl
        rw [hname, hfg]
        rfl
      rw [hstep, f3]
      have hlast : (((t, (l.group yset (lo, hi) m).1) :: tl).getLast?.map (·.2)).getD l =
          (tl.getLast?.map (·.2)).getD (l.group yset (lo, hi) m).1 := by
        rw [List.getLast?_cons]
        cases tl.getLast? <;> rfl
      rw [hlast]
      simp only [List.zipIdx_cons, List.flatMap_cons, List.append_assoc, List.map_cons, List.singleton_append]

/-- The tags with something to draw, and what each has. -/
structure Groups (s : Space ℝ) (tags : List Tag) (ids : Tag → List Nat) : Prop where
  tags_eq : tags = (s.dict.map Prod.fst).filter fun t => !(ids t).isEmpty
  sel : ∀ t ∈ s.dict.map Prod.fst, Selected s (some t) (ids t)
  drawable : ∀ t ∈ tags, Drawable s (ids t)

theorem animate_groups {o : Opts} {s : Space ℝ} (hi : s.Inv) {tags : List Tag} {ids : Tag → List Nat}
    (hgr : Groups s tags ids) (hc : CutoffOK o.cutoff) (hg : o.grouptags = true) (hu : o.use = none)
    (hf : (o.multiblock && o.float) = false) {n : Nat} (hmin : (tags.map fun t => (ids t).length).min? = some n) :
    ∃ tl : List (Tag × Lim), tl.map (·.1) = tags ∧ (∀ e ∈ tl, TagLim o s (ids e.1) e.2) ∧ NoLeftover s ids tl ∧
      animate o s = .ok
        { images := tl.zipIdx.flatMap fun e => (written o (tagFilm e.1.1) (tagPics n e.2 e.1.2 (ids e.1.1))).images
          films := tl.zipIdx.flatMap fun e => (written o (tagFilm e.1.1) (tagPics n e.2 e.1.2 (ids e.1.1))).films
          screen := if onScreen o then
              (tags.map fun t => ((ids t).map fun i => [i]).take n).zipIdx.flatMap
                fun e => pics e.2 ((tl.getLast?.map (·.2)).getD o.lim) e.1
            else [] } := by
  have hmem : ∀ t ∈ tags, t ∈ s.dict.map Prod.fst ∧ ids t ≠ [] := by
    intro t ht
    rw [hgr.tags_eq, List.mem_filter] at ht
    refine ⟨ht.1, ?_⟩
    intro h; simp [h] at ht
  have htags : s.tagIterator o.use true = .ok tags := by
    rw [hu]
    simp only [Space.tagIterator, if_true]
    rw [filterM_ok (p := fun t => !(ids t).isEmpty), hgr.tags_eq]
    intro t ht
    obtain ⟨l, h1, h2⟩ := toList_selected (hgr.sel t ht) false
    rw [h1]
    simp only [← h2]
    cases l <;> rfl
  have hnum : (tags.mapM fun t => s.getNumDatasets (some t) true) = .ok (tags.map fun t => (ids t).length) := by
    refine Space.mapM_ok_of_forall fun t ht => ?_
    obtain ⟨l, h1, h2⟩ := toList_selected (hgr.sel t (hmem t ht).1) false
    rw [Space.getNumDatasets_eq hi h1, ← h2, List.length_map]
  obtain ⟨tl, f1, f2, ⟨f4, -⟩, f3⟩ := groupTags_ok hf hc ids n tags 0 false o.lim [] {}
    (fun t ht => ⟨hgr.sel t (hmem t ht).1, (hmem t ht).2, hgr.drawable t ht⟩) rfl (by simp)
  refine ⟨tl, f1, f2, f4, ?_⟩
  unfold animate
  have hl : initialLim o s = .ok o.lim := by simp [initialLim, hg]
  simp only [hl, hg, bind, Except.bind, if_true, htags, hnum, hmin, Option.getD_some, f3]
  simp

/-- C84: with `--grouptags --save` there is one film per tag with an active dataset, named `anim_<tag>.mp4`; its
pictures show, one by one, the first `n` active datasets of the tag, `n` being the smallest number of datasets of a tag;
its limits are those of all datasets of the tag; and no limits of another dimension are left over from an earlier tag. -/
theorem C84_films_partial {o : Opts} {s : Space ℝ} (hi : s.Inv) {tags : List Tag} {ids : Tag → List Nat}
    (hgr : Groups s tags ids) (hc : CutoffOK o.cutoff) (hg : o.grouptags = true) (hu : o.use = none)
    (hf : (o.multiblock && o.float) = false) {n : Nat} (hmin : (tags.map fun t => (ids t).length).min? = some n)
    (hs : o.saveframes = none) (hsa : o.saveas = none) (hsv : o.save = true) :
    ∃ r, ∃ tl : List (Tag × Lim), animate o s = .ok r ∧ tl.map (·.1) = tags ∧
      r.films = tl.zipIdx.map (fun e =>
        ("anim_".toList ++ e.1.1 ++ ".mp4".toList, single e.2 e.1.2 ((ids e.1.1).take n))) ∧
      (∀ e ∈ tl, TagLim o s (ids e.1) e.2) ∧ NoLeftover s ids tl := by
  obtain ⟨tl, f1, f2, f4, f3⟩ := animate_groups hi hgr hc hg hu hf hmin
  refine ⟨_, tl, f3, f1, ?_, f2, f4⟩
  simp only [written, hs, hsa, hsv, if_true, tagPics_eq]
  rw [List.map_eq_flatMap]
  rfl

/-- C84 fails for `--saveframes`: with two tags the pictures of the second are written over those of the first. -/
theorem C84_saveframes_fails {o : Opts} {s : Space ℝ} (hi : s.Inv) {t u : Tag} {ids : Tag → List Nat}
    (hgr : Groups s [t, u] ids) (hc : CutoffOK o.cutoff) (hg : o.grouptags = true) (hu : o.use = none)
    (hf : (o.multiblock && o.float) = false) {p : Str} (hp : p ≠ []) (hs : o.saveframes = some p) {i j : Nat}
    {is js : List Nat} (h1 : ids t = i :: is) (h2 : ids u = j :: js) :
    ∃ r, ∃ q q' : Shown, animate o s = .ok r ∧ q.ids = [i] ∧ q'.ids = [j] ∧
      (p ++ "_0.png".toList, q) ∈ r.images ∧ (p ++ "_0.png".toList, q') ∈ r.images ∧ q.fig ≠ q'.fig := by
  obtain ⟨c, cs, rfl⟩ := List.exists_cons_of_ne_nil hp
  have hmin : ([t, u].map fun t => (ids t).length).min? = some (min (is.length + 1) (js.length + 1)) := by
    simp [h1, h2, List.min?]
  obtain ⟨tl, f1, f2, f4, f3⟩ := animate_groups hi hgr hc hg hu hf hmin
  rcases tl with _ | ⟨⟨t1, l1⟩, _ | ⟨⟨t2, l2⟩, _ | ⟨e, tl⟩⟩⟩
  · simp at f1
  · simp at f1
  · simp only [List.map_cons, List.map_nil, List.cons.injEq, and_true] at f1
    obtain ⟨rfl, rfl⟩ := f1
    refine ⟨_, ⟨0, 0, [i], l1⟩, ⟨1, 0, [j], l2⟩, f3, rfl, rfl, ?_, ?_, by simp⟩
    · simp [written, hs, tagPics_eq, single, h1, imageName]
    · simp [written, hs, tagPics_eq, single, h2, imageName]
  · simp at f1

/-- C84 fails on the screen: all figures are drawn after the loop, with the limits of the last tag. -/
theorem C84_screen_fails {o : Opts} {s : Space ℝ} (hi : s.Inv) {tags : List Tag} {ids : Tag → List Nat}
    (hgr : Groups s tags ids) (hc : CutoffOK o.cutoff) (hg : o.grouptags = true) (hu : o.use = none)
    (hf : (o.multiblock && o.float) = false) (hs : o.saveframes = none) (hsh : o.show_ = true) {t : Tag}
    (ht : tags.getLast? = some t) : ∃ r, animate o s = .ok r ∧ (∀ p ∈ r.screen, TagLim o s (ids t) p.lim) ∧
      ∀ u ∈ tags, ∃ p ∈ r.screen, ∃ i ∈ ids u, p.ids = [i] := by
  have hne : tags ≠ [] := by rintro rfl; simp at ht
  have hlen : ∀ u ∈ tags, ids u ≠ [] := by
    intro u hu
    rw [hgr.tags_eq, List.mem_filter] at hu
    intro h; simp [h] at hu
  obtain ⟨n, hmin⟩ : ∃ n, (tags.map fun t => (ids t).length).min? = some n := by
    cases h : (tags.map fun t => (ids t).length).min? with
    | none => rw [List.min?_eq_none_iff, List.map_eq_nil_iff] at h; exact absurd h hne
    | some n => exact ⟨n, rfl⟩
  have hn : 0 < n := by
    obtain ⟨u, hu, hn⟩ := List.mem_map.1 (List.min?_mem hmin)
    rw [← hn]
    exact List.length_pos_iff.2 (hlen u hu)
  obtain ⟨tl, f1, f2, f4, f3⟩ := animate_groups hi hgr hc hg hu hf hmin
  obtain ⟨e, he, het⟩ : ∃ e, tl.getLast? = some e ∧ e.1 = t := by
    rw [← f1, List.getLast?_map] at ht
    cases h : tl.getLast? with
    | none => rw [h] at ht; cases ht
    | some e => rw [h] at ht; exact ⟨e, rfl, by simpa using ht⟩
  have hon : onScreen o = true := by simp [onScreen, hs, hsh]
  refine ⟨_, f3, ?_, ?_⟩
  · intro p hp
    simp only [hon, if_true, he, Option.map_some, Option.getD_some, List.mem_flatMap] at hp
    obtain ⟨x, -, hp⟩ := hp
    obtain ⟨y, -, rfl⟩ := List.mem_map.1 hp
    have := f2 e (List.mem_of_getLast? he)
    rw [het] at this
    exact this
  · intro u hu
    simp only [hon, if_true, he, Option.map_some, Option.getD_some]
    obtain ⟨k, hk, hku⟩ := List.mem_iff_getElem.1 hu
    obtain ⟨i, is, hid⟩ := List.exists_cons_of_ne_nil (hlen u hu)
    refine ⟨⟨k, 0, [i], e.2⟩, List.mem_flatMap.2 ⟨(((ids u).map fun i => [i]).take n, k), ?_, ?_⟩, i, by simp [hid], rfl⟩
    · rw [List.mem_zipIdx_iff_getElem?]
      simp [List.getElem?_map, List.getElem?_eq_getElem hk, hku]
    · obtain ⟨m, rfl⟩ : ∃ m, n = m + 1 := ⟨n - 1, by omega⟩
      simp [pics, hid, List.zipIdx_cons]

/-! ## Multi-block data -/

theorem find_assigned {ids : List Nat} (frame : Nat → Nat) {i : Nat} (h : i ∈ ids) :
    ((ids.map fun i => (i, (frame i : Int))).find? fun e => e.1 = i).map (·.2) = some (frame i : Int) := by
  induction ids with
  | nil => cases h
  | cons j ids ih =>
    rw [List.map_cons, List.find?_cons]
    by_cases hj : j = i
    · simp [hj]
    · simp only [hj, decide_false]
      rcases List.mem_cons.1 h with rfl | h
      · exact absurd rfl hj
      · exact ih h

theorem blockFrames_eq {ids : List Nat} (frame : Nat → Nat) (frames : List Int) :
    blockFrames (ids.map fun i => (i, (frame i : Int))) frames ids =
      frames.map fun n => ids.filter fun i => decide ((frame i : Int) = n) := by
  unfold blockFrames
  refine List.map_congr_left fun n _ => List.filter_congr fun i hi => ?_
  rw [find_assigned frame hi]
  simp

/-- The pictures of multi-block data: one for every frame, with all datasets of that frame. -/
def blockPictures (lim : Lim) (frame : Nat → Nat) (frames : List Int) (ids : List Nat) : List Shown :=
  frames.zipIdx.map fun e => ⟨0, e.2, ids.filter fun i => decide ((frame i : Int) = e.1), lim⟩

/-- C85 (partial: the conditions of C81): with `--multiblock` there is one picture for every frame number found in the
file names, in ascending order, and it shows exactly the datasets of that frame. -/
theorem C85_blocks_partial {o : Opts} {s : Space ℝ} {t : Tag} {ids : List Nat} {stem : Str} {frame : Nat → Nat}
    {rest : Nat → Str} (hdict : s.dict = [(t, ids)]) (hu : o.use = none) (hs : ¬ ".gkyl".toList <:+: stem)
    (hfile : ∀ i ∈ ids, ∃ d, s.heap[i]? = some d ∧ d.status = true ∧ d.fileName = frameFile stem (frame i) (rest i))
    (hdig : ∃ i ∈ ids, ∃ j ∈ ids, leadDigit (frame i) ≠ leadDigit (frame j)) (hd : Drawable s ids)
    (hc : CutoffOK o.cutoff) (hg : o.grouptags = false) (hm : o.multiblock = true) (hf : o.float = false) :
    ∃ l r frames, animate o s = .ok r ∧ Ascending (ids.map fun i => (frame i : Int)) frames ∧
      (∀ p, p ≠ [] → o.saveframes = some p →
        r.images = (blockPictures l frame frames ids).map (fun q =>
          (p ++ "_".toList ++ Nat.toDigits 10 q.frame ++ ".png".toList, q)) ∧ r.films = [] ∧ r.screen = []) ∧
      (o.saveframes = none →
        r.images = [] ∧ r.screen = (if o.show_ then blockPictures l frame frames ids else []) ∧
        (∀ f, f ≠ [] → o.saveas = some f → r.films = [(f, blockPictures l frame frames ids)]) ∧
        (o.saveas = none → r.films = if o.save then [("anim.mp4".toList, blockPictures l frame frames ids)] else [])) := by
  obtain ⟨frames, h1, h2⟩ := C81_frames_partial hdict hs hfile hdig
  have hact : ids.filter s.active = ids := by
    rw [List.filter_eq_self]
    intro i hi
    obtain ⟨d, h1, h2, -⟩ := hfile i hi
    simp [Space.active, h1, h2]
  have hsel : Selected s o.use ids := by
    rw [hu]
    show ids = _
    simp [hdict, Space.lookup, hact]
  have hne : ids ≠ [] := by
    rintro rfl
    obtain ⟨i, hi, -⟩ := hdig
    cases hi
  obtain ⟨l, hl⟩ := initialLim_ok hsel hne hd hc
  have hfne : ∀ f ∈ frames.map (fun n => ids.filter fun i => decide ((frame i : Int) = n)), f ≠ [] := by
    intro f hf
    obtain ⟨n, hn, rfl⟩ := List.mem_map.1 hf
    obtain ⟨i, hi, hin⟩ := List.mem_map.1 ((h2.2 n).1 hn)
    intro h
    have : i ∈ ids.filter fun i => decide ((frame i : Int) = n) := List.mem_filter.2 ⟨hi, by simpa using hin⟩
    rw [h] at this; cases this
  have hfr : framesOf o s ids = .ok (frames.map fun n => ids.filter fun i => decide ((frame i : Int) = n)) := by
    unfold framesOf
    rw [if_pos hm, h1]
    simp only [bind, Except.bind, blockFrames_eq]
    have hnf : needFirst o (frames.map fun n => ids.filter fun i => decide ((frame i : Int) = n)) = .ok () := by
      unfold needFirst
      split
      · rfl
      · obtain ⟨i, hi, -⟩ := hdig
        have hmem : (frame i : Int) ∈ frames := (h2.2 _).2 (List.mem_map_of_mem hi)
        cases frames with
        | nil => cases hmem
        | cons n ns =>
          have := hfne _ (by rw [List.map_cons]; exact List.mem_cons_self)
          rw [List.map_cons]
          obtain ⟨a, as, has⟩ := List.exists_cons_of_ne_nil this
          rw [has]
    rw [hnf]
    rfl
  have hpics : pics 0 l (frames.map fun n => ids.filter fun i => decide ((frame i : Int) = n)) =
      blockPictures l frame frames ids := by
    unfold pics blockPictures
    rw [List.zipIdx_map, List.map_map]
    rfl
  refine ⟨l, _, frames, animate_eq hsel hg (by simp [hf]) hl hfr hfne, h2, ?_, ?_⟩
  · intro p hp hs
    cases p with
    | nil => exact absurd rfl hp
    | cons c cs =>
      simp only [written, onScreen, hs, hpics]
      refine ⟨?_, trivial, rfl⟩
      refine List.map_congr_left fun q _ => ?_
      simp [imageName]
  · intro hs
    simp only [written, onScreen, hs, hpics]
    refine ⟨?_, trivial, ?_, ?_⟩
    · split
      · rfl
      · split <;> rfl
    · intro f hf hsa
      cases f with
      | nil => exact absurd rfl hf
      | cons c cs => simp [hsa]
    · intro hsa
      simp only [hsa]
      split <;> rfl

theorem drawFrom_float {o : Opts} (hm : o.multiblock = true) (hf : o.float = true) {s : Space ℝ} (hc : CutoffOK o.cutoff)
    (fig : Nat) : ∀ (frames : List (List Nat)) (i : Nat) (l : Lim), (∀ ids ∈ frames, ids ≠ [] ∧ Drawable s ids) →
    ∃ l' ps, drawFrom o s fig i l frames = .ok (l', ps) ∧
      ps.map (fun p => (p.fig, p.frame, p.ids)) = (frames.zipIdx i).map (fun e => (fig, e.2, e.1)) ∧
      ∀ p ∈ ps, TagLim o s p.ids p.lim := by
  intro frames
  induction frames with
  | nil => intro i l _; exact ⟨l, [], rfl, rfl, by simp⟩
  | cons ids rest ih =>
    intro i l h
    obtain ⟨h1, h2⟩ := h ids (by simp)
    obtain ⟨lo, hi, n, g1, g2, -, g3⟩ := globalrange_ok (ys := o.yscale) (zs := o.zscale) hc (objects_ne h2 h1) (objects_ok h2)
    have hu : update o s l ids = .ok (l.force (lo, hi) n) := by
      simp [update, frameLim, hm, hf, bind, Except.bind, h1, g1, pure, Except.pure]
    obtain ⟨l', ps, e1, e2, e3⟩ := ih (i + 1) (l.force (lo, hi) n) fun x hx => h x (by simp [hx])
    refine ⟨l', ⟨fig, i, ids, l.force (lo, hi) n⟩ :: ps, ?_, ?_, ?_⟩
    · simp only [drawFrom, hu, bind, Except.bind, e1, pure, Except.pure]
    · simp only [List.map_cons, List.zipIdx_cons, e2]
    · intro p hp
      rcases List.mem_cons.1 hp with rfl | hp
      · refine ⟨lo, hi, n, g2, fun h => g3 (Or.inl h), ?_, ?_⟩
        · rintro rfl; exact ⟨rfl, rfl⟩
        · intro hn; simp [Lim.force, hn]
      · exact e3 p hp

theorem figure_float {o : Opts} (hm : o.multiblock = true) (hf : o.float = true) {s : Space ℝ} (hc : CutoffOK o.cutoff)
    (fig : Nat) (name : Str) (l : Lim) {frames : List (List Nat)} (h : ∀ ids ∈ frames, ids ≠ [] ∧ Drawable s ids) :
    ∃ l' ps, figure o s fig name l frames = .ok (l', written o name ps) ∧
      ps.map (fun p => (p.frame, p.ids)) = frames.zipIdx.map (fun e => (e.2, e.1)) ∧ ∀ p ∈ ps, TagLim o s p.ids p.lim := by
  obtain ⟨l', ps, hd, h2, h3⟩ := drawFrom_float hm hf hc fig frames 0 l h
  have h2' : ps.map (fun p => (p.frame, p.ids)) = frames.zipIdx.map (fun e => (e.2, e.1)) := by
    have := congrArg (List.map Prod.snd) h2
    rw [List.map_map, List.map_map] at this
    exact this
  unfold figure written
  rcases o.saveframes with _ | _ | ⟨c, cs⟩
  · rcases o.saveas with _ | _ | ⟨c', cs'⟩ <;> simp only [hd, bind, Except.bind, pure, Except.pure]
    · split
      · exact ⟨l', ps, rfl, h2', h3⟩
      · exact ⟨l, ps, rfl, h2', h3⟩
    · split
      · exact ⟨l', ps, rfl, h2', h3⟩
      · exact ⟨l, ps, rfl, h2', h3⟩
    · exact ⟨l', ps, rfl, h2', h3⟩
  · rcases o.saveas with _ | _ | ⟨c', cs'⟩ <;> simp only [hd, bind, Except.bind, pure, Except.pure]
    · split
      · exact ⟨l', ps, rfl, h2', h3⟩
      · exact ⟨l, ps, rfl, h2', h3⟩
    · split
      · exact ⟨l', ps, rfl, h2', h3⟩
      · exact ⟨l, ps, rfl, h2', h3⟩
    · exact ⟨l', ps, rfl, h2', h3⟩
  · simp only [hd, bind, Except.bind, pure, Except.pure]
    exact ⟨l', ps, rfl, h2', h3⟩

/-- C85 (partial: the conditions of C81): with `--multiblock --float` the pictures are the same, and the limits of each are
those of the datasets of its frame. -/
theorem C85_float_partial {o : Opts} {s : Space ℝ} {t : Tag} {ids : List Nat} {stem : Str} {frame : Nat → Nat}
    {rest : Nat → Str} (hdict : s.dict = [(t, ids)]) (hu : o.use = none) (hs : ¬ ".gkyl".toList <:+: stem)
    (hfile : ∀ i ∈ ids, ∃ d, s.heap[i]? = some d ∧ d.status = true ∧ d.fileName = frameFile stem (frame i) (rest i))
    (hdig : ∃ i ∈ ids, ∃ j ∈ ids, leadDigit (frame i) ≠ leadDigit (frame j)) (hd : Drawable s ids)
    (hc : CutoffOK o.cutoff) (hg : o.grouptags = false) (hm : o.multiblock = true) (hf : o.float = true) :
    ∃ r frames, animate o s = .ok r ∧ Ascending (ids.map fun i => (frame i : Int)) frames ∧
      (∀ p ∈ pictures r, TagLim o s p.ids p.lim) ∧
      (∀ p, p ≠ [] → o.saveframes = some p →
        r.images.map (fun e => (e.1, e.2.ids)) = frames.zipIdx.map (fun e =>
          (p ++ "_".toList ++ Nat.toDigits 10 e.2 ++ ".png".toList, ids.filter fun i => decide ((frame i : Int) = e.1))) ∧
        r.films = [] ∧ r.screen = []) ∧
      (o.saveframes = none → r.images = [] ∧
        (o.show_ = true → r.screen.map (·.ids) = frames.map fun n => ids.filter fun i => decide ((frame i : Int) = n)) ∧
        (o.saveas = none → o.save = true → ∃ ps, r.films = [("anim.mp4".toList, ps)] ∧
          ps.map (·.ids) = frames.map fun n => ids.filter fun i => decide ((frame i : Int) = n))) := by
  obtain ⟨frames, h1, h2⟩ := C81_frames_partial hdict hs hfile hdig
  have hact : ids.filter s.active = ids := by
    rw [List.filter_eq_self]
    intro i hi
    obtain ⟨d, h1, h2, -⟩ := hfile i hi
    simp [Space.active, h1, h2]
  have hsel : Selected s o.use ids := by
    rw [hu]
    show ids = _
    simp [hdict, Space.lookup, hact]
  have hfne : ∀ f ∈ frames.map (fun n => ids.filter fun i => decide ((frame i : Int) = n)), f ≠ [] ∧ Drawable s f := by
    intro f hf
    obtain ⟨n, hn, rfl⟩ := List.mem_map.1 hf
    obtain ⟨i, hi, hin⟩ := List.mem_map.1 ((h2.2 n).1 hn)
    refine ⟨?_, fun j hj => hd j (List.mem_filter.1 hj).1⟩
    intro h
    have : i ∈ ids.filter fun i => decide ((frame i : Int) = n) := List.mem_filter.2 ⟨hi, by simpa using hin⟩
    rw [h] at this; cases this
  have hfr : framesOf o s ids = .ok (frames.map fun n => ids.filter fun i => decide ((frame i : Int) = n)) := by
    unfold framesOf
    rw [if_pos hm, h1]
    simp only [bind, Except.bind, blockFrames_eq]
    have hnf : needFirst o (frames.map fun n => ids.filter fun i => decide ((frame i : Int) = n)) = .ok () := by
      unfold needFirst
      split
      · rfl
      · obtain ⟨i, hi, -⟩ := hdig
        have hmem : (frame i : Int) ∈ frames := (h2.2 _).2 (List.mem_map_of_mem hi)
        cases frames with
        | nil => cases hmem
        | cons n ns =>
          have := (hfne _ (by rw [List.map_cons]; exact List.mem_cons_self)).1
          rw [List.map_cons]
          obtain ⟨a, as, has⟩ := List.exists_cons_of_ne_nil this
          rw [has]
    rw [hnf]
    rfl
  obtain ⟨tl, e1, e2⟩ := toList_selected hsel false
  have hl : initialLim o s = .ok o.lim := by simp [initialLim, hf]
  obtain ⟨l', ps, f1, f2, f3⟩ := figure_float hm hf hc 0 "anim.mp4".toList o.lim hfne
  obtain ⟨l'', qs, q1, q2, q3⟩ := drawFrom_float hm hf hc 0 _ 0 l' hfne
  have hps : ps.map (·.ids) = frames.map fun n => ids.filter fun i => decide ((frame i : Int) = n) := by
    have := congrArg (List.map Prod.snd) f2
    rw [List.map_map, List.map_map] at this
    refine this.trans ?_
    exact List.zipIdx_map_fst 0 _
  have hqs : qs.map (·.ids) = frames.map fun n => ids.filter fun i => decide ((frame i : Int) = n) := by
    have := congrArg (List.map fun e : Nat × Nat × List Nat => e.2.2) q2
    rw [List.map_map, List.map_map] at this
    refine this.trans ?_
    exact List.zipIdx_map_fst 0 _
  have hfin : finish o s l' [frames.map fun n => ids.filter fun i => decide ((frame i : Int) = n)]
      (written o "anim.mp4".toList ps) =
      .ok { written o "anim.mp4".toList ps with screen := if onScreen o then qs else [] } := by
    have hw := written_screen o "anim.mp4".toList ps
    unfold finish onScreen
    have hscr : screen o s 0 l' [frames.map fun n => ids.filter fun i => decide ((frame i : Int) = n)] = .ok qs := by
      simp only [screen, q1, bind, Except.bind, pure, Except.pure, List.append_nil]
    rcases o.saveframes with _ | _ | ⟨c, cs⟩ <;> simp only [Bool.false_eq_true, if_false] <;>
      cases o.show_ <;> simp [hscr, bind, Except.bind, pure, Except.pure, ← hw]
  refine ⟨{ written o "anim.mp4".toList ps with screen := if onScreen o then qs else [] }, frames, ?_, h2, ?_, ?_, ?_⟩
  · unfold animate
    simp only [hl, hg, bind, Except.bind, e1, e2, hfr, f1, hfin, Bool.false_eq_true, if_false]
  · intro p hp
    unfold pictures at hp
    rw [List.mem_append, List.mem_append] at hp
    rcases hp with (hp | hp) | hp
    · refine f3 p ?_
      obtain ⟨e, he, rfl⟩ := List.mem_map.1 hp
      unfold written at he
      split at he
      · obtain ⟨x, hx, rfl⟩ := List.mem_map.1 he; exact hx
      · split at he
        · cases he
        · split at he <;> cases he
    · refine f3 p ?_
      obtain ⟨e, he, hpe⟩ := List.mem_flatMap.1 hp
      unfold written at he
      split at he
      · cases he
      · split at he
        · rw [List.mem_singleton.1 he] at hpe; exact hpe
        · split at he
          · rw [List.mem_singleton.1 he] at hpe; exact hpe
          · cases he
    · simp only at hp
      split at hp
      · exact q3 p hp
      · cases hp
  · intro p hp hsf
    cases p with
    | nil => exact absurd rfl hp
    | cons c cs =>
      simp only [written, onScreen, hsf]
      refine ⟨?_, trivial, rfl⟩
      have h3 : ps.map (fun p => (imageName (c :: cs) p.frame, p.ids)) =
          (ps.map fun p => (p.frame, p.ids)).map fun e => (imageName (c :: cs) e.1, e.2) := by rw [List.map_map]; rfl
      rw [List.map_map]
      refine (show _ = ps.map (fun p => (imageName (c :: cs) p.frame, p.ids)) from rfl).trans ?_
      rw [h3, f2, List.map_map, List.zipIdx_map, List.map_map]
      refine List.map_congr_left fun e _ => ?_
      simp [imageName, Function.comp]
  · intro hsf
    simp only [written, onScreen, hsf]
    refine ⟨?_, ?_, ?_⟩
    · split
      · rfl
      · split <;> rfl
    · intro hsh; rw [if_pos hsh]; exact hqs
    · intro hsa hsv
      simp only [hsa, hsv, if_true]
      exact ⟨ps, rfl, hps⟩

theorem drawFrom_empty {o : Opts} (hf : (o.multiblock && o.float) = false) {s : Space ℝ} {fig : Nat} :
    ∀ {frames : List (List Nat)} {i : Nat} {l : Lim}, [] ∈ frames → drawFrom o s fig i l frames = .error .unboundLocal := by
  intro frames
  induction frames with
  | nil => intro i l h; cases h
  | cons f rest ih =>
    intro i l h
    by_cases hfe : f = []
    · subst hfe
      simp [drawFrom, update, frameLim, hf, bind, Except.bind]
    · have hr : [] ∈ rest := by
        rcases List.mem_cons.1 h with h | h
        · exact absurd h.symm hfe
        · exact h
      simp only [drawFrom, update_fixed hf s l hfe, bind, Except.bind, ih hr]

/-- C85 fails together with `--use`: the frames are looked for in all active datasets; if one of them has no dataset of the
chosen tag, the command ends in an `UnboundLocalError`. -/
theorem C85_use_fails {o : Opts} {s : Space ℝ} {ids : List Nat} (hsel : Selected s o.use ids) (hne : ids ≠ [])
    (hd : Drawable s ids) (hc : CutoffOK o.cutoff) (hg : o.grouptags = false) (hm : o.multiblock = true)
    (hf : o.float = false) (hcol : o.color = true) {a : List (Nat × Int)} {frames : List Int}
    (hfr : setFrame s = .ok (a, frames)) {n : Int} (hn : n ∈ frames)
    (hno : ∀ i ∈ ids, (a.find? fun e => e.1 = i).map (·.2) ≠ some n) {p : Str} (hp : p ≠ [])
    (hs : o.saveframes = some p) : animate o s = .error .unboundLocal := by
  obtain ⟨tl, e1, e2⟩ := toList_selected hsel false
  obtain ⟨l, hl⟩ := initialLim_ok hsel hne hd hc
  have hfo : framesOf o s ids = .ok (blockFrames a frames ids) := by
    simp [framesOf, hm, hfr, needFirst, hcol, bind, Except.bind, pure, Except.pure]
  have hem : [] ∈ blockFrames a frames ids := by
    refine List.mem_map.2 ⟨n, hn, ?_⟩
    rw [List.filter_eq_nil_iff]
    intro i hi
    simpa using hno i hi
  obtain ⟨c, cs, rfl⟩ := List.exists_cons_of_ne_nil hp
  have hfig : figure o s 0 "anim.mp4".toList l (blockFrames a frames ids) = .error .unboundLocal := by
    unfold figure
    rw [hs]
    simp only [drawFrom_empty (o := o) (by simp [hf]) hem, bind, Except.bind]
  unfold animate
  simp only [hl, hg, bind, Except.bind, e1, e2, hfo, hfig, Bool.false_eq_true, if_false]

/-- C85: every dataset is in exactly one picture. -/
theorem C85_each_once {lim : Lim} {frame : Nat → Nat} {frames : List Int} {ids : List Nat}
    (h : Ascending (ids.map fun i => (frame i : Int)) frames) {i : Nat} (hi : i ∈ ids) :
    ∃! p, p ∈ blockPictures lim frame frames ids ∧ i ∈ p.ids := by
  have hmem : (frame i : Int) ∈ frames := (h.2 _).2 (List.mem_map_of_mem hi)
  obtain ⟨k, hk, hke⟩ := List.mem_iff_getElem.1 hmem
  have hnd : frames.Nodup := h.1.imp fun h => ne_of_lt h
  refine ⟨⟨0, k, ids.filter fun j => decide ((frame j : Int) = frame i), lim⟩, ⟨?_, ?_⟩, ?_⟩
  · refine List.mem_map.2 ⟨((frame i : Int), k), ?_, rfl⟩
    rw [List.mem_zipIdx_iff_getElem?]
    simp [List.getElem?_eq_getElem hk, hke]
  · simp [hi]
  · rintro p ⟨hp, hpi⟩
    obtain ⟨⟨n, m⟩, hnm, rfl⟩ := List.mem_map.1 hp
    simp only [List.mem_filter, decide_eq_true_eq] at hpi
    rw [List.mem_zipIdx_iff_getElem?] at hnm
    simp only at hnm
    obtain ⟨-, rfl⟩ := hpi
    obtain ⟨hm, hme⟩ := List.getElem?_eq_some_iff.1 hnm
    have : m = k := (List.Nodup.getElem_inj_iff hnd).1 (hme.trans hke.symm)
    subst this
    rfl

/-! ## Examples -/

namespace Ex

/-- A dataset on a line with two values. -/
def line (tag : Tag) (file : Str) (a b : ℝ) : GData ℝ :=
  { tag := tag, fileName := file, grid := some [⟨[3], [0, 1, 2]⟩], values := some ⟨[2, 1], [a, b]⟩ }

theorem line_ok (tag : Tag) (file : Str) (a b : ℝ) : HasValues (line tag file a b) := ⟨_, rfl, by simp⟩

theorem line_scaled (tag : Tag) (file : Str) (a b : ℝ) : scaled 1 1 (line tag file a b) = [a, b] := by
  simp only [scaled, ite_self, mul_one]
  rfl

/-- Two tags with two datasets and one dataset. -/
def store : Space ℝ :=
  ⟨[line "a".toList "f0".toList 0 1, line "a".toList "f1".toList 2 3, line "b".toList "g0".toList 5 6],
    [("a".toList, [0, 1]), ("b".toList, [2])]⟩

def ids (t : Tag) : List Nat := if t = "a".toList then [0, 1] else if t = "b".toList then [2] else []

theorem drawable (l : List Nat) (h : ∀ i ∈ l, i < 3) : Drawable store l := by
  intro i hi
  have := h i hi
  interval_cases i <;> exact ⟨_, rfl, line_ok _ _ _ _⟩

theorem inv : store.Inv := ⟨by decide, by decide, by decide⟩

theorem selA : Selected store (some "a".toList) [0, 1] := ⟨by decide, by decide, [0, 1], rfl, rfl⟩
theorem selB : Selected store (some "b".toList) [2] := ⟨by decide, by decide, [2], rfl, rfl⟩

theorem groups : Groups store ["a".toList, "b".toList] ids := by
  refine ⟨by decide, ?_, ?_⟩
  · intro t ht
    have : t = "a".toList ∨ t = "b".toList := by simpa [store] using ht
    rcases this with rfl | rfl
    · exact selA
    · exact selB
  · intro t ht
    have : t = "a".toList ∨ t = "b".toList := by simpa using ht
    rcases this with rfl | rfl
    · exact drawable _ (by decide)
    · exact drawable _ (by decide)

/-- C82 on the datasets of tag "a". -/
example : ∃ l r, animate { use := some "a".toList, saveframes := some "p".toList } store = .ok r ∧
    r.images = [("p_0.png".toList, ⟨0, 0, [0], l⟩), ("p_1.png".toList, ⟨0, 1, [1], l⟩)] := by
  obtain ⟨l, r, h1, h2, -⟩ := C82_pictures (o := { use := some "a".toList, saveframes := some "p".toList }) selA
    (by simp) (drawable _ (by decide)) (Or.inl rfl) rfl rfl
  refine ⟨l, r, h1, (h2 _ (by simp) rfl).1.trans ?_⟩
  have e0 : Nat.toDigits 10 0 = ['0'] := by decide
  have e1 : Nat.toDigits 10 1 = ['1'] := by decide
  simp [single, List.zipIdx_cons, e0, e1]

theorem extremes_unique {l : List ℝ} {a b c d : ℝ} (h : Extremes l a b) (h' : Extremes l c d) : a = c ∧ b = d :=
  ⟨le_antisymm (h.2.2 c h'.1).1 (h'.2.2 a h.1).1, le_antisymm (h'.2.2 b h.2.1).2 (h.2.2 d h'.2.1).2⟩

theorem extremesA : Extremes ((objects store [0, 1]).flatMap (scaled 1 1)) 0 3 := by
  have : (objects store [0, 1]).flatMap (scaled 1 1) = [0, 1, 2, 3] := by
    simp [objects, store, line_scaled]
  rw [this]
  refine ⟨by simp, by simp, ?_⟩
  intro x hx
  simp only [List.mem_cons, List.not_mem_nil, or_false] at hx
  rcases hx with rfl | rfl | rfl | rfl <;> norm_num

/-- C83 on the datasets of tag "a": with `--ymax 10` the limits are 0 and 10 throughout. -/
example : ∃ r, animate { use := some "a".toList, lim := { ymax := some 10 } } store = .ok r ∧
    ∀ p ∈ pictures r, p.lim.ymin = some 0 ∧ p.lim.ymax = some 10 := by
  obtain ⟨l, r, h1, -⟩ := C82_pictures (o := { use := some "a".toList, lim := { ymax := some 10 } }) selA
    (by simp) (drawable _ (by decide)) (Or.inl rfl) rfl rfl
  obtain ⟨lo, hi, h2, h3⟩ := C83_limits_partial selA (by simp) (drawable _ (by decide)) rfl rfl rfl rfl (n := 1) (by
    intro i hi d hd
    have : i = 0 ∨ i = 1 := by simpa using hi
    rcases this with rfl | rfl <;> (cases hd; rfl)) h1
  obtain ⟨rfl, rfl⟩ := extremes_unique h2 extremesA
  exact ⟨r, h1, fun p hp => ⟨((h3 p hp).1 rfl).1, ((h3 p hp).1 rfl).2.1⟩⟩

/-- The cut-off on three values. -/
example : ∃ a b a' b', cutoffRange (1 / 2) [3, 1, 2] = .ok (a, b) ∧ cutoffRange 1 [3, 1, 2] = .ok (a', b') ∧
    1 ≤ a' ∧ a' ≤ a ∧ a ≤ b ∧ b ≤ b' ∧ b' ≤ 3 ∧ ((1 : ℝ) = 1 → a' = 1 ∧ b' = 3) :=
  C83_cutoff (e := [3, 1, 2]) (lo := 1) (hi := 3) ⟨by simp, by simp, by
    intro x hx
    simp only [List.mem_cons, List.not_mem_nil, or_false] at hx
    rcases hx with rfl | rfl | rfl <;> norm_num⟩ (by norm_num) (by norm_num) le_rfl

/-- C84 on the two tags: one picture each. -/
example : ∃ r l l', animate { grouptags := true, save := true } store = .ok r ∧
    r.films = [("anim_a.mp4".toList, [⟨0, 0, [0], l⟩]), ("anim_b.mp4".toList, [⟨1, 0, [2], l'⟩])] := by
  obtain ⟨r, tl, h1, h2, h3, -⟩ := C84_films_partial (o := { grouptags := true, save := true }) inv groups (Or.inl rfl)
    rfl rfl rfl (n := 1) (by decide) rfl rfl rfl
  rcases tl with _ | ⟨⟨t1, l1⟩, _ | ⟨⟨t2, l2⟩, _ | ⟨e, tl⟩⟩⟩
  · simp at h2
  · simp at h2
  · simp only [List.map_cons, List.map_nil, List.cons.injEq, and_true] at h2
    obtain ⟨rfl, rfl⟩ := h2
    exact ⟨r, l1, l2, h1, h3⟩
  · simp at h2

/-- C84_saveframes_fails and C84_screen_fails are about such stores. -/
example : ∃ r, ∃ q q' : Shown, animate { grouptags := true, saveframes := some "p".toList } store = .ok r ∧
    q.ids = [0] ∧ q'.ids = [2] ∧ ("p".toList ++ "_0.png".toList, q) ∈ r.images ∧
    ("p".toList ++ "_0.png".toList, q') ∈ r.images ∧ q.fig ≠ q'.fig :=
  C84_saveframes_fails (o := { grouptags := true, saveframes := some "p".toList }) inv groups (Or.inl rfl) rfl rfl rfl
    (by simp) rfl (i := 0) (is := [1]) (j := 2) (js := []) rfl rfl

example : ∃ r, animate { grouptags := true } store = .ok r ∧
    (∀ p ∈ r.screen, TagLim { grouptags := true } store [2] p.lim) ∧
    ∀ u ∈ ["a".toList, "b".toList], ∃ p ∈ r.screen, ∃ i ∈ ids u, p.ids = [i] :=
  C84_screen_fails (o := { grouptags := true }) inv groups (Or.inl rfl) rfl rfl rfl rfl rfl (t := "b".toList) rfl

/-- Two frames with two blocks each. -/
def blocks : Space ℝ :=
  ⟨(List.range 4).map fun i => line "default".toList
      (frameFile "sim_".toList (i / 2) ('b' :: Nat.toDigits 10 (i % 2))) 0 1, [("default".toList, [0, 1, 2, 3])]⟩

/-- C85 on them. -/
example : ∃ l r, animate { multiblock := true } blocks = .ok r ∧
    r.screen = [⟨0, 0, [0, 1], l⟩, ⟨0, 1, [2, 3], l⟩] := by
  obtain ⟨l, r, frames, h1, h2, -, h3⟩ := C85_blocks_partial (o := { multiblock := true }) (s := blocks)
    (frame := fun i => i / 2) (rest := fun i => 'b' :: Nat.toDigits 10 (i % 2)) (stem := "sim_".toList) rfl rfl
    (by decide) (by
      intro i hi
      simp only [List.mem_cons, List.not_mem_nil, or_false] at hi
      rcases hi with rfl | rfl | rfl | rfl <;> exact ⟨_, rfl, rfl, rfl⟩)
    ⟨0, by simp, 2, by simp, by decide⟩ (by
      intro i hi
      simp only [List.mem_cons, List.not_mem_nil, or_false] at hi
      rcases hi with rfl | rfl | rfl | rfl <;> exact ⟨_, rfl, line_ok _ _ _ _⟩) (Or.inl rfl) rfl rfl rfl
  obtain rfl : frames = [0, 1] := by
    have e : Ascending [0, 0, 1, 1] [0, 1] := ⟨by decide, fun n => by simp⟩
    refine List.Perm.eq_of_pairwise (le := (· < ·)) (fun a b _ _ h h' => absurd (h.trans h') (lt_irrefl _)) h2.1 e.1 ?_
    refine (List.perm_ext_iff_of_nodup (h2.1.imp fun h => ne_of_lt h) (e.1.imp fun h => ne_of_lt h)).2 fun n => ?_
    rw [h2.2, e.2]
    rfl
  exact ⟨l, r, h1, (h3 rfl).2.1⟩

/-- C85_float_partial on them: the limits of both pictures. -/
example : ∃ r, animate { multiblock := true, float := true } blocks = .ok r ∧
    ∀ p ∈ pictures r, TagLim { multiblock := true, float := true } blocks p.ids p.lim := by
  obtain ⟨r, frames, h1, h2, h3, -⟩ := C85_float_partial (o := { multiblock := true, float := true }) (s := blocks)
    (frame := fun i => i / 2) (rest := fun i => 'b' :: Nat.toDigits 10 (i % 2)) (stem := "sim_".toList) rfl rfl
    (by decide) (by
      intro i hi
      simp only [List.mem_cons, List.not_mem_nil, or_false] at hi
      rcases hi with rfl | rfl | rfl | rfl <;> exact ⟨_, rfl, rfl, rfl⟩)
    ⟨0, by simp, 2, by simp, by decide⟩ (by
      intro i hi
      simp only [List.mem_cons, List.not_mem_nil, or_false] at hi
      rcases hi with rfl | rfl | rfl | rfl <;> exact ⟨_, rfl, line_ok _ _ _ _⟩) (Or.inl rfl) rfl rfl rfl
  exact ⟨r, h1, h3⟩

/-- Two tags with two frames each. -/
def tagged : Space ℝ :=
  ⟨[line "a".toList "f0_b0.gkyl".toList 0 1, line "a".toList "f1_b0.gkyl".toList 2 3, line "b".toList "f2_b0.gkyl".toList 5 6,
    line "b".toList "f3_b0.gkyl".toList 5 6], [("a".toList, [0, 1]), ("b".toList, [2, 3])]⟩

/-- C85_use_fails on them: `--use a` has no frame 2. -/
example : animate { use := some "a".toList, multiblock := true, color := true, saveframes := some "p".toList } tagged =
    .error .unboundLocal :=
  C85_use_fails (o := { use := some "a".toList, multiblock := true, color := true, saveframes := some "p".toList })
    (s := tagged) (ids := [0, 1]) ⟨by decide, by decide, [0, 1], rfl, rfl⟩ (by simp)
    (by
      intro i hi
      simp only [List.mem_cons, List.not_mem_nil, or_false] at hi
      rcases hi with rfl | rfl <;> exact ⟨_, rfl, line_ok _ _ _ _⟩)
    (Or.inl rfl) rfl rfl rfl rfl (a := [(0, 0), (1, 1), (2, 0), (3, 1)]) (frames := sortedDistinct [0, 1, 2, 3]) rfl
    (n := 2) ((sortedDistinct_ascending _).2 2 |>.2 (by simp)) (by decide) (by simp) rfl

end Ex

/-- C83 fails with `--grouptags`: limits given by the user are replaced. -/
theorem C83_grouptags_fails : ∃ s : Space ℝ, ∀ y z : Option ℝ, ∃ r,
    animate { grouptags := true, save := true, lim := { ymin := y, ymax := z } } s = .ok r ∧
    ∃ f ∈ r.films, ∃ p ∈ f.2, p.lim.ymin = some 0 ∧ p.lim.ymax = some 3 := by
  refine ⟨Ex.store, fun y z => ?_⟩
  obtain ⟨r, tl, h1, h2, h3, h4⟩ := C84_films_partial
    (o := { grouptags := true, save := true, lim := { ymin := y, ymax := z } }) Ex.inv Ex.groups (Or.inl rfl)
    rfl rfl rfl (n := 1) (by decide) rfl rfl rfl
  rcases tl with _ | ⟨⟨t1, l1⟩, tl⟩
  · simp at h2
  · simp only [List.map_cons, List.cons.injEq] at h2
    obtain ⟨rfl, -⟩ := h2
    obtain ⟨lo, hi, n, e1, e2, e3, -⟩ := h4.1 _ List.mem_cons_self
    obtain ⟨rfl, rfl⟩ := Ex.extremes_unique (e2 rfl) Ex.extremesA
    have hn : n = 1 := (Option.some.inj e1).symm
    refine ⟨r, h1, ("anim_a.mp4".toList, [⟨0, 0, [0], l1⟩]), ?_, _, List.mem_singleton_self _, e3 hn⟩
    rw [h3]
    simp [List.zipIdx_cons, single, Ex.ids]

end Pgkyl.Anim
