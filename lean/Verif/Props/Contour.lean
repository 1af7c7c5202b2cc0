import Verif.Spec.Contour
import Verif.Props.Animate
import Verif.Lemmas.Idx
import Verif.Lemmas.GkylProps
/-! # C68, C83: the range with `--cutoffglobalrange`; C123: contour levels -/

namespace Pgkyl
open Spec Plot

/-! ## Quantiles -/

theorem Anim.at_quantile {l v : List ℝ} (hp : v.Perm l) (hs : v.Pairwise (· ≤ ·)) (hv : v ≠ []) {p : ℝ} (h0 : 0 ≤ p) (h1 : p ≤ 1) :
    IsQuantile l p (Anim.at_ v (p * (v.length - 1))) := by
  have hl : 1 ≤ v.length := List.length_pos_iff.2 hv
  have hl' : (1 : ℝ) ≤ v.length := by exact_mod_cast hl
  have hx0 : 0 ≤ p * ((v.length : ℝ) - 1) := mul_nonneg h0 (by linarith)
  have hx1 : p * ((v.length : ℝ) - 1) ≤ v.length - 1 := by nlinarith
  have hk : ⌊p * ((v.length : ℝ) - 1)⌋₊ < v.length := by
    rw [Nat.floor_lt hx0]; linarith
  have hfl := Nat.floor_le hx0
  have hfu := (Nat.lt_floor_add_one (p * ((v.length : ℝ) - 1))).le
  unfold Anim.at_
  generalize hkk : ⌊p * ((v.length : ℝ) - 1)⌋₊ = k at *
  rcases Nat.lt_or_ge (k + 1) v.length with h | h
  · refine ⟨v, hp, hs, k, v[k], v[k + 1], List.getElem?_eq_getElem hk, Or.inl (List.getElem?_eq_getElem h), hfl, hfu, ?_⟩
    rw [List.getElem?_eq_getElem hk, List.getElem?_eq_getElem h]
    simp only [Option.getD_some, Option.elim_some]
    ring
  · refine ⟨v, hp, hs, k, v[k], v[k], List.getElem?_eq_getElem hk, Or.inr ⟨by omega, rfl⟩, hfl, hfu, ?_⟩
    rw [List.getElem?_eq_getElem hk, List.getElem?_eq_none h]
    simp

/-- C83 (`--cutoffglobalrange c`): the limits are the quantiles `(1 - c) / 2` and `(1 + c) / 2`. -/
theorem Anim.cutoff_quantiles {e : List ℝ} (hne : e ≠ []) {c : ℝ} (h0 : 0 ≤ c) (h1 : c ≤ 1) :
    ∃ lo hi, Anim.cutoffRange c e = .ok (lo, hi) ∧ IsQuantile e ((1 - c) / 2) lo ∧ IsQuantile e ((1 + c) / 2) hi := by
  have hs := Anim.sorted_pairwise e
  have hp := List.mergeSort_perm e (fun a b => decide (a ≤ b))
  have hv : e.mergeSort (fun a b => decide (a ≤ b)) ≠ [] := by
    intro h'
    rw [h'] at hp
    exact hne hp.nil_eq.symm
  unfold Anim.cutoffRange
  generalize e.mergeSort (fun a b => decide (a ≤ b)) = v at *
  simp only
  rw [Anim.percentile_eq hv (by linarith) (by linarith), Anim.percentile_eq hv (by linarith) (by linarith)]
  refine ⟨_, _, rfl, ?_, ?_⟩
  · rw [show 100 * (1 - c) / 2 / 100 = (1 - c) / 2 by ring]
    exact Anim.at_quantile hp hs hv (by linarith) (by linarith)
  · rw [show (100 - 100 * (1 - c) / 2) / 100 = (1 + c) / 2 by ring]
    exact Anim.at_quantile hp hs hv (by linarith) (by linarith)

theorem Plot.extremes_unique {l : List ℝ} {a b a' b' : ℝ} (h : Extremes l a b) (h' : Extremes l a' b') : a = a' ∧ b = b' :=
  ⟨le_antisymm (h.2.2 _ h'.1).1 (h'.2.2 _ h.1).1, le_antisymm (h'.2.2 _ h.2.1).2 (h.2.2 _ h'.2.1).2⟩

theorem Plot.minMax_ok {l : List ℝ} {p : ℝ × ℝ} (h : Extremes l p.1 p.2) : minOf l = .ok p.1 ∧ maxOf l = .ok p.2 := by
  have hne : l ≠ [] := by rintro rfl; exact absurd h.1 (by simp)
  obtain ⟨m, h1, h2, h3⟩ := minOf_spec hne
  obtain ⟨M, h4, h5, h6⟩ := maxOf_spec hne
  obtain ⟨e1, e2⟩ := Plot.extremes_unique h ⟨h2, h5, fun x hx => ⟨h3 x hx, h6 x hx⟩⟩
  rw [h1, h4, e1, e2]
  exact ⟨rfl, rfl⟩

theorem Plot.widenAll_fold {zscale : ℝ} : ∀ {ds : List (List ℝ)} {ext : List (ℝ × ℝ)},
    List.Forall₂ (fun d p => Extremes (d.map (· * zscale)) p.1 p.2) ds ext → ∀ a : Option (ℝ × ℝ) × List ℝ,
    ∃ r, ds.foldlM (widen zscale) a.1 = .ok r ∧
      ds.foldlM (widenAll zscale) a = .ok (r, a.2 ++ ext.flatMap fun p => [p.1, p.2]) := by
  intro ds ext h
  induction h with
  | nil => intro a; exact ⟨a.1, rfl, by simp; rfl⟩
  | @cons d p ds ext hd _ ih =>
    intro a
    obtain ⟨h1, h2⟩ := Plot.minMax_ok hd
    have hw : ∃ r, widen zscale a.1 d = .ok r := by
      unfold widen
      simp only [h1, h2, bind, Except.bind, pure, Except.pure]
      cases a.1 with
      | none => exact ⟨_, rfl⟩
      | some r => exact ⟨_, rfl⟩
    obtain ⟨r, hr⟩ := hw
    obtain ⟨r', e1, e2⟩ := ih (r, a.2 ++ [p.1, p.2])
    refine ⟨r', ?_, ?_⟩
    · rw [List.foldlM_cons, hr]; exact e1
    · have : widenAll zscale a d = .ok (r, a.2 ++ [p.1, p.2]) := by
        simp only [widenAll, hr, h1, h2, bind, Except.bind, pure, Except.pure]
      rw [List.foldlM_cons, this]
      simp only [bind, Except.bind]
      rw [e2]
      simp

/-- C83 (`--cutoffglobalrange c`): with `ext` the smallest and the largest of the values of each dataset as they are drawn, the limits of
an animation are the quantiles `(1 - c) / 2` and `(1 + c) / 2` of all of them. -/
theorem C83_quantiles {ys zs c : ℝ} (h0 : 0 < c) (h1 : c ≤ 1) {ds : List (GData ℝ)} (hne : ds ≠ []) (hv : ∀ d ∈ ds, HasValues d)
    {ext : List (ℝ × ℝ)} (hext : List.Forall₂ (fun d p => Extremes (scaled ys zs d) p.1 p.2) ds ext) :
    ∃ lo hi n, Anim.globalrange ys zs (some c) ds = .ok ((lo, hi), n) ∧
      IsQuantile (ext.flatMap fun p => [p.1, p.2]) ((1 - c) / 2) lo ∧ IsQuantile (ext.flatMap fun p => [p.1, p.2]) ((1 + c) / 2) hi := by
  have he : (ext.flatMap fun p => [p.1, p.2]) ≠ [] := by
    cases hext with
    | nil => exact absurd rfl hne
    | cons _ _ => simp
  obtain ⟨lo, hi, e1, e2, e3⟩ := Anim.cutoff_quantiles he h0.le h1
  have key : ∀ (a : Anim.Acc), ds.foldlM (Anim.accum ys zs) a = .error .fail ∨ ∃ a', ds.foldlM (Anim.accum ys zs) a = .ok a' ∧
      a'.extrema = a.extrema ++ ext.flatMap fun p => [p.1, p.2] := by
    clear hne he e1 e2 e3
    induction hext with
    | nil => intro a; exact Or.inr ⟨a, rfl, by simp⟩
    | @cons d p ds ext hd _ ih =>
      intro a
      obtain ⟨r, lo', hi', q1, q2, -⟩ := Anim.accum_ok (ys := ys) (zs := zs) a (hv d (by simp))
      obtain ⟨t1, t2⟩ := Plot.extremes_unique hd q2
      rw [List.foldlM_cons, q1]
      simp only [bind, Except.bind]
      rcases ih (fun e he => hv e (by simp [he])) ⟨r, a.extrema ++ [lo', hi'], some d.numDims⟩ with h | ⟨a', g1, g2⟩
      · exact Or.inl h
      · refine Or.inr ⟨a', g1, ?_⟩
        rw [g2]
        simp [t1, t2]
  obtain ⟨lo', hi', n, g, -⟩ := Anim.globalrange_ok (ys := ys) (zs := zs) (c := some c) (Or.inr ⟨c, rfl, h0, h1⟩) hne hv
  refine ⟨lo, hi, n, ?_, e2, e3⟩
  unfold Anim.globalrange at g ⊢
  rcases key {} with h | ⟨a', g1, g2⟩
  · rw [h] at g; cases g
  · rw [g1] at g ⊢
    simp only [List.nil_append] at g2
    simp only [bind, Except.bind, if_neg h0.ne', g2, e1, pure, Except.pure] at g ⊢
    split at g
    · cases g; rfl
    · cases g

/-- C68 (`--cutoffglobalrange c`): with `ext` the smallest and the largest of the scaled values of each dataset, the colour range of every
plot reaches from the quantile `(1 - c) / 2` to the quantile `(1 + c) / 2` of all of them. -/
theorem C68_cutoff {o : RangeOpts} {c : ℝ} (hc : o.cutoff = some c) (h0 : 0 < c) (h1 : c ≤ 1) {ds : List (List ℝ)} (hne : ds ≠ [])
    {ext : List (ℝ × ℝ)} (hext : List.Forall₂ (fun d p => Extremes (d.map (· * o.zscale)) p.1 p.2) ds ext) :
    ∃ lo hi, plotRange o ds = .ok (some (o.zmin.getD lo), some (o.zmax.getD hi)) ∧
      IsQuantile (ext.flatMap fun p => [p.1, p.2]) ((1 - c) / 2) lo ∧ IsQuantile (ext.flatMap fun p => [p.1, p.2]) ((1 + c) / 2) hi := by
  have he : (ext.flatMap fun p => [p.1, p.2]) ≠ [] := by
    cases hext with
    | nil => exact absurd rfl hne
    | cons _ _ => simp
  obtain ⟨lo, hi, e1, e2, e3⟩ := Anim.cutoff_quantiles he h0.le h1
  obtain ⟨r, -, e4⟩ := Plot.widenAll_fold hext (none, [])
  refine ⟨lo, hi, ?_, e2, e3⟩
  have hcom : o.common := Or.inr (Or.inr (by simp [hc, h0.ne']))
  simp only [List.nil_append] at e4
  simp only [plotRange, if_pos hcom, e4, bind, Except.bind, cutRange, hc, Option.getD_some, if_pos h0.ne', e1, Except.map, pure, Except.pure,
    Option.map_some, ne_eq]
  cases o.zmin <;> cases o.zmax <;> rfl

/-- C68: with `--globalrange`, and for several blocks, the range is that of C68_global_range_partial; without any of the options it is left as it
was given. -/
theorem C68_when (o : RangeOpts) {ds : List (List ℝ)} (hds : ∀ d ∈ ds, d ≠ []) :
    (o.cutoff = none → plotRange o ds = if o.multiblock || o.globalrange then globalRange o.zscale o.zmin o.zmax ds else .ok (o.zmin, o.zmax)) ∧
    (o.cutoff = some 0 → plotRange o ds = if o.globalrange then globalRange o.zscale o.zmin o.zmax ds else .ok (o.zmin, o.zmax)) := by
  have hext : ∃ ext : List (ℝ × ℝ), List.Forall₂ (fun d p => Extremes (d.map (· * o.zscale)) p.1 p.2) ds ext := by
    induction ds with
    | nil => exact ⟨[], .nil⟩
    | cons d ds ih =>
      obtain ⟨ext, h⟩ := ih fun e he => hds e (by simp [he])
      have hd : d.map (· * o.zscale) ≠ [] := by simpa using hds d (by simp)
      obtain ⟨m, -, h2, h3⟩ := minOf_spec hd
      obtain ⟨M, -, h5, h6⟩ := maxOf_spec hd
      exact ⟨(m, M) :: ext, .cons ⟨h2, h5, fun x hx => ⟨h3 x hx, h6 x hx⟩⟩ h⟩
  obtain ⟨ext, hext⟩ := hext
  obtain ⟨r, e1, e2⟩ := Plot.widenAll_fold hext (none, [])
  have run : o.common → o.cutoff.getD 0 = 0 → plotRange o ds = globalRange o.zscale o.zmin o.zmax ds := by
    intro hcom hc
    simp only [plotRange, if_pos hcom, e2, bind, Except.bind, cutRange, hc, ne_eq, not_true_eq_false, if_false, globalRange, e1]
  constructor
  · intro hc
    by_cases h : (o.multiblock || o.globalrange) = true
    · rw [if_pos h]
      refine run ?_ (by simp [hc])
      rw [Bool.or_eq_true] at h
      rcases h with h | h
      · exact Or.inl ⟨h, hc⟩
      · exact Or.inr (Or.inl h)
    · rw [if_neg h, plotRange, if_neg]
      rw [Bool.or_eq_true, not_or] at h
      rintro (h' | h' | h')
      · exact h.1 h'.1
      · exact h.2 h'
      · simp [hc] at h'
  · intro hc
    by_cases h : o.globalrange = true
    · rw [if_pos h]
      exact run (Or.inr (Or.inl h)) (by simp [hc])
    · rw [if_neg h, plotRange, if_neg]
      rintro (h' | h' | h')
      · simp [hc] at h'
      · exact h h'
      · simp [hc] at h'

/-- Non-vacuity: two datasets, a cut-off of one half. -/
example : ∃ lo hi, plotRange { cutoff := some (1 / 2), zscale := 2 } [[1, 3, 2], [0]] = .ok (some lo, some hi) := by
  obtain ⟨lo, hi, h, -⟩ := C68_cutoff (o := { cutoff := some (1 / 2), zscale := 2 }) (c := 1 / 2) rfl (by norm_num) (by norm_num)
    (ds := [[1, 3, 2], [0]]) (by simp) (ext := [(2, 6), (0, 0)])
    (.cons (by refine ⟨by simp, by norm_num, ?_⟩; simp; norm_num) (.cons (by refine ⟨by simp, by simp, by simp⟩) .nil))
  exact ⟨lo, hi, h⟩

/-! ## Levels -/

section
variable {F : Type} [_root_.Field F] [CharZero F] (toFloat : Str → Option F)

theorem Plot.linspace_spaced (lo hi : F) (n : Nat) : Spaced lo hi n (GkylReader.linspace lo hi n) := by
  refine ⟨GkylReader.linspace_length _ _ _, fun i hi' => ?_⟩
  match n, hi' with
  | 1, h =>
    have : i = 0 := by omega
    subst this
    simp [GkylReader.linspace]
  | n + 2, h =>
    rw [GkylReader.linspace_get lo hi (m := n + 1) (by omega) (by omega)]
    push_cast
    rw [add_sub_assoc, show ((2 : F) - 1) = 1 by norm_num]

omit [CharZero F] in
theorem Plot.levels_spaced {a b : Str} (ha : ':' ∉ a) (hb : ':' ∉ b) {lo hi : F} (hlo : toFloat a = some lo) (hhi : toFloat b = some hi)
    (n : Nat) : levelsOf toFloat (a ++ ":".toList ++ b ++ ":".toList ++ dec n) = .ok (.values (GkylReader.linspace lo hi n)) := by
  have e : a ++ ":".toList ++ b ++ ":".toList ++ dec n = joinWith ':' [a, b, dec n] := by
    have : ":".toList = [':'] := by decide
    simp [joinWith, this]
  have hd := dec_colon n
  have hmem : ':' ∈ a ++ ":".toList ++ b ++ ":".toList ++ dec n := by
    simp only [List.mem_append]
    exact Or.inl (Or.inl (Or.inl (Or.inr (by decide))))
  rw [levelsOf, if_pos hmem, e, splitOn_joinWith _ (by simp) (by simp [ha, hb, hd])]
  simp only [asFloat, hlo, hhi, bind, Except.bind, pyInt_dec]
  simp [pure, Except.pure]

/-- **C123** `--clevels a:b:n` draws `n` equally spaced contours from `a` to `b`. -/
theorem C123_spaced {a b : Str} (ha : ':' ∉ a) (hb : ':' ∉ b) {lo hi : F} (hlo : toFloat a = some lo) (hhi : toFloat b = some hi) (n : Nat) :
    ∃ l, contourLevels toFloat none (some (a ++ ":".toList ++ b ++ ":".toList ++ dec n)) = .ok (.values l) ∧ Spaced lo hi n l := by
  refine ⟨_, ?_, Plot.linspace_spaced lo hi n⟩
  rw [contourLevels, if_neg (by simp), Option.getD_some, if_pos]
  · exact Plot.levels_spaced toFloat ha hb hlo hhi n
  · simp

omit [CharZero F] in
/-- **C123** `--clevels a,b,...` draws exactly the contours listed, in that order; empty places are skipped. -/
theorem C123_listed {ts : List Str} (hc : ∀ t ∈ ts, ',' ∉ t) (hcol : ∀ t ∈ ts, ':' ∉ t) {xs : List F} (hx : xs ≠ [])
    (h : (ts.filter (· ≠ [])).map toFloat = xs.map some) :
    contourLevels toFloat none (some (joinWith ',' ts)) = .ok (.values xs) := by
  have hts : ts ≠ [] := by
    rintro rfl
    exact hx (by simpa using h.symm)
  have hmap : ∀ (l : List Str) (xs : List F), l.map toFloat = xs.map some → l.mapM (asFloat toFloat) = .ok xs := by
    intro l
    induction l with
    | nil => intro xs h; have : xs = [] := by simpa using h.symm
             subst this; rfl
    | cons t l ih =>
      intro xs h
      cases xs with
      | nil => simp at h
      | cons x xs =>
        simp only [List.map_cons, List.cons.injEq] at h
        rw [List.mapM_cons, asFloat, h.1]
        simp only [bind, Except.bind, ih xs h.2, pure, Except.pure]
  have hne : joinWith ',' ts ≠ [] := by
    intro h'
    have hs := splitOn_joinWith ts hts hc
    rw [h'] at hs
    have : ts = [[]] := by rw [← hs]; rfl
    subst this
    exact hx (by simpa using h.symm)
  have hmem : ∀ ts : List Str, (∀ t ∈ ts, ':' ∉ t) → ':' ∉ joinWith ',' ts := by
    intro ts
    induction ts with
    | nil => intro _; simp [joinWith]
    | cons t ts ih =>
      intro hcol
      cases ts with
      | nil => simpa [joinWith] using hcol t (by simp)
      | cons u us =>
        have := ih fun t ht => hcol t (by simp [ht])
        simp only [joinWith, List.mem_append, List.mem_cons, not_or]
        exact ⟨hcol t (by simp), by decide, this⟩
  rw [contourLevels, if_neg (by simp), Option.getD_some, if_pos hne, levelsOf, if_neg (hmem ts hcol), splitOn_joinWith ts hts hc,
    hmap _ xs h]
  rfl

omit [CharZero F] in
/-- **C123** `--cnlevels n` asks for `n - 1` intervals, whatever `--clevels` says; with neither there are ten. -/
theorem C123_number {n : Int} (hn : n ≠ 0) (clevels : Option Str) :
    contourLevels toFloat (some n) clevels = .ok (.count (n - 1)) ∧ contourLevels toFloat none none = .ok (.count 10) := by
  simp [contourLevels, hn]

omit [_root_.Field F] [CharZero F] in
/-- **C123** A contour plot keeps its colour bar unless exactly one level was named. -/
theorem C123_bar (l : Levels F) : levelsBar true l = false ↔ ∃ x, l = .values [x] := by
  cases l with
  | count n => simp [levelsBar]
  | values l =>
    match l with
    | [] => simp [levelsBar]
    | [x] => simp [levelsBar]
    | x :: y :: l => simp [levelsBar]

/-- **C123** The contours of several blocks are at the same ten levels, equally spaced over the common range (see C68); `fmt` writes a number
so that it can be read again. -/
theorem C123_blocks {fmt : Option F → Str} (hfmt : ∀ x, toFloat (fmt (some x)) = some x) (hcol : ∀ x, ':' ∉ fmt (some x)) (lo hi : F) :
    ∃ l, contourLevels toFloat none (blockLevels fmt true true none (some lo, some hi)) = .ok (.values l) ∧ Spaced lo hi 10 l := by
  have e : blockLevels fmt true true none (some lo, some hi) = some (fmt (some lo) ++ ":".toList ++ fmt (some hi) ++ ":".toList ++ dec 10) := by
    have e1 : ":10".toList = ":".toList ++ dec 10 := by decide +kernel
    simp only [blockLevels, and_self, if_true, e1, List.append_assoc]
  rw [e]
  exact C123_spaced toFloat (hcol lo) (hcol hi) (hfmt lo) (hfmt hi) 10

omit [_root_.Field F] [CharZero F] in
/-- **C123** Levels that are given with `--clevels` stay, also for several blocks, and for a single dataset nothing is added. -/
theorem C123_given (fmt : Option F → Str) (z : Option F × Option F) :
    (∀ multiblock contour s, blockLevels fmt multiblock contour (some s) z = some s) ∧
    (∀ contour, blockLevels fmt false contour none z = none) ∧ ∀ multiblock, blockLevels fmt multiblock false none z = none := by
  refine ⟨fun m c s => ?_, fun c => ?_, fun m => ?_⟩ <;> simp [blockLevels]

end

/-! ## Examples -/

namespace ContourEx

/-- Reads decimal integers. -/
def toFloat (s : Str) : Option ℚ := (pyInt s).map fun n => (n : ℚ)

/-- The help of `animate --clevels` promises "either integer or start:end:nlevels", but an integer is taken for the only level: `5` draws the
contour at the value 5, not five contours. -/
theorem C123_integer_fails : contourLevels toFloat none (some "5".toList) = .ok (.values [5]) := by
  have := C123_listed toFloat (ts := ["5".toList]) (by decide) (by decide) (xs := [5]) (by simp) (by decide +kernel)
  exact this

/-- The hypotheses of `C123_spaced` are met: 1, 3, 5, 7. -/
example : contourLevels toFloat none (some "1:7:4".toList) = .ok (.values [1, 3, 5, 7]) := by
  obtain ⟨l, h, h1, h2⟩ := C123_spaced toFloat (a := "1".toList) (b := "7".toList) (by decide) (by decide) (lo := 1) (hi := 7)
    (by decide +kernel) (by decide +kernel) 4
  have e : "1:7:4".toList = "1".toList ++ ":".toList ++ "7".toList ++ ":".toList ++ dec 4 := by decide +kernel
  rw [e, h]
  match l, h1 with
  | [a, b, c, d], _ =>
    have i0 := h2 0 (by omega)
    have i1 := h2 1 (by omega)
    have i2 := h2 2 (by omega)
    have i3 := h2 3 (by omega)
    simp at i0 i1 i2 i3
    norm_num at i0 i1 i2 i3
    rw [i0, i1, i2, i3]

/-- The hypotheses of `C123_listed` are met. -/
example : contourLevels toFloat none (some "1,,-2".toList) = .ok (.values [1, -2]) :=
  C123_listed toFloat (ts := ["1".toList, [], "-2".toList]) (by decide) (by decide) (xs := [1, -2]) (by simp) (by decide +kernel)

end ContourEx
end Pgkyl
