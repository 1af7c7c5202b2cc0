import Verif.Props.Spectral
/-!
# C71: isotropic spectra; C72: the FFT filter
-/

namespace Pgkyl.Spectral
open Pgkyl Pgkyl.Spec

section bins
variable {n : Nat} {dk : ℝ}

theorem binLimit_eq (dk : ℝ) (i : Nat) : binLimit dk i = ((i : ℝ) + 1 / 2) * dk := by
  simp only [binLimit]; ring

theorem binLimit_succ (dk : ℝ) (i : Nat) : binLimit dk (i + 1) = ((i : ℝ) + 3 / 2) * dk := by
  simp only [binLimit]; push_cast; ring

/-- The loop keeps the bin found, if there is one. -/
theorem fold_bin (P : Nat → Prop) [DecidablePred P] (a : Nat) (hP : ∀ i j, P i → P j → i = j) (n : Nat) :
    (∀ b, b < n → P b → (List.range n).foldl (fun acc i => if P i then i else acc) a = b) ∧
    ((∀ b, b < n → ¬ P b) → (List.range n).foldl (fun acc i => if P i then i else acc) a = a) := by
  induction n with
  | zero => simp
  | succ n ih =>
    rw [List.range_succ, List.foldl_append]
    simp only [List.foldl_cons, List.foldl_nil]
    refine ⟨fun b hb hPb => ?_, fun h => ?_⟩
    · split
      · next hn => exact hP _ _ hn hPb
      · next hn =>
        have : b < n := by
          rcases Nat.lt_succ_iff_lt_or_eq.mp hb with h | h
          · exact h
          · exact absurd (h ▸ hPb) hn
        exact ih.1 b this hPb
    · rw [if_neg (h n (by omega))]
      exact ih.2 fun b hb => h b (by omega)

theorem bin_unique (hdk : 0 < dk) {kp : ℝ} {i j : Nat}
    (hi : kp < binLimit dk (i + 1) ∧ kp ≥ binLimit dk i)
    (hj : kp < binLimit dk (j + 1) ∧ kp ≥ binLimit dk j) : i = j := by
  simp only [binLimit_succ] at hi hj
  simp only [binLimit_eq] at hi hj
  have h1 : ((i : ℝ) + 1 / 2) * dk < ((j : ℝ) + 3 / 2) * dk := lt_of_le_of_lt hi.2 hj.1
  have h2 : ((j : ℝ) + 1 / 2) * dk < ((i : ℝ) + 3 / 2) * dk := lt_of_le_of_lt hj.2 hi.1
  have h1' := lt_of_mul_lt_mul_right h1 hdk.le
  have h2' := lt_of_mul_lt_mul_right h2 hdk.le
  have h3 : (i : ℝ) < j + 1 := by linarith
  have h4 : (j : ℝ) < i + 1 := by linarith
  have h3' : i < j + 1 := by exact_mod_cast h3
  have h4' : j < i + 1 := by exact_mod_cast h4
  omega

theorem bin_below (hdk : 0 < dk) {kp : ℝ} {i : Nat} (hi : i < n)
    (h : kp < binLimit dk (i + 1)) : kp < binLimit dk n := by
  refine lt_of_lt_of_le h ?_
  rw [binLimit_succ, binLimit_eq]
  have : (i : ℝ) + 1 ≤ n := by exact_mod_cast hi
  nlinarith

/-- A wave number is in the bin, or below the first limit (then it is counted to bin 0). -/
theorem polarIndex_iff (hdk : 0 < dk) {kp : ℝ} {b : Nat} (hb : b < n) :
    polarIndex n dk kp = b ↔ InBin n dk b kp ∨ (b = 0 ∧ kp < dk / 2) := by
  have hu : ∀ i j, (kp < binLimit dk (i + 1) ∧ kp ≥ binLimit dk i) →
      (kp < binLimit dk (j + 1) ∧ kp ≥ binLimit dk j) → i = j := fun i j => bin_unique hdk
  have hin : ∀ b, InBin n dk b kp ↔ binLimit dk b ≤ kp ∧ (kp < binLimit dk (b + 1) ∨ b + 1 = n) := by
    intro b; rw [binLimit_eq, binLimit_succ]; rfl
  obtain ⟨f1, f2⟩ := fold_bin (fun i => kp < binLimit dk (i + 1) ∧ kp ≥ binLimit dk i)
    (if kp ≥ binLimit dk n then n - 1 else 0) hu n
  have hcase : (∃ i, i < n ∧ kp < binLimit dk (i + 1) ∧ kp ≥ binLimit dk i) ∨
      kp ≥ binLimit dk n ∨ kp < binLimit dk 0 := by
    by_contra hc
    push Not at hc
    obtain ⟨h1, h2, h3⟩ := hc
    have : ∀ i, i ≤ n → binLimit dk i ≤ kp := by
      intro i
      induction i with
      | zero => intro _; exact h3
      | succ i ih =>
        intro hi
        by_contra h
        exact absurd (ih (by omega)) (not_le.mpr (h1 i (by omega) (not_le.mp h)))
    exact absurd (this n le_rfl) (not_le.mpr h2)
  have hdef : polarIndex n dk kp = (List.range n).foldl (fun acc i =>
      if kp < binLimit dk (i + 1) ∧ kp ≥ binLimit dk i then i else acc)
        (if kp ≥ binLimit dk n then n - 1 else 0) := rfl
  have h0 : binLimit dk 0 = dk / 2 := by simp [binLimit]
  rcases hcase with ⟨i, hi, hP⟩ | hge | hlt
  · rw [hdef, f1 i hi hP, hin]
    constructor
    · rintro rfl; exact Or.inl ⟨hP.2, Or.inl hP.1⟩
    · rintro (⟨h1, h2 | h2⟩ | ⟨rfl, h2⟩)
      · exact hu _ _ hP ⟨h2, h1⟩
      · by_contra hne
        have hlt : i < b := by omega
        have : kp < binLimit dk b := bin_below (n := b) hdk hlt hP.1
        linarith
      · exfalso
        have : binLimit dk 0 ≤ binLimit dk i := by
          rw [binLimit_eq, binLimit_eq]
          have : (0 : ℝ) ≤ i := by positivity
          push_cast; nlinarith
        rw [h0] at this; linarith [hP.2]
  · have hno : ∀ b, b < n → ¬ (kp < binLimit dk (b + 1) ∧ kp ≥ binLimit dk b) := by
      intro b hb ⟨h1, _⟩
      exact absurd (bin_below hdk hb h1) (not_lt.mpr hge)
    rw [hdef, f2 hno, if_pos hge, hin]
    constructor
    · intro h
      refine Or.inl ⟨?_, Or.inr (by omega)⟩
      refine le_trans ?_ hge
      rw [binLimit_eq, binLimit_eq]
      have : (b : ℝ) ≤ n := by exact_mod_cast hb.le
      nlinarith
    · rintro (⟨h1, h2 | h2⟩ | ⟨rfl, h2⟩)
      · exact absurd (bin_below hdk hb h2) (not_lt.mpr hge)
      · omega
      · exfalso
        have : binLimit dk 0 ≤ binLimit dk n := by
          rw [binLimit_eq, binLimit_eq]
          have : (0 : ℝ) ≤ n := by positivity
          push_cast; nlinarith
        rw [h0] at this; linarith
  · have hno : ∀ b, b < n → ¬ (kp < binLimit dk (b + 1) ∧ kp ≥ binLimit dk b) := by
      intro b hb ⟨_, h1⟩
      have : binLimit dk 0 ≤ binLimit dk b := by
        rw [binLimit_eq, binLimit_eq]
        have : (0 : ℝ) ≤ b := by positivity
        push_cast; nlinarith
      linarith
    have hnn : ¬ kp ≥ binLimit dk n := by
      have : binLimit dk 0 ≤ binLimit dk n := by
        rw [binLimit_eq, binLimit_eq]
        have : (0 : ℝ) ≤ n := by positivity
        push_cast; nlinarith
      linarith
    rw [hdef, f2 hno, if_neg hnn, hin]
    constructor
    · intro h; exact Or.inr ⟨h.symm, by rw [← h0]; exact hlt⟩
    · rintro (⟨h1, _⟩ | ⟨rfl, _⟩)
      · exfalso
        have : binLimit dk 0 ≤ binLimit dk b := by
          rw [binLimit_eq, binLimit_eq]
          have : (0 : ℝ) ≤ b := by positivity
          push_cast; nlinarith
        linarith
      · rfl

open Classical in
/-- The count of a bin is the number of modes in it. -/
theorem binCount_eq (hdk : 0 < dk) (kps : List ℝ) {b : Nat} (hb : b < n) :
    binCount n dk kps b = (kps.filter fun kp => decide (InBin n dk b kp)).length := by
  have hin : ∀ kp, InBin n dk b kp ↔ binLimit dk b ≤ kp ∧ (kp < binLimit dk (b + 1) ∨ b + 1 = n) := by
    intro kp; rw [binLimit_eq, binLimit_succ]; rfl
  unfold binCount
  induction kps with
  | nil => simp
  | cons kp kps ih =>
    simp only [List.filter_cons]
    by_cases hbn : b = n - 1
    · simp only [hbn, if_true] at ih ⊢
      have hn1 : n - 1 + 1 = n := by omega
      rw [hbn] at hin
      by_cases h1 : kp ≥ binLimit dk n
      · have h2 : ¬ (kp < binLimit dk (n - 1 + 1) ∧ kp ≥ binLimit dk (n - 1)) := by
          rw [hn1]; intro h; linarith [h.1]
        have h3 : InBin n dk (n - 1) kp := by
          rw [hin]
          refine ⟨le_trans ?_ h1, Or.inr hn1⟩
          rw [binLimit_eq, binLimit_eq]
          have : ((n - 1 : ℕ) : ℝ) ≤ n := by exact_mod_cast Nat.sub_le _ _
          nlinarith
        simp only [h1, h2, h3, decide_true, decide_false, if_true, Bool.false_eq_true, if_false,
          List.length_cons]
        omega
      · by_cases h2 : kp ≥ binLimit dk (n - 1)
        · have h3 : InBin n dk (n - 1) kp := by rw [hin]; exact ⟨h2, Or.inr hn1⟩
          have h4 : kp < binLimit dk (n - 1 + 1) ∧ kp ≥ binLimit dk (n - 1) := by
            rw [hn1]; exact ⟨not_le.mp h1, h2⟩
          simp only [h1, h4, h3, decide_true, decide_false, if_true, Bool.false_eq_true, if_false,
            List.length_cons, and_self]
          omega
        · have h3 : ¬ InBin n dk (n - 1) kp := by rw [hin]; intro h; exact h2 h.1
          have h4 : ¬ (kp < binLimit dk (n - 1 + 1) ∧ kp ≥ binLimit dk (n - 1)) := fun h => h2 h.2
          simp only [h1, h4, h3, decide_false, Bool.false_eq_true, if_false]
          exact ih
    · simp only [hbn, if_false, Nat.zero_add] at ih ⊢
      have hbn' : b + 1 ≠ n := by omega
      by_cases h : InBin n dk b kp
      · have h4 : kp < binLimit dk (b + 1) ∧ kp ≥ binLimit dk b := by
          rw [hin] at h; exact ⟨h.2.resolve_right hbn', h.1⟩
        simp only [h4, h, decide_true, if_true, List.length_cons, and_self, ih]
      · have h4 : ¬ (kp < binLimit dk (b + 1) ∧ kp ≥ binLimit dk b) := by
          intro hh; exact h ((hin kp).mpr ⟨hh.2, Or.inl hh.1⟩)
        simp only [h4, h, decide_false, Bool.false_eq_true, if_false, ih]

end bins

open Classical in
/-- The spectrum of one component: the power in a bin index over the number of modes in the bin. -/
theorem isotropic_get {n : Nat} {dk : ℝ} (hdk : 0 < dk) {shape : List Nat} {freq : List (List ℝ)}
    (p : List Nat → ℝ) {b : Nat} (hb : b < n) :
    (isotropic n dk ((indices shape).map fun k => (waveLength freq k, p k)))[b]? = some
      ((∑ k ∈ (indices shape).toFinset.filter (fun k => InBin n dk b (waveLength freq k)
          ∨ (b = 0 ∧ waveLength freq k < dk / 2)), p k)
        / ((modesIn shape freq n dk b).card : ℝ)) := by
  have hnd := nodup_indices shape
  simp only [isotropic, List.getElem?_map, List.getElem?_range hb, Option.map_some]
  congr 2
  · rw [List.filter_map, List.map_map]
    have : (fun m : ℝ × ℝ => decide (polarIndex n dk m.1 = b)) ∘ (fun k => (waveLength freq k, p k))
        = fun k => decide (InBin n dk b (waveLength freq k) ∨ (b = 0 ∧ waveLength freq k < dk / 2)) := by
      funext k; simp only [Function.comp, polarIndex_iff hdk hb]
    rw [this, ← List.sum_toFinset _ (hnd.filter _), List.toFinset_filter]
    apply Finset.sum_congr
    · ext k; simp
    · intro k _; rfl
  · rw [binCount_eq hdk _ hb, List.map_map, List.filter_map, List.length_map, modesIn,
      ← List.toFinset_card_of_nodup (hnd.filter _), List.toFinset_filter]
    congr 2
    ext k; simp

theorem waveNumber_eq (freq : List (List ℝ)) (k : List Nat) : waveNumber freq k = waveLength freq k := by
  simp only [waveNumber, waveLength, List.getD_eq_getElem?_getD]

/-- Data in two or three directions, with at least four points in each. -/
structure SpectrumData (grid : List (List ℝ)) (dims : List Nat) (values : NArr ℝ) (nc : Nat) : Prop where
  points : PointData grid dims
  two : 2 ≤ (proper grid).length
  three : (proper grid).length ≤ 3
  long : ∀ g ∈ proper grid, 4 ≤ g.length
  ascending : ∀ g ∈ proper grid, g.getD 0 0 < g.getD 1 0
  shape : values.shape = dims ++ [nc]
  wf : values.WF

/-- The largest of the lowest non-zero frequencies. -/
noncomputable def lowest (freq : List (List ℝ)) : ℝ := (freq.map fun f => f.getD 1 0).foldl max 0

theorem axisFreq_one {g : List ℝ} (hl : 4 ≤ g.length) (hg : g.getD 0 0 < g.getD 1 0) :
    ((axisFreq g).take ((axisFreq g).length / 2))[1]? = some (1 / (g.length * spacing g)) ∧
      0 < 1 / (g.length * spacing g) := by
  have hl' : (axisFreq g).length = g.length := fftfreq_length _ _
  have hsp : 0 < spacing g := by
    simp only [List.getD_eq_getElem?_getD] at hg
    simp only [spacing]; linarith
  refine ⟨?_, by have : (0 : ℝ) < g.length := by exact_mod_cast (by omega : 0 < g.length)
                 positivity⟩
  rw [hl', List.getElem?_take, if_pos (by omega), axisFreq, fftfreq_get _ _ 1 (by omega), if_pos (by omega)]
  simp

theorem binWidth_ok {grid : List (List ℝ)} (h2 : 2 ≤ grid.length) (h3 : grid.length ≤ 3)
    (hl : ∀ g ∈ grid, 4 ≤ g.length) (ha : ∀ g ∈ grid, g.getD 0 0 < g.getD 1 0) :
    binWidth ((grid.map List.length).map (· / 2)) ((grid.map axisFreq).map fun f => f.take (f.length / 2))
      = .ok (lowest ((grid.map axisFreq).map fun f => f.take (f.length / 2))) ∧
    0 < lowest ((grid.map axisFreq).map fun f => f.take (f.length / 2)) := by
  match grid, h2, h3, hl, ha with
  | [a, b], _, _, hl, ha =>
    have la := hl a (by simp); have lb := hl b (by simp)
    obtain ⟨fa, pa⟩ := axisFreq_one la (ha a (by simp))
    obtain ⟨fb, pb⟩ := axisFreq_one lb (ha b (by simp))
    simp only [List.map_cons, List.map_nil, binWidth, binWidth2, second, fa, fb, lowest,
      List.getD_eq_getElem?_getD, Option.getD_some, List.foldl_cons, List.foldl_nil, bind, Except.bind,
      pure, Except.pure]
    rw [if_neg (by omega), if_neg (by omega), if_neg (by omega)]
    rw [max_eq_right pa.le]
    exact ⟨rfl, lt_of_lt_of_le pa (le_max_left _ _)⟩
  | [a, b, c], _, _, hl, ha =>
    have la := hl a (by simp); have lb := hl b (by simp); have lc := hl c (by simp)
    obtain ⟨fa, pa⟩ := axisFreq_one la (ha a (by simp))
    obtain ⟨fb, pb⟩ := axisFreq_one lb (ha b (by simp))
    obtain ⟨fc, pc⟩ := axisFreq_one lc (ha c (by simp))
    simp only [List.map_cons, List.map_nil, binWidth, binWidth3, second, fa, fb, fc, lowest,
      List.getD_eq_getElem?_getD, Option.getD_some, List.foldl_cons, List.foldl_nil, bind, Except.bind,
      pure, Except.pure]
    rw [if_neg (by omega), if_neg (by omega), if_neg (by omega), if_neg (by omega)]
    rw [max_eq_right pa.le]
    exact ⟨rfl, lt_of_lt_of_le pa (le_trans (le_max_left _ _) (le_max_left _ _))⟩

open Classical in
/-- What `fft` with `psd` and `iso` returns, in terms of the power spectrum it returns without `iso`. -/
theorem iso_exact_wf {grid : List (List ℝ)} {dims : List Nat} {values : NArr ℝ} {nc : Nat}
    (hd : SpectrumData grid dims values nc) (freq zeros power)
    (h : fft grid values true false = .ok (.power freq zeros power, proper grid)) :
    ∃ centres spectrum, fft grid values true true = .ok (.power [centres] 0 spectrum, proper grid) ∧ spectrum.WF ∧
      centres.length = numBins ((proper grid).map List.length) ∧
      spectrum.shape = [centres.length, nc] ∧ 0 < lowest freq ∧
      (∀ b : Nat, b < centres.length → centres[b]? = some (((b : ℝ) + 1) * lowest freq)) ∧
      ∀ b c, b < centres.length → c < nc → ∃ p : List Nat → ℝ,
        (∀ k, inRange ((proper grid).map fun g => g.length / 2) k = true → power.get? (k ++ [c]) = some (p k)) ∧
        spectrum.get? [b, c] = some
          ((∑ k ∈ (indices ((proper grid).map fun g => g.length / 2)).toFinset.filter
              (fun k => InBin centres.length (lowest freq) b (waveLength freq k)
                ∨ (b = 0 ∧ waveLength freq k < lowest freq / 2)), p k)
            / ((modesIn ((proper grid).map fun g => g.length / 2) freq centres.length (lowest freq) b).card : ℝ)) := by
  obtain ⟨hp, h2, h3, hl, ha, hs, hw⟩ := hd
  have h1 : proper grid ≠ [] := by intro h; simp [h] at h2
  obtain ⟨v, hv, hvs, hvw, hvg⟩ := squeezeAxes_ok hp hs hw
  rw [fft_eq true false hv, core_psd v h1 h3] at h
  simp only [Except.map, Except.ok.injEq, Prod.mk.injEq, Out.power.injEq, and_true] at h
  obtain ⟨rfl, -, rfl⟩ := h
  have hts : (transform v).shape = (proper grid).map List.length ++ [nc] := hvs ▸ rfl
  obtain ⟨p1, p2, p3⟩ := psdValues_get hts (transform_WF v)
  obtain ⟨hbw, hpos⟩ := binWidth_ok h2 h3 hl ha
  have hhalf : ((proper grid).map List.length).map (· / 2) = (proper grid).map fun g => g.length / 2 := by
    rw [List.map_map]; rfl
  set freq := ((proper grid).map axisFreq).map fun f => f.take (f.length / 2) with hfreq
  set ns := (proper grid).map List.length with hns
  set power := psdValues (ns.map (· / 2)) (transform v) with hpower
  set n := numBins ns with hn
  have hlast : v.shape.getLastD 0 = nc := by rw [hvs]; simp
  have hg0 : (proper grid).length ≠ 0 := by omega
  have hg3 : ¬ 3 < (proper grid).length := by omega
  have hg1 : (true = true ∧ 1 < (proper grid).length) := ⟨rfl, by omega⟩
  refine ⟨binCentres n (lowest freq), NArr.ofFn [n, nc] fun idx =>
      (isoSpectrum ns freq (lowest freq) power (idx.getLastD 0))[idx.headD 0]?, ?_, ?_, ?_, ?_, hpos, ?_, ?_⟩
  · rw [fft_eq true true hv, core]
    simp only [← hns, ← hfreq, ← hpower, ← hn, hbw, hlast, bind, Except.bind, pure, Except.pure]
    rw [if_neg hg0, if_neg hg3, if_pos trivial, if_pos (by simpa using hg1.2)]
    rfl
  · refine NArr.ofFn_WF fun idx hidx => ?_
    rw [inRange_iff_forall₂] at hidx
    match idx, hidx with
    | [i, j], hidx =>
      simp only [List.forall₂_cons, List.Forall₂.nil, and_true] at hidx
      simp only [List.headD_cons, isoSpectrum, isotropic, ← hn, List.getElem?_map, List.getElem?_range hidx.1]
      rfl
  · simp [binCentres]
  · simp [binCentres]
  · intro b hb
    have hb : b < n := by simpa [binCentres] using hb
    rw [binCentres, List.getElem?_map, List.getElem?_range hb]; rfl
  · intro b c hb hc
    have hcl : (binCentres n (lowest freq)).length = n := by simp [binCentres]
    rw [hcl] at hb ⊢
    have hpow : ∀ k c, inRange (ns.map (· / 2)) k = true → c < nc → ∃ x, power.get? (k ++ [c]) = some x := by
      intro k c hk hc
      exact Option.isSome_iff_exists.mp (NArr.get?_isSome p1 (by rw [p2]; exact inRange_snoc.mpr ⟨hk, hc⟩))
    refine ⟨fun k => (power.get? (k ++ [c])).getD 0, ?_, ?_⟩
    · intro k hk
      obtain ⟨x, hx⟩ := hpow k c (hhalf ▸ hk) hc
      simp [hx]
    · have hiso : ∀ c', c' < nc → isoSpectrum ns freq (lowest freq) power c' = isotropic n (lowest freq)
          ((indices (ns.map (· / 2))).map fun k => (waveLength freq k, (power.get? (k ++ [c'])).getD 0)) := by
        intro c' hc'
        simp only [isoSpectrum]
        rw [← List.filterMap_eq_map (f := fun k => (waveLength freq k, (power.get? (k ++ [c'])).getD 0))]
        congr 1
        apply List.filterMap_congr
        intro k hk
        rw [mem_indices] at hk
        obtain ⟨x, hx⟩ := hpow k c' hk hc'
        simp [hx, waveNumber_eq]
      have hiso' := fun b' (hb' : b' < n) c' (hc' : c' < nc) =>
        isotropic_get hpos (shape := ns.map (· / 2)) (freq := freq)
          (fun k => (power.get? (k ++ [c'])).getD 0) hb'
      rw [NArr.ofFn_get? (idx := [b, c])]
      · simp only [List.getLastD_cons, List.getLastD_nil, List.headD_cons]
        rw [hiso c hc, hiso' b hb c hc, hhalf]
      · intro idx hidx
        rw [inRange_iff_forall₂] at hidx
        match idx, hidx with
        | [i, j], hidx =>
          simp only [List.forall₂_cons, List.Forall₂.nil, and_true] at hidx
          simp only [List.getLastD_cons, List.getLastD_nil, List.headD_cons]
          rw [hiso j hidx.2, hiso' i hidx.1 j hidx.2]; rfl
      · simp [inRange, hb, hc]

open Classical in
/-- What `fft` with `psd` and `iso` returns, in terms of the power spectrum it returns without `iso`. -/
theorem iso_exact {grid : List (List ℝ)} {dims : List Nat} {values : NArr ℝ} {nc : Nat}
    (hd : SpectrumData grid dims values nc) (freq zeros power)
    (h : fft grid values true false = .ok (.power freq zeros power, proper grid)) :
    ∃ centres spectrum, fft grid values true true = .ok (.power [centres] 0 spectrum, proper grid) ∧
      centres.length = numBins ((proper grid).map List.length) ∧
      spectrum.shape = [centres.length, nc] ∧ 0 < lowest freq ∧
      (∀ b : Nat, b < centres.length → centres[b]? = some (((b : ℝ) + 1) * lowest freq)) ∧
      ∀ b c, b < centres.length → c < nc → ∃ p : List Nat → ℝ,
        (∀ k, inRange ((proper grid).map fun g => g.length / 2) k = true → power.get? (k ++ [c]) = some (p k)) ∧
        spectrum.get? [b, c] = some
          ((∑ k ∈ (indices ((proper grid).map fun g => g.length / 2)).toFinset.filter
              (fun k => InBin centres.length (lowest freq) b (waveLength freq k)
                ∨ (b = 0 ∧ waveLength freq k < lowest freq / 2)), p k)
            / ((modesIn ((proper grid).map fun g => g.length / 2) freq centres.length (lowest freq) b).card : ℝ)) := by
  obtain ⟨centres, spectrum, h1, -, h2⟩ := iso_exact_wf hd freq zeros power h
  exact ⟨centres, spectrum, h1, h2⟩

/-- C71: the isotropic spectrum (`psd` and `iso`) has bins centred at the multiples of the largest of the
lowest frequencies, and beyond the first bin its value is the mean of the power spectrum over the modes
whose wave number lies in the bin. -/
theorem C71_isotropic_partial (grid : List (List ℝ)) (dims : List Nat) (values : NArr ℝ) (nc : Nat)
    (hd : SpectrumData grid dims values nc) (freq zeros power)
    (h : fft grid values true false = .ok (.power freq zeros power, proper grid)) :
    ∃ centres spectrum, fft grid values true true = .ok (.power [centres] 0 spectrum, proper grid) ∧
      spectrum.shape = [centres.length, nc] ∧ 0 < lowest freq ∧
      (∀ b : Nat, b < centres.length → centres[b]? = some (((b : ℝ) + 1) * lowest freq)) ∧
      ∀ b c, 1 ≤ b → b < centres.length → c < nc →
        (modesIn ((proper grid).map fun g => g.length / 2) freq centres.length (lowest freq) b).Nonempty →
        ∃ p : List Nat → ℝ,
          (∀ k, inRange ((proper grid).map fun g => g.length / 2) k = true → power.get? (k ++ [c]) = some (p k)) ∧
          spectrum.get? [b, c] = some
            ((∑ k ∈ modesIn ((proper grid).map fun g => g.length / 2) freq centres.length (lowest freq) b, p k)
              / ((modesIn ((proper grid).map fun g => g.length / 2) freq centres.length (lowest freq) b).card : ℝ)) := by
  obtain ⟨centres, spectrum, e1, e2, e3, e4, e5, e6⟩ := iso_exact hd freq zeros power h
  refine ⟨centres, spectrum, e1, e3, e4, e5, fun b c hb1 hb hc _ => ?_⟩
  obtain ⟨p, q1, q2⟩ := e6 b c hb hc
  refine ⟨p, q1, ?_⟩
  rw [q2]
  have hb0 : b ≠ 0 := by omega
  congr 2
  apply Finset.sum_congr _ fun _ _ => rfl
  ext k; simp [modesIn, hb0]

open Classical in
/-- C71 is false of the first bin: the modes below half the bin width, among them the mean value of the
data (wave number 0), are added to the power but not counted. -/
theorem C71_first_bin_fails (grid : List (List ℝ)) (dims : List Nat) (values : NArr ℝ) (nc : Nat)
    (hd : SpectrumData grid dims values nc) (freq zeros power)
    (h : fft grid values true false = .ok (.power freq zeros power, proper grid)) :
    ∃ centres spectrum, fft grid values true true = .ok (.power [centres] 0 spectrum, proper grid) ∧
      0 < centres.length ∧ ∀ c, c < nc → ∃ p : List Nat → ℝ,
        (∀ k, inRange ((proper grid).map fun g => g.length / 2) k = true → power.get? (k ++ [c]) = some (p k)) ∧
        (∀ k, 0 ≤ p k ∨ ¬ inRange ((proper grid).map fun g => g.length / 2) k = true) ∧
        (0 < p (List.replicate (proper grid).length 0) →
          (modesIn ((proper grid).map fun g => g.length / 2) freq centres.length (lowest freq) 0).Nonempty →
          ∀ s, spectrum.get? [0, c] = some s →
            (∑ k ∈ modesIn ((proper grid).map fun g => g.length / 2) freq centres.length (lowest freq) 0, p k)
              / ((modesIn ((proper grid).map fun g => g.length / 2) freq centres.length (lowest freq) 0).card : ℝ) < s) := by
  obtain ⟨centres, spectrum, e1, e2, e3, e4, e5, e6⟩ := iso_exact hd freq zeros power h
  obtain ⟨hp, h2, h3, hl, ha, hs, hw⟩ := hd
  have h1 : proper grid ≠ [] := by intro h; simp [h] at h2
  have hcpos : 0 < centres.length := by
    rw [e2, numBins]
    match hg : proper grid, h2 with
    | a :: b :: rest, _ =>
      have := hl a (by simp [hg])
      rw [Nat.sqrt_pos]; simp only [List.map_cons, List.sum_cons]
      positivity
  refine ⟨centres, spectrum, e1, hcpos, fun c hc => ?_⟩
  obtain ⟨p, q1, q2⟩ := e6 0 c hcpos hc
  have hpos : ∀ k, inRange ((proper grid).map fun g => g.length / 2) k = true → 0 ≤ p k := by
    intro k hk
    obtain ⟨v, hv, hvs, hvw, hvg⟩ := squeezeAxes_ok hp hs hw
    rw [fft_eq true false hv, core_psd v h1 h3] at h
    simp only [Except.map, Except.ok.injEq, Prod.mk.injEq, Out.power.injEq, and_true] at h
    obtain ⟨-, -, rfl⟩ := h
    have hts : (transform v).shape = (proper grid).map List.length ++ [nc] := hvs ▸ rfl
    obtain ⟨p1, p2, p3⟩ := psdValues_get hts (transform_WF v)
    have hk' : inRange (((proper grid).map List.length).map (· / 2)) k = true := by rw [List.map_map]; exact hk
    have hq := q1 k hk
    rw [p3 k c hk' hc] at hq
    cases hz : (transform v).get? (k ++ [c]) with
    | none => simp [hz] at hq
    | some z => simp [hz] at hq; rw [← hq]; positivity
  refine ⟨p, q1, fun k => ?_, fun hp0 hne s hsp => ?_⟩
  · by_cases hk : inRange ((proper grid).map fun g => g.length / 2) k = true
    · exact Or.inl (hpos k hk)
    · exact Or.inr hk
  rw [q2, Option.some_inj] at hsp
  rw [← hsp]
  have hcard : (0 : ℝ) < ((modesIn ((proper grid).map fun g => g.length / 2) freq centres.length (lowest freq) 0).card : ℝ) := by
    exact_mod_cast Finset.card_pos.mpr hne
  rw [div_lt_div_iff_of_pos_right hcard]
  set z := List.replicate (proper grid).length 0 with hz
  have hzr : inRange ((proper grid).map fun g => g.length / 2) z = true := by
    rw [hz, inRange_iff_forall₂, List.forall₂_map_right_iff, List.forall₂_iff_get]
    refine ⟨by simp, fun i hi hi' => ?_⟩
    have := hl (proper grid)[i] (List.getElem_mem _)
    simp; omega
  have hwz : waveLength freq z = 0 := by
    obtain ⟨v, hv, hvs, hvw, hvg⟩ := squeezeAxes_ok hp hs hw
    rw [fft_eq true false hv, core_psd v h1 h3] at h
    simp only [Except.map, Except.ok.injEq, Prod.mk.injEq, Out.power.injEq, and_true] at h
    obtain ⟨rfl, -, -⟩ := h
    rw [waveLength, hz]
    have : ∀ (l : List (List ℝ)), (∀ g ∈ l, 4 ≤ g.length) →
        (List.zipWith (fun (f : List ℝ) (i : Nat) => (f.getD i 0) ^ 2)
          ((l.map axisFreq).map fun f => f.take (f.length / 2)) (List.replicate l.length 0)).sum = 0 := by
      intro l hl
      induction l with
      | nil => simp
      | cons g gs ih =>
        simp only [List.map_cons, List.length_cons, List.replicate_succ, List.zipWith_cons_cons, List.sum_cons]
        rw [ih fun x hx => hl x (by simp [hx])]
        have h4 := hl g (by simp)
        have hl' : (axisFreq g).length = g.length := fftfreq_length _ _
        rw [List.getD_eq_getElem?_getD, List.getElem?_take, hl', if_pos (by omega), axisFreq,
          fftfreq_get _ _ 0 (by omega), if_pos (by omega)]
        simp
    rw [this _ hl]; simp
  have hzin : z ∈ (indices ((proper grid).map fun g => g.length / 2)).toFinset.filter
      (fun k => InBin centres.length (lowest freq) 0 (waveLength freq k)
        ∨ (0 = 0 ∧ waveLength freq k < lowest freq / 2)) := by
    rw [Finset.mem_filter, List.mem_toFinset, mem_indices]
    exact ⟨hzr, Or.inr ⟨rfl, by rw [hwz]; linarith⟩⟩
  have hznot : z ∉ modesIn ((proper grid).map fun g => g.length / 2) freq centres.length (lowest freq) 0 := by
    rw [modesIn, Finset.mem_filter, hwz]
    rintro ⟨-, hb, -⟩
    simp at hb; linarith
  refine Finset.sum_lt_sum_of_subset (i := z) ?_ hzin hznot hp0 ?_
  · intro k hk
    rw [modesIn, Finset.mem_filter] at hk
    rw [Finset.mem_filter]; exact ⟨hk.1, Or.inl hk.2⟩
  · intro k hk _
    rw [Finset.mem_filter, List.mem_toFinset, mem_indices] at hk
    exact hpos k hk.1

end Pgkyl.Spectral
