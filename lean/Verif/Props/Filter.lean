import Verif.Props.SpectralIso
import Mathlib.Analysis.Complex.Basic
/-!
# C72: the FFT filter
-/

namespace Pgkyl.Spectral
open Pgkyl Pgkyl.Spec

/-- Frequency number `k` of `n` for the sampling interval `dt`. -/
noncomputable def freqAt (n : Nat) (dt : ℝ) (k : Nat) : ℝ :=
  if k < (n + 1) / 2 then (k : ℝ) / (n * dt) else ((k : ℝ) - n) / (n * dt)

theorem sum_indices_one {β : Type} [AddCommMonoid β] (n : Nat) (f : List Nat → β) :
    ((indices [n]).map f).sum = ∑ k ∈ Finset.range n, f [k] := by
  rw [show indices [n] = (List.range n).map fun i => [i] by
      simp only [indices]; generalize List.range n = l; induction l with
      | nil => rfl
      | cons a t ih => rw [List.flatMap_cons, ih]; rfl,
    List.map_map, Finset.sum_range, ← List.sum_ofFn]
  congr 1
  rw [List.ofFn_eq_map, ← List.map_coe_finRange_eq_range, List.map_map]; rfl

theorem phase_one (n j k : Nat) : phase [n] [j] [k] = (j : ℝ) * k / n := by simp [phase]

/-- The Fourier coefficients of the data. -/
noncomputable def coeff (data : List ℝ) (k : Nat) : ℂ :=
  ∑ j ∈ Finset.range data.length, ((data.getD j 0 : ℝ) : ℂ) * cis (-((j : ℝ) * k / data.length))

theorem dft_one (data : List ℝ) (k : Nat) :
    dftAt [data.length] (fun j => (((data[j.headD 0]?).getD 0 : ℝ) : ℂ)) [k] = coeff data k := by
  rw [dftAt, sum_indices_one, coeff]
  apply Finset.sum_congr rfl
  intro j _
  simp [phase_one, List.getD_eq_getElem?_getD]

/-- The filter in terms of the coefficients. -/
theorem fftFilter_get (data : List ℝ) (dt cutoff : ℝ) {j : Nat} (hj : j < data.length) :
    (fftFilter data dt cutoff)[j]? = some
      ((∑ k ∈ Finset.range data.length, if |freqAt data.length dt k| ≤ cutoff
        then coeff data k * cis ((j : ℝ) * k / data.length) else 0) / data.length) := by
  simp only [fftFilter, List.getElem?_map, List.getElem?_range hj, Option.map_some, idftAt, sum_indices_one]
  congr 2
  · apply Finset.sum_congr rfl
    intro k hk
    have hk : k < data.length := by simpa using hk
    simp only [List.headD_cons, fftfreq_get _ _ _ hk, Option.getD_some, phase_one]
    rw [dft_one]
    have e : (if k < (data.length + 1) / 2 then (k : ℝ) / (data.length * dt) else ((k : ℝ) - data.length) / (data.length * dt))
      = freqAt data.length dt k := rfl
    rw [e]
    by_cases h1 : freqAt data.length dt k > cutoff
    · rw [if_pos h1, if_neg (by rw [abs_le]; intro h; linarith [h.2])]; simp
    · by_cases h2 : freqAt data.length dt k < -cutoff
      · rw [if_neg h1, if_pos h2, if_neg (by rw [abs_le]; intro h; linarith [h.1])]; simp
      · rw [if_neg h1, if_neg h2, if_pos (abs_le.mpr ⟨by linarith, by linarith⟩)]
  · simp

/-- The coefficients reproduce the data. -/
theorem coeff_sum (data : List ℝ) {j : Nat} (hj : j < data.length) :
    ∑ k ∈ Finset.range data.length, coeff data k * cis ((j : ℝ) * k / data.length)
      = ((data.getD j 0 : ℝ) : ℂ) * data.length := by
  have := sum_dft [data.length] (fun j => (((data[j.headD 0]?).getD 0 : ℝ) : ℂ)) [j] (by simp [inRange, hj])
  rw [sum_indices_one] at this
  simp only [dft_one, phase_one] at this
  simpa [List.getD_eq_getElem?_getD] using this

theorem wave_freqAt {n : Nat} {dt : ℝ} (hn : 0 < n) (hdt : dt ≠ 0) (k j : Nat) :
    wave (freqAt n dt k) (j * dt) = cis ((j : ℝ) * k / n) := by
  have hn' : (n : ℝ) ≠ 0 := by positivity
  unfold freqAt
  split
  · have : (k : ℝ) / (n * dt) * (j * dt) = j * k / n := by field_simp
    simp only [wave, cis]; congr 1; rw [← Complex.ofReal_mul, this]
  · have e : ((k : ℝ) - n) / (n * dt) * (j * dt) = j * k / n + ((-(j : ℤ) : ℤ) : ℝ) := by
      push_cast; field_simp; ring
    have hc := cis_add ((j : ℝ) * k / n) ((-(j : ℤ) : ℤ) : ℝ)
    rw [cis_int, mul_one, ← e] at hc
    rw [← hc]; simp only [wave, cis]; congr 1; push_cast; ring

/-- C72: `fft_filtering` removes the plane waves above the cut-off and keeps the others: the data are a
sum of waves with frequencies resolved by the sampling (`|f Δt| ≤ 1/2`, whole numbers of periods in
`n Δt`), and the result is the sum of those of them whose frequency does not exceed the cut-off. -/
theorem C72_filter (data : List ℝ) (dt cutoff : ℝ) (hdt : 0 < dt) (hn : data ≠ []) :
    ∃ (f : Nat → ℝ) (a : Nat → ℂ),
      (∀ k < data.length, |f k * dt| ≤ 1 / 2 ∧ ∃ m : ℤ, f k * (data.length * dt) = m) ∧
      (∀ k < data.length, ∀ l < data.length, f k = f l → k = l) ∧
      (fftFilter data dt cutoff).length = data.length ∧
      ∀ (j : Nat) (x : ℝ), data[j]? = some x → ∃ y, (fftFilter data dt cutoff)[j]? = some y ∧
        (x : ℂ) = ∑ k ∈ Finset.range data.length, a k * wave (f k) (j * dt) ∧
        y = ∑ k ∈ (Finset.range data.length).filter (fun k => |f k| ≤ cutoff), a k * wave (f k) (j * dt) := by
  have hn0 : 0 < data.length := List.length_pos_iff.mpr hn
  have hnr : (0 : ℝ) < data.length := by exact_mod_cast hn0
  have hnc : (data.length : ℂ) ≠ 0 := by exact_mod_cast hn0.ne'
  refine ⟨freqAt data.length dt, fun k => coeff data k / data.length, ?_, ?_, by simp [fftFilter], ?_⟩
  · intro k hk
    have hk' : (k : ℝ) < data.length := by exact_mod_cast hk
    unfold freqAt
    split
    · next h =>
      have h2 : 2 * (k : ℝ) + 1 ≤ data.length := by exact_mod_cast (by omega : 2 * k + 1 ≤ data.length)
      have e : (k : ℝ) / (data.length * dt) * dt = k / data.length := by field_simp
      refine ⟨?_, k, by push_cast; field_simp⟩
      rw [e, abs_of_nonneg (by positivity), div_le_iff₀ hnr]; linarith
    · next h =>
      have h2 : (data.length : ℝ) ≤ 2 * k := by exact_mod_cast (by omega : data.length ≤ 2 * k)
      have e : ((k : ℝ) - data.length) / (data.length * dt) * dt = (k - data.length) / data.length := by field_simp
      refine ⟨?_, (k : ℤ) - data.length, by push_cast; field_simp⟩
      rw [e, abs_of_nonpos (by apply div_nonpos_of_nonpos_of_nonneg <;> linarith), neg_le]
      rw [le_div_iff₀ hnr]; linarith
  · intro k hk l hl h
    have key : ∀ m : Nat, freqAt data.length dt m * (data.length * dt)
        = ((if m < (data.length + 1) / 2 then (m : ℤ) else (m : ℤ) - data.length : ℤ) : ℝ) := by
      intro m; unfold freqAt; split
      · push_cast; field_simp
      · push_cast; field_simp
    have := key k
    rw [h, key l] at this
    have : (if l < (data.length + 1) / 2 then (l : ℤ) else (l : ℤ) - data.length)
      = (if k < (data.length + 1) / 2 then (k : ℤ) else (k : ℤ) - data.length) := by exact_mod_cast this
    split at this <;> split at this <;> omega
  · intro j x hx
    have hj : j < data.length := by
      by_contra h
      rw [List.getElem?_eq_none (by omega)] at hx; simp at hx
    refine ⟨_, fftFilter_get data dt cutoff hj, ?_, ?_⟩
    · have hc := coeff_sum data hj
      rw [List.getD_eq_getElem?_getD, hx, Option.getD_some] at hc
      refine mul_right_cancel₀ hnc ?_
      rw [← hc, Finset.sum_mul]
      apply Finset.sum_congr rfl
      intro k _
      rw [wave_freqAt hn0 hdt.ne']; field_simp
    · rw [Finset.sum_filter, div_eq_mul_inv, Finset.sum_mul]
      apply Finset.sum_congr rfl
      intro k _
      rw [wave_freqAt hn0 hdt.ne']
      split
      · field_simp
      · simp

/-- C72: a cut-off at or above half the sampling rate changes nothing. -/
theorem C72_filter_identity (data : List ℝ) (dt cutoff : ℝ) (hdt : 0 < dt) (hc : 1 / (2 * dt) ≤ cutoff) :
    fftFilter data dt cutoff = data.map fun x : ℝ => (x : ℂ) := by
  by_cases hn : data = []
  · subst hn; simp [fftFilter]
  obtain ⟨f, a, h1, -, h2, h3⟩ := C72_filter data dt cutoff hdt hn
  apply List.ext_getElem?
  intro j
  by_cases hj : j < data.length
  · have hx : data[j]? = some data[j] := List.getElem?_eq_getElem hj
    obtain ⟨y, hy, e1, e2⟩ := h3 j _ hx
    rw [hy, List.getElem?_map, hx, Option.map_some, e1, e2, Finset.filter_true_of_mem]
    intro k hk
    have := (h1 k (by simpa using hk)).1
    rw [abs_mul, abs_of_pos hdt] at this
    refine le_trans ?_ hc
    rw [le_div_iff₀ (by positivity)]; linarith
  · rw [List.getElem?_eq_none (by omega), List.getElem?_eq_none (by simp; omega)]

theorem conj_cis (t : ℝ) : (starRingEnd ℂ) (cis t) = cis (-t) := by
  rw [cis, cis, ← Complex.exp_conj]; congr 1; simp [Complex.conj_ofNat]

theorem conj_coeff (data : List ℝ) (k : Nat) (hk : k ≤ data.length) (hn : 0 < data.length) :
    (starRingEnd ℂ) (coeff data k) = coeff data (data.length - k) := by
  have hnr : (data.length : ℝ) ≠ 0 := by positivity
  simp only [coeff, map_sum, map_mul, conj_cis, Complex.conj_ofReal]
  apply Finset.sum_congr rfl
  intro j _
  congr 1
  have e : -((j : ℝ) * ((data.length - k : ℕ) : ℝ) / data.length)
      = -(-((j : ℝ) * k / data.length)) + ((-(j : ℤ) : ℤ) : ℝ) := by
    rw [Nat.cast_sub hk]; push_cast; field_simp; ring
  rw [e, cis_add, cis_int, mul_one]

theorem freqAt_mirror {n k : Nat} (dt : ℝ) (hk : k < n) :
    |freqAt n dt (n - k)| = |freqAt n dt k| := by
  unfold freqAt
  have hc : ((n - k : ℕ) : ℝ) = n - k := Nat.cast_sub hk.le
  rcases lt_trichotomy (2 * k) n with h | h | h
  · rw [if_pos (show k < (n + 1) / 2 by omega), if_neg (show ¬ n - k < (n + 1) / 2 by omega), hc, ← abs_neg]
    congr 1; ring
  · have : n - k = k := by omega
    rw [this]
  · rw [if_neg (show ¬ k < (n + 1) / 2 by omega), if_pos (show n - k < (n + 1) / 2 by omega), hc, ← abs_neg]
    congr 1; ring

/-- C72: the filtered data are real. -/
theorem C72_filter_real (data : List ℝ) (dt cutoff : ℝ) (y : ℂ) (hy : y ∈ fftFilter data dt cutoff) :
    y.im = 0 := by
  obtain ⟨j, hj⟩ := List.mem_iff_getElem?.mp hy
  have hjl : j < data.length := by
    by_contra h
    rw [List.getElem?_eq_none (by simp [fftFilter]; omega)] at hj; simp at hj
  have hn : 0 < data.length := by omega
  have hnr : (data.length : ℝ) ≠ 0 := by positivity
  rw [fftFilter_get data dt cutoff hjl, Option.some_inj] at hj
  rw [← Complex.conj_eq_iff_im, ← hj]
  simp only [map_div₀, map_sum, Complex.conj_natCast]
  congr 1
  set m : Nat → Nat := fun k => if k = 0 then 0 else data.length - k with hm
  refine Finset.sum_nbij' m m ?_ ?_ ?_ ?_ ?_
  · intro k hk; simp only [hm, Finset.mem_range] at hk ⊢; split <;> omega
  · intro k hk; simp only [hm, Finset.mem_range] at hk ⊢; split <;> omega
  · intro k hk; simp only [hm, Finset.mem_range] at hk ⊢; split <;> split <;> omega
  · intro k hk; simp only [hm, Finset.mem_range] at hk ⊢; split <;> split <;> omega
  · intro k hk
    have hk : k < data.length := by simpa using hk
    simp only [hm]
    by_cases hk0 : k = 0
    · subst hk0
      simp only [if_true]
      rw [apply_ite (starRingEnd ℂ), map_mul, conj_coeff data 0 (by omega) hn, conj_cis, map_zero]
      have e : coeff data (data.length - 0) = coeff data 0 := by
        rw [← conj_coeff data 0 (by omega) hn]
        simp only [coeff, map_sum, map_mul, conj_cis, Complex.conj_ofReal]
        apply Finset.sum_congr rfl; intro j _; simp
      rw [e]; simp
    · rw [if_neg hk0, freqAt_mirror dt hk, apply_ite (starRingEnd ℂ), map_mul,
        conj_coeff data k hk.le hn, conj_cis, map_zero]
      congr 2
      have e : (j : ℝ) * ((data.length - k : ℕ) : ℝ) / data.length
          = -((j : ℝ) * k / data.length) + ((j : ℤ) : ℝ) := by
        rw [Nat.cast_sub hk.le]; push_cast; field_simp; ring
      rw [e, cis_add, cis_int, mul_one]

/-! ## The hypotheses are met -/

/-- Four points half a unit apart. -/
theorem example_spaced : EquallySpaced [0, 1 / 2, 1, 3 / 2] := by
  refine ⟨0, 1 / 2, by norm_num, ?_⟩
  intro i x h
  match i, h with
  | 0, h => simp at h; simp [← h]
  | 1, h => simp at h; simp [← h]
  | 2, h => simp at h; simp [← h]
  | 3, h => simp at h; subst h; norm_num
  | n + 4, h => simp at h

/-- C70 applies to two components given at four points in one direction, another being collapsed. -/
example : ∃ freq amps, fft [[0, 1 / 2, 1, 3 / 2], [0, 1]] ⟨[4, 1, 2], [1, 2, 3, 4, 5, 6, 7, 8]⟩ false false
    = .ok (.amplitudes freq amps, [[0, 1 / 2, 1, 3 / 2]]) := by
  have hpr : proper [[0, 1 / 2, 1, 3 / 2], [0, 1]] = [[0, 1 / 2, 1, 3 / 2]] := by simp [proper]
  obtain ⟨f, a, h, -⟩ := C70_spectrum_partial [[0, 1 / 2, 1, 3 / 2], [0, 1]] [4, 1]
    ⟨[4, 1, 2], [1, 2, 3, 4, 5, 6, 7, 8]⟩ 2 false
    (.cons (Or.inr ⟨by simp, by simp, example_spaced⟩) (.cons (Or.inl ⟨by simp, rfl⟩) .nil))
    (by rw [hpr]; simp) (by rw [hpr]; simp) rfl (by simp [NArr.WF])
  exact ⟨f, a, hpr ▸ h⟩

/-- C71 applies to four by four points. -/
example : SpectrumData [[0, 1 / 2, 1, 3 / 2], [0, 1 / 2, 1, 3 / 2]] [4, 4]
    ⟨[4, 4, 1], (List.range 16).map fun i : Nat => (i : ℝ)⟩ 1 := by
  have hpr : proper [[0, 1 / 2, 1, 3 / 2], [0, 1 / 2, 1, 3 / 2]]
      = [[0, 1 / 2, 1, 3 / 2], [0, 1 / 2, 1, 3 / 2]] := by simp [proper]
  refine ⟨.cons (Or.inr ⟨by simp, by simp, example_spaced⟩)
    (.cons (Or.inr ⟨by simp, by simp, example_spaced⟩) .nil), ?_, ?_, ?_, ?_, rfl, by simp [NArr.WF]⟩
  all_goals (rw [hpr]; simp)

/-- C70's failure on cells: three cells. -/
example : ∃ freq amps, fft [[0, 1 / 2, 1, 3 / 2]] ⟨[3, 1], [1, 2, 3]⟩ false false
    = .ok (.amplitudes [freq] amps, [[0, 1 / 2, 1, 3 / 2]]) ∧ amps.shape = [3, 1] ∧ freq.length = 4 := by
  obtain ⟨f, a, h1, h2, h3, -⟩ := C70_nodal_fails [0, 1 / 2, 1, 3 / 2] ⟨[3, 1], [1, 2, 3]⟩ 3 1 0 (1 / 2)
    (by norm_num) (by norm_num) rfl (by
      intro i x h
      match i, h with
      | 0, h => simp at h; simp [← h]
      | 1, h => simp at h; simp [← h]
      | 2, h => simp at h; simp [← h]
      | 3, h => simp at h; subst h; norm_num
      | n + 4, h => simp at h) rfl false
  exact ⟨f, a, h1, h2, h3⟩

/-- C72 applies to any non-empty data, e.g. three samples 1/10 apart with the cut-off 3. -/
example : (fftFilter [1, 5, 2] (1 / 10) 3).length = 3 := by
  obtain ⟨_, _, _, _, h, _⟩ := C72_filter [1, 5, 2] (1 / 10) 3 (by norm_num) (by simp)
  exact h

end Pgkyl.Spectral
