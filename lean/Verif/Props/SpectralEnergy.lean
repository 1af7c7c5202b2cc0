import Verif.Props.Spectral
import Verif.Spec.SpectralEnergy
/-! # C141: energy and symmetry of spectra -/

namespace Pgkyl.Spectral
open Pgkyl Pgkyl.Spec

theorem conj_cis (t : ℝ) : (starRingEnd ℂ) (cis t) = cis (-t) := by
  simp only [cis, ← Complex.exp_conj]
  congr 1
  simp only [map_mul, Complex.conj_I, Complex.conj_ofReal, map_ofNat]
  push_cast; ring

/-- Parseval's identity. -/
theorem parseval (shape : List Nat) (v : List Nat → ℂ) :
    ((indices shape).map fun k => ‖dftAt shape v k‖ ^ 2).sum =
      (shape.prod : ℝ) * ((indices shape).map fun j => ‖v j‖ ^ 2).sum := by
  have h : (((indices shape).map fun k => dftAt shape v k * (starRingEnd ℂ) (dftAt shape v k)).sum : ℂ) =
      (shape.prod : ℂ) * ((indices shape).map fun j => v j * (starRingEnd ℂ) (v j)).sum := by
    have e : ∀ k : List Nat, (starRingEnd ℂ) (dftAt shape v k) =
        ((indices shape).map fun j => (starRingEnd ℂ) (v j) * cis (phase shape j k)).sum := by
      intro k
      rw [dftAt, map_list_sum, List.map_map]
      congr 1
      apply List.map_congr_left
      intro j _
      simp only [Function.comp, map_mul, conj_cis, neg_neg]
    simp only [e, sum_indices_finset, Finset.mul_sum]
    rw [Finset.sum_comm]
    apply Finset.sum_congr rfl
    intro j hj
    have hj' : inRange shape j = true := by simpa [mem_indices] using hj
    have := sum_dft shape v j hj'
    rw [sum_indices_finset] at this
    calc ∑ k ∈ (indices shape).toFinset, dftAt shape v k * ((starRingEnd ℂ) (v j) * cis (phase shape j k))
        = (starRingEnd ℂ) (v j) * ∑ k ∈ (indices shape).toFinset, dftAt shape v k * cis (phase shape j k) := by
          rw [Finset.mul_sum]; apply Finset.sum_congr rfl; intro k _; ring
      _ = _ := by rw [this]; ring
  have hz : ∀ z : ℂ, z * (starRingEnd ℂ) z = ((‖z‖ ^ 2 : ℝ) : ℂ) := by
    intro z; rw [Complex.mul_conj, Complex.normSq_eq_norm_sq]
  simp only [hz] at h
  simp only [sum_indices_finset] at h ⊢
  have hc : ((∑ k ∈ (indices shape).toFinset, ‖dftAt shape v k‖ ^ 2 : ℝ) : ℂ) =
      (((shape.prod : ℝ) * ∑ j ∈ (indices shape).toFinset, ‖v j‖ ^ 2 : ℝ) : ℂ) := by
    rw [Complex.ofReal_sum, Complex.ofReal_mul, Complex.ofReal_sum, h, Complex.ofReal_natCast]
  exact Complex.ofReal_injective hc

theorem phase_opposite : ∀ (shape j k : List Nat), inRange shape j = true → inRange shape k = true →
    cis (-phase shape j (opposite shape k)) = cis (phase shape j k)
  | [], _, _, _, _ => by simp [phase, cis_zero]
  | n :: ns, j :: js, k :: ks, hj, hk => by
    simp only [inRange, Bool.and_eq_true, decide_eq_true_eq] at hj hk
    have ih := phase_opposite ns js ks hj.2 hk.2
    have hn : (n : ℝ) ≠ 0 := by have : 0 < n := by omega
                                positivity
    simp only [opposite, List.zipWith_cons_cons, phase] at ih ⊢
    rw [neg_add, cis_add, ih, cis_add]
    congr 1
    by_cases h0 : k = 0
    · subst h0; simp
    · rw [Nat.mod_eq_of_lt (by omega), Nat.cast_sub hk.1.le]
      rw [show -((j : ℝ) * (n - k) / n) = (((-(j : ℤ)) : ℤ) : ℝ) + j * k / n by push_cast; field_simp; ring, cis_add, cis_int,
        one_mul]
  | _ :: _, [], _, h, _ => by simp [inRange] at h
  | _ :: _, _ :: _, [], _, h => by simp [inRange] at h

theorem opposite_inRange : ∀ (shape k : List Nat), inRange shape k = true → inRange shape (opposite shape k) = true
  | [], [], _ => rfl
  | n :: ns, k :: ks, h => by
    simp only [inRange, Bool.and_eq_true, decide_eq_true_eq] at h
    simp only [opposite, List.zipWith_cons_cons, inRange, Bool.and_eq_true, decide_eq_true_eq]
    exact ⟨Nat.mod_lt _ (by omega), opposite_inRange ns ks h.2⟩
  | [], _ :: _, h => by simp [inRange] at h
  | _ :: _, [], h => by simp [inRange] at h

theorem dft_opposite (shape : List Nat) (v : List Nat → ℝ) {k : List Nat} (hk : inRange shape k = true) :
    dftAt shape (fun j => (v j : ℂ)) (opposite shape k) = (starRingEnd ℂ) (dftAt shape (fun j => (v j : ℂ)) k) := by
  rw [dftAt, dftAt, map_list_sum, List.map_map]
  congr 1
  apply List.map_congr_left
  intro j hj
  simp only [Function.comp, map_mul, conj_cis, neg_neg, Complex.conj_ofReal]
  rw [phase_opposite shape j k (by simpa [mem_indices] using hj) hk]

/-- What `fft` returns without `psd`, in terms of the transform of each component. -/
theorem amps_dft {grid : List (List ℝ)} {dims : List Nat} {values : NArr ℝ} {nc : Nat} {iso : Bool} {freq : List (List ℝ)}
    {amps : NArr ℂ} {g' : List (List ℝ)} (hp : PointData grid dims) (h1 : proper grid ≠ []) (h3 : (proper grid).length ≤ 3)
    (hs : values.shape = dims ++ [nc]) (hw : values.WF)
    (h : fft grid values false iso = .ok (.amplitudes freq amps, g')) :
    ∃ x : Nat → List Nat → ℝ,
      (∀ c < nc, ∀ j, inRange ((proper grid).map List.length) j = true →
        values.get? (fullIndex dims j ++ [c]) = some (x c j)) ∧
      ∀ c < nc, ∀ k, inRange ((proper grid).map List.length) k = true →
        amps.get? (k ++ [c]) = some (dftAt ((proper grid).map List.length) (fun j => (x c j : ℂ)) k) := by
  obtain ⟨v, hv, hvs, hvw, hvg⟩ := squeezeAxes_ok hp hs hw
  rw [fft_eq false iso hv, core_amplitudes v iso h1 h3] at h
  simp only [Except.map, Except.ok.injEq, Prod.mk.injEq, Out.amplitudes.injEq] at h
  obtain ⟨⟨-, rfl⟩, -⟩ := h
  refine ⟨fun c j => (v.get? (j ++ [c])).getD 0, fun c hc j hj => ?_, fun c hc k hk => transform_get v hvs hk hc⟩
  rw [← hvg j c hj]
  obtain ⟨z, hz⟩ := Option.isSome_iff_exists.mp
    (NArr.get?_isSome hvw (idx := j ++ [c]) (by rw [hvs]; exact inRange_snoc.mpr ⟨hj, hc⟩))
  simp [hz]

/-- C141: the squared magnitudes of all amplitudes add up to the number of points times the sum of the squares of the data. -/
theorem C141_energy (grid : List (List ℝ)) (dims : List Nat) (values : NArr ℝ) (nc : Nat) (iso : Bool)
    (hp : PointData grid dims) (h1 : proper grid ≠ []) (h3 : (proper grid).length ≤ 3)
    (hs : values.shape = dims ++ [nc]) (hw : values.WF) :
    ∃ freq amps, fft grid values false iso = .ok (.amplitudes freq amps, proper grid) ∧
      ∀ c < nc, ∃ (a : List Nat → ℂ) (x : List Nat → ℝ),
        (∀ k, inRange ((proper grid).map List.length) k = true → amps.get? (k ++ [c]) = some (a k)) ∧
        (∀ j, inRange ((proper grid).map List.length) j = true → values.get? (fullIndex dims j ++ [c]) = some (x j)) ∧
        ((indices ((proper grid).map List.length)).map fun k => ‖a k‖ ^ 2).sum =
          (((proper grid).map List.length).prod : ℝ) *
            ((indices ((proper grid).map List.length)).map fun j => x j ^ 2).sum := by
  obtain ⟨freq, amps, e, -⟩ := C70_spectrum_partial grid dims values nc iso hp h1 h3 hs hw
  obtain ⟨x, hx1, hx2⟩ := amps_dft hp h1 h3 hs hw e
  refine ⟨freq, amps, e, fun c hc => ⟨_, x c, hx2 c hc, hx1 c hc, ?_⟩⟩
  rw [parseval]
  simp

/-- C141: the amplitude of the opposite wave vector is the complex conjugate, so one half of the spectrum of real data determines
the other. -/
theorem C141_symmetric (grid : List (List ℝ)) (dims : List Nat) (values : NArr ℝ) (nc : Nat) (iso : Bool)
    (hp : PointData grid dims) (h1 : proper grid ≠ []) (h3 : (proper grid).length ≤ 3)
    (hs : values.shape = dims ++ [nc]) (hw : values.WF) :
    ∃ freq amps, fft grid values false iso = .ok (.amplitudes freq amps, proper grid) ∧
      ∀ c < nc, ∀ k, inRange ((proper grid).map List.length) k = true →
        ∃ z, amps.get? (k ++ [c]) = some z ∧
          amps.get? (opposite ((proper grid).map List.length) k ++ [c]) = some ((starRingEnd ℂ) z) := by
  obtain ⟨freq, amps, e, -⟩ := C70_spectrum_partial grid dims values nc iso hp h1 h3 hs hw
  obtain ⟨x, -, hx2⟩ := amps_dft hp h1 h3 hs hw e
  refine ⟨freq, amps, e, fun c hc k hk => ⟨_, hx2 c hc k hk, ?_⟩⟩
  rw [hx2 c hc _ (opposite_inRange _ _ hk), dft_opposite _ _ hk]

/-- C141: the amplitude of wave number zero is the sum of the data. -/
theorem C141_mean (grid : List (List ℝ)) (dims : List Nat) (values : NArr ℝ) (nc : Nat) (iso : Bool)
    (hp : PointData grid dims) (h1 : proper grid ≠ []) (h3 : (proper grid).length ≤ 3)
    (hs : values.shape = dims ++ [nc]) (hw : values.WF) :
    ∃ freq amps, fft grid values false iso = .ok (.amplitudes freq amps, proper grid) ∧
      ∀ c < nc, ∃ x : List Nat → ℝ,
        (∀ j, inRange ((proper grid).map List.length) j = true → values.get? (fullIndex dims j ++ [c]) = some (x j)) ∧
        amps.get? (List.replicate (proper grid).length 0 ++ [c]) =
          some ((((indices ((proper grid).map List.length)).map x).sum : ℝ) : ℂ) := by
  obtain ⟨freq, amps, e, -⟩ := C70_spectrum_partial grid dims values nc iso hp h1 h3 hs hw
  obtain ⟨x, hx1, hx2⟩ := amps_dft hp h1 h3 hs hw e
  refine ⟨freq, amps, e, fun c hc => ⟨x c, hx1 c hc, ?_⟩⟩
  have hl := (proper_spaced hp).1
  have hz : inRange ((proper grid).map List.length) (List.replicate (proper grid).length 0) = true := by
    rw [inRange_iff_forall₂, List.forall₂_map_right_iff, List.forall₂_iff_get]
    refine ⟨by simp, fun i hi hi' => ?_⟩
    have := hl (proper grid)[i] (List.getElem_mem _)
    simp; omega
  have hph : ∀ (s j : List Nat) (m : Nat), phase s j (List.replicate m 0) = 0 := by
    intro s
    induction s with
    | nil => intro j m; simp [phase]
    | cons n s ih =>
      intro j m
      cases j with
      | nil => simp [phase]
      | cons i j =>
        cases m with
        | zero => simp [phase]
        | succ m => simp [phase, List.replicate_succ, ih]
  rw [hx2 c hc _ hz, dftAt]
  simp only [hph, neg_zero, cis_zero, mul_one]
  rw [sum_indices_finset, sum_indices_finset]
  push_cast
  rfl

/-- C141: for even numbers of points, `psd` returns exactly the frequencies that are not negative. -/
theorem C141_positive_partial (grid : List (List ℝ)) (values : NArr ℝ) (iso : Bool) (freq amps pfreq zeros power g' g'')
    (h : fft grid values false iso = .ok (.amplitudes freq amps, g'))
    (hq : fft grid values true false = .ok (.power pfreq zeros power, g''))
    (heven : ∀ g ∈ proper grid, g.length % 2 = 0) (hasc : ∀ g ∈ proper grid, g.getD 0 0 < g.getD 1 0) :
    pfreq = freq.map fun f => f.filter fun q => decide (0 ≤ q) := by
  obtain ⟨v, hv⟩ : ∃ v, squeezeAxes grid values = .ok v := by
    rcases hsq : squeezeAxes grid values with e | v
    · simp [fft, hsq, bind, Except.bind] at h
    · exact ⟨v, rfl⟩
  rw [fft_eq false iso hv] at h
  rw [fft_eq true false hv] at hq
  have h1 : proper grid ≠ [] := by
    intro h0
    simp [core, h0, Except.map] at h
  have h3 : (proper grid).length ≤ 3 := by
    by_contra hc
    simp [core, h1, show 3 < (proper grid).length by omega, Except.map] at h
  rw [core_amplitudes v iso h1 h3] at h
  rw [core_psd v h1 h3] at hq
  simp only [Except.map, Except.ok.injEq, Prod.mk.injEq, Out.amplitudes.injEq, Out.power.injEq] at h hq
  rw [← h.1.1, ← hq.1.1, List.map_map, List.map_map]
  apply List.map_congr_left
  intro g hg
  have hn := heven g hg
  have hl : 2 < g.length := by simp [proper] at hg; omega
  have ha := hasc g hg
  have hsp : 0 < spacing g := by
    simp only [List.getD_eq_getElem?_getD] at ha
    simp only [spacing]; linarith
  simp only [Function.comp, axisFreq, fftfreq_length]
  have hd : 0 < (g.length : ℝ) * spacing g := by
    have : (0 : ℝ) < g.length := by exact_mod_cast (by omega : 0 < g.length)
    positivity
  generalize g.length = n at *
  generalize spacing g = dx at *
  obtain ⟨m, rfl⟩ : ∃ m, n = m + m := ⟨n / 2, by omega⟩
  unfold fftfreq
  rw [show (m + m) / 2 = m by omega, show (m + m + 1) / 2 = m by omega, List.range_add, List.map_append, List.filter_append,
    List.take_append_of_le_length (by simp), List.take_of_length_le (by simp)]
  have e1 : List.filter (fun q => decide (0 ≤ q)) (List.map (fun k : Nat =>
      if k < m then (k : ℝ) / (((m + m : Nat) : ℝ) * dx) else ((k : ℝ) - (m + m : Nat)) / (((m + m : Nat) : ℝ) * dx)) (List.range m)) =
      List.map (fun k : Nat =>
      if k < m then (k : ℝ) / (((m + m : Nat) : ℝ) * dx) else ((k : ℝ) - (m + m : Nat)) / (((m + m : Nat) : ℝ) * dx)) (List.range m) := by
    rw [List.filter_eq_self]
    intro q hq
    obtain ⟨k, hk, rfl⟩ := List.mem_map.1 hq
    rw [if_pos (List.mem_range.1 hk)]
    simp only [decide_eq_true_eq]
    exact div_nonneg (Nat.cast_nonneg _) hd.le
  rw [e1]
  symm
  apply List.append_right_eq_self.2
  rw [List.filter_eq_nil_iff]
  intro q hq
  rw [List.map_map] at hq
  obtain ⟨k, hk, rfl⟩ := List.mem_map.1 hq
  simp only [Function.comp]
  rw [if_neg (by omega)]
  simp only [decide_eq_true_eq, not_le]
  refine div_neg_of_neg_of_pos ?_ hd
  have := List.mem_range.1 hk
  have : (k : ℝ) < m := by exact_mod_cast this
  push_cast; linarith

/-- C141 is false for odd numbers of points: the highest positive frequency is one of those of the transform and is missing from
the output of `psd`. -/
theorem C141_odd_fails (grid : List (List ℝ)) (values : NArr ℝ) (iso : Bool) (freq amps pfreq zeros power g' g'')
    (h : fft grid values false iso = .ok (.amplitudes freq amps, g'))
    (hq : fft grid values true false = .ok (.power pfreq zeros power, g''))
    (d : Nat) (g : List ℝ) (hg : (proper grid)[d]? = some g) (hodd : g.length % 2 = 1) (hasc : g.getD 0 0 < g.getD 1 0) :
    ∃ f p top, freq[d]? = some f ∧ pfreq[d]? = some p ∧ top ∈ f ∧ 0 < top ∧ top ∉ p := by
  obtain ⟨v, hv⟩ : ∃ v, squeezeAxes grid values = .ok v := by
    rcases hsq : squeezeAxes grid values with e | v
    · simp [fft, hsq, bind, Except.bind] at h
    · exact ⟨v, rfl⟩
  rw [fft_eq false iso hv] at h
  rw [fft_eq true false hv] at hq
  have h1 : proper grid ≠ [] := by
    intro h0
    simp [core, h0, Except.map] at h
  have h3 : (proper grid).length ≤ 3 := by
    by_contra hc
    simp [core, h1, show 3 < (proper grid).length by omega, Except.map] at h
  rw [core_amplitudes v iso h1 h3] at h
  rw [core_psd v h1 h3] at hq
  simp only [Except.map, Except.ok.injEq, Prod.mk.injEq, Out.amplitudes.injEq, Out.power.injEq] at h hq
  have hl : 2 < g.length := by
    have := List.mem_of_getElem? hg
    simp [proper] at this; omega
  have hsp : 0 < spacing g := by
    simp only [List.getD_eq_getElem?_getD] at hasc
    simp only [spacing]; linarith
  have hd : 0 < (g.length : ℝ) * spacing g := by
    have : (0 : ℝ) < g.length := by exact_mod_cast (by omega : 0 < g.length)
    positivity
  have htop := fftfreq_get g.length (spacing g) (g.length / 2) (by omega)
  rw [if_pos (by omega)] at htop
  refine ⟨axisFreq g, (axisFreq g).take ((axisFreq g).length / 2), ((g.length / 2 : Nat) : ℝ) / (g.length * spacing g),
    by rw [← h.1.1, List.getElem?_map, hg]; rfl, by rw [← hq.1.1, List.getElem?_map, List.getElem?_map, hg]; rfl,
    List.mem_of_getElem? htop, ?_, ?_⟩
  · apply div_pos _ hd
    exact_mod_cast (by omega : 0 < g.length / 2)
  · intro hm
    obtain ⟨i, hi⟩ := List.getElem?_of_mem hm
    rw [List.getElem?_take] at hi
    split at hi
    · next hlt =>
      have hlt' : i < g.length / 2 := by simpa [axisFreq, fftfreq_length] using hlt
      have := fftfreq_get g.length (spacing g) i (by omega)
      rw [if_pos (by omega)] at this
      rw [axisFreq, this, Option.some_inj, div_left_inj' hd.ne'] at hi
      have : i = g.length / 2 := by exact_mod_cast hi
      omega
    · cases hi

/-- Four points, or three. -/
theorem energyEx_points (n : Nat) (hn : 2 < n) :
    PointData [(List.range n).map fun i : Nat => (i : ℝ)] [n] ∧
      proper [(List.range n).map fun i : Nat => (i : ℝ)] = [(List.range n).map fun i : Nat => (i : ℝ)] := by
  refine ⟨.cons (Or.inr ⟨by simpa using hn, by simp, 0, 1, one_ne_zero, ?_⟩) .nil, by simp [proper, hn]⟩
  intro i x h
  simp only [List.getElem?_map, Option.map_eq_some_iff] at h
  obtain ⟨j, hj, rfl⟩ := h
  obtain ⟨hlt, rfl⟩ := List.getElem?_eq_some_iff.1 hj
  simp

/-- The hypotheses of C141 are met, with an even number of points. -/
example : PointData [(List.range 4).map fun i : Nat => (i : ℝ)] [4] ∧
    (⟨[4, 1], [1, 5, 0, 2]⟩ : NArr ℝ).shape = [4] ++ [1] ∧ (⟨[4, 1], [1, 5, 0, 2]⟩ : NArr ℝ).WF ∧
    ∀ g ∈ proper [(List.range 4).map fun i : Nat => (i : ℝ)], g.length % 2 = 0 ∧ g.getD 0 0 < g.getD 1 0 := by
  refine ⟨(energyEx_points 4 (by decide)).1, rfl, rfl, ?_⟩
  rw [(energyEx_points 4 (by decide)).2]
  simp

/-- Those of its failure are met with three points. -/
example : PointData [(List.range 3).map fun i : Nat => (i : ℝ)] [3] ∧
    ∃ g, (proper [(List.range 3).map fun i : Nat => (i : ℝ)])[0]? = some g ∧ g.length % 2 = 1 ∧ g.getD 0 0 < g.getD 1 0 := by
  refine ⟨(energyEx_points 3 (by decide)).1, ?_⟩
  rw [(energyEx_points 3 (by decide)).2]
  simp

end Pgkyl.Spectral
