import Verif.Lemmas.Spectral
import Verif.Props.PlotData
import Verif.Props.Adios
import Mathlib.Tactic.NormNum
/-!
# C70: Fourier transforms

`fft` returns frequencies and amplitudes that together reproduce the data.
-/

namespace Pgkyl.Spectral
open Pgkyl Pgkyl.Spec

theorem fftfreq_length (n : Nat) (d : ℝ) : (fftfreq n d).length = n := by simp [fftfreq]

theorem fftfreq_get (n : Nat) (d : ℝ) (k : Nat) (hk : k < n) :
    (fftfreq n d)[k]? = some (if k < (n + 1) / 2 then (k : ℝ) / (n * d) else ((k : ℝ) - n) / (n * d)) := by
  simp [fftfreq, hk]

theorem spacing_eq {g : List ℝ} {x0 dx : ℝ} (h : ∀ (i : Nat) (x : ℝ), g[i]? = some x → x = x0 + i * dx)
    (hl : 2 < g.length) : spacing g = dx := by
  have h0 : g[0]? = some g[0] := List.getElem?_eq_getElem (by omega)
  have h1 : g[1]? = some g[1] := List.getElem?_eq_getElem (by omega)
  simp only [spacing, h0, h1, Option.getD_some]
  rw [h 0 _ h0, h 1 _ h1]; push_cast; ring

/-- On one axis, the wave of the `k`-th frequency at the `j`-th point. -/
theorem wave_axis {g : List ℝ} (hu : EquallySpaced g) (hl : 2 < g.length) {k j : Nat}
    (hk : k < g.length) (hj : j < g.length) :
    wave ((axisFreq g).getD k 0) (g.getD j 0 - g.getD 0 0) = cis ((j : ℝ) * k / g.length) := by
  obtain ⟨x0, dx, hdx, h⟩ := hu
  have hsp := spacing_eq h hl
  have hn : (g.length : ℝ) ≠ 0 := by have : 0 < g.length := by omega
                                     positivity
  have hj' : g[j]? = some g[j] := List.getElem?_eq_getElem hj
  have h0 : g[0]? = some g[0] := List.getElem?_eq_getElem (by omega)
  have hx : g.getD j 0 - g.getD 0 0 = j * dx := by
    simp only [List.getD_eq_getElem?_getD, hj', h0, Option.getD_some]
    rw [h j _ hj', h 0 _ h0]; push_cast; ring
  have hf := fftfreq_get g.length (spacing g) k hk
  rw [hx, List.getD_eq_getElem?_getD, axisFreq, hf, hsp, Option.getD_some]
  split
  · simp only [wave, cis]; congr 1
    have : (k : ℝ) / (g.length * dx) * (j * dx) = j * k / g.length := by field_simp
    rw [← Complex.ofReal_mul, this]
  · have e : ((k : ℝ) - g.length) / (g.length * dx) * (j * dx) = j * k / g.length + ((-(j : ℤ) : ℤ) : ℝ) := by
      push_cast; field_simp; ring
    have hc := cis_add ((j : ℝ) * k / g.length) ((-(j : ℤ) : ℤ) : ℝ)
    rw [cis_int, mul_one, ← e] at hc
    rw [← hc]; simp only [wave, cis]; congr 1; push_cast; ring

theorem gridWave_eq : ∀ (grid : List (List ℝ)) (j k : List Nat), (∀ g ∈ grid, 2 < g.length) →
    (∀ g ∈ grid, EquallySpaced g) → inRange (grid.map List.length) j = true →
    inRange (grid.map List.length) k = true →
    gridWave (grid.map axisFreq) grid k j = cis (phase (grid.map List.length) j k)
  | [], [], [], _, _, _, _ => by simp [gridWave, phase, cis_zero]
  | g :: gs, j :: js, k :: ks, hl, hu, hj, hk => by
    simp only [List.map_cons, inRange, Bool.and_eq_true, decide_eq_true_eq] at hj hk
    simp only [List.map_cons, gridWave, phase, cis_add]
    rw [wave_axis (hu g (by simp)) (hl g (by simp)) hk.1 hj.1,
      gridWave_eq gs js ks (fun x hx => hl x (by simp [hx])) (fun x hx => hu x (by simp [hx])) hj.2 hk.2]
  | [], [], _ :: _, _, _, _, h => by simp [inRange] at h
  | [], _ :: _, _, _, _, h, _ => by simp [inRange] at h
  | _ :: _, [], _, _, _, h, _ => by simp [inRange] at h
  | _ :: _, _ :: _, [], _, _, _, h => by simp [inRange] at h

theorem transform_WF (values : NArr ℝ) : (transform values).WF :=
  NArr.ofFn_WF (fun _ _ => rfl)

theorem transform_get (values : NArr ℝ) {shape : List Nat} {nc : Nat} (hs : values.shape = shape ++ [nc])
    {k : List Nat} {c : Nat} (hk : inRange shape k = true) (hc : c < nc) :
    (transform values).get? (k ++ [c]) = some (dftAt shape
      (fun j => (((values.get? (j ++ [c])).getD 0 : ℝ) : ℂ)) k) := by
  have hr : inRange values.shape (k ++ [c]) = true := by
    rw [hs, inRange_iff_forall₂] at *
    exact List.rel_append hk (List.Forall₂.cons hc .nil)
  rw [transform, NArr.ofFn_get? (fun _ _ => rfl) hr]
  simp [hs]

/-- The data after the collapsed directions are removed. -/
theorem squeezeAxes_ok {F : Type} {grid : List (List ℝ)} {dims : List Nat} {values : NArr F} {nc : Nat}
    (hp : PointData grid dims) (hs : values.shape = dims ++ [nc]) (hw : values.WF) :
    ∃ v, squeezeAxes grid values = .ok v ∧ v.shape = (proper grid).map List.length ++ [nc] ∧ v.WF ∧
      ∀ idx c, inRange ((proper grid).map List.length) idx = true →
        v.get? (idx ++ [c]) = values.get? (fullIndex dims idx ++ [c]) := by
  have hkeep : ∀ {grid : List (List ℝ)} {dims : List Nat}, PointData grid dims →
      (dims.filter fun n => decide (1 < n)) = (proper grid).map List.length ∧
      (((dims ++ [nc]).zip grid).filter fun p => decide (2 < p.2.length)).map (·.1)
        = (proper grid).map List.length ∧
      (((dims ++ [nc]).zip grid).all fun p => decide (2 < p.2.length ∨ p.1 = 1)) = true ∧
      (∀ n ∈ dims, 1 ≤ n) ∧ dims.prod = ((proper grid).map List.length).prod ∧
      ((grid.all fun g => decide (2 < g.length)) = true → dims = (proper grid).map List.length) := by
    intro grid dims hp
    induction hp with
    | nil => simp [proper]
    | @cons g n gs ns h _ ih =>
      obtain ⟨i1, i2, i3, i4, i5, i6⟩ := ih
      rcases h with ⟨hg, rfl⟩ | ⟨hg, rfl, _⟩
      · have hg' : ¬ 2 < g.length := by omega
        have e : proper (g :: gs) = proper gs := by simp [proper, hg']
        rw [e]
        refine ⟨by simpa using i1, by simpa [hg'] using i2, by simpa using i3, ?_, by simpa using i5,
          by simp [hg']⟩
        simpa using i4
      · have e : proper (g :: gs) = g :: proper gs := by simp [proper, hg]
        rw [e]
        refine ⟨by simp [show 1 < g.length by omega, i1], by simpa [hg] using i2, by simpa [hg] using i3, ?_,
          by simp [i5], ?_⟩
        · simp only [List.mem_cons, forall_eq_or_imp]; exact ⟨by omega, i4⟩
        · intro h; simp only [List.all_cons, Bool.and_eq_true] at h; simpa using i6 h.2
  obtain ⟨k1, k2, k3, k4, k5, k6⟩ := hkeep hp
  have hlen : grid.length = dims.length := hp.length_eq
  have hget : ∀ idx c, inRange ((proper grid).map List.length) idx = true →
      (⟨(proper grid).map List.length ++ [nc], values.data⟩ : NArr F).get? (idx ++ [c])
        = values.get? (fullIndex dims idx ++ [c]) := by
    intro idx c hi
    have := squeeze_ravel dims [nc] idx [c] k4 (k1 ▸ hi)
    rw [k1] at this
    simp only [NArr.get?, hs, this.1, this.2]
  have hwf : (⟨(proper grid).map List.length ++ [nc], values.data⟩ : NArr F).WF := by
    simp only [NArr.WF] at hw ⊢
    rw [hw, hs]; simp only [List.prod_append]; rw [k5]
  refine ⟨⟨(proper grid).map List.length ++ [nc], values.data⟩, ?_, rfl, hwf, hget⟩
  unfold squeezeAxes
  split
  · next h =>
    have := k6 h
    rw [this] at hs
    rw [← hs]
  · rw [hs, if_pos k3, k2, hlen]; simp

theorem core_amplitudes {grid : List (List ℝ)} (values : NArr ℝ) (iso : Bool) (h1 : grid ≠ [])
    (h3 : grid.length ≤ 3) :
    core grid values false iso = .ok (.amplitudes (grid.map axisFreq) (transform values)) := by
  have h1' : grid.length ≠ 0 := by simpa using h1
  simp [core, h1, Nat.not_lt.mpr h3]

theorem fft_eq {grid : List (List ℝ)} {values v : NArr ℝ} (psd iso : Bool) (hv : squeezeAxes grid values = .ok v) :
    fft grid values psd iso = (core (proper grid) v psd iso).map fun o => (o, proper grid) := by
  have e : popAxes grid = proper grid := rfl
  simp only [fft, hv, e, bind, Except.bind, pure, Except.pure]
  cases core (proper grid) v psd iso <;> rfl

theorem proper_spaced {grid : List (List ℝ)} {dims : List Nat} (hp : PointData grid dims) :
    (∀ g ∈ proper grid, 2 < g.length) ∧ ∀ g ∈ proper grid, EquallySpaced g := by
  refine ⟨fun g hg => by simp [proper] at hg; omega, ?_⟩
  induction hp with
  | nil => simp [proper]
  | @cons g n gs ns h _ ih =>
    intro x hx
    rcases h with ⟨hg, rfl⟩ | ⟨hg, rfl, hu⟩
    · have e : proper (g :: gs) = proper gs := by simp [proper, show ¬ 2 < g.length by omega]
      exact ih x (e ▸ hx)
    · have e : proper (g :: gs) = g :: proper gs := by simp [proper, hg]
      rw [e, List.mem_cons] at hx
      rcases hx with rfl | hx
      · exact hu
      · exact ih x hx

/-- C70: the frequencies and amplitudes returned by `fft` reproduce the data, in one to three
directions (besides collapsed ones) and for every component: at every point, `N` times the value is the
sum over all modes of the amplitude times the plane wave with the frequencies listed at the same
position of the returned grid.  Data given at equally spaced points; see `C70_nodal_fails` for grids of
cell edges. -/
theorem C70_spectrum_partial (grid : List (List ℝ)) (dims : List Nat) (values : NArr ℝ) (nc : Nat) (iso : Bool)
    (hp : PointData grid dims) (h1 : proper grid ≠ []) (h3 : (proper grid).length ≤ 3)
    (hs : values.shape = dims ++ [nc]) (hw : values.WF) :
    ∃ freq amps, fft grid values false iso = .ok (.amplitudes freq amps, proper grid) ∧
      amps.shape = (proper grid).map List.length ++ [nc] ∧ amps.WF ∧
      freq.map List.length = (proper grid).map List.length ∧
      ∀ c < nc, ∃ a : List Nat → ℂ,
        (∀ k, inRange ((proper grid).map List.length) k = true → amps.get? (k ++ [c]) = some (a k)) ∧
        ∀ j, inRange ((proper grid).map List.length) j = true →
          ∃ x, values.get? (fullIndex dims j ++ [c]) = some x ∧
            (x : ℂ) * (((proper grid).map List.length).prod : ℕ)
              = ((indices ((proper grid).map List.length)).map fun k => a k * gridWave freq (proper grid) k j).sum := by
  obtain ⟨v, hv, hvs, hvw, hvg⟩ := squeezeAxes_ok hp hs hw
  obtain ⟨hl, hu⟩ := proper_spaced hp
  refine ⟨(proper grid).map axisFreq, transform v, ?_, hvs ▸ rfl, transform_WF v, ?_, ?_⟩
  · rw [fft_eq false iso hv, core_amplitudes v iso h1 h3]; rfl
  · rw [List.map_map]; apply List.map_congr_left; intro g _; simp [axisFreq, fftfreq_length]
  intro c hc
  refine ⟨fun k => dftAt ((proper grid).map List.length) (fun j => (((v.get? (j ++ [c])).getD 0 : ℝ) : ℂ)) k,
    fun k hk => transform_get v hvs hk hc, ?_⟩
  intro j hj
  obtain ⟨x, hx⟩ := Option.isSome_iff_exists.mp
    (NArr.get?_isSome hvw (idx := j ++ [c]) (by rw [hvs]; exact inRange_snoc.mpr ⟨hj, hc⟩))
  refine ⟨x, by rw [← hvg j c hj]; exact hx, ?_⟩
  have hd := sum_dft ((proper grid).map List.length) (fun j => (((v.get? (j ++ [c])).getD 0 : ℝ) : ℂ)) j hj
  simp only [hx, Option.getD_some] at hd
  rw [← hd]
  congr 1
  apply List.map_congr_left
  intro k hk
  rw [mem_indices] at hk
  rw [gridWave_eq (proper grid) j k hl hu hj hk]

/-- C70: every frequency lies in the band resolved by the grid, `-1/2 ≤ f Δx < 1/2`. -/
theorem C70_frequencies (grid : List (List ℝ)) (values : NArr ℝ) (iso : Bool) (freq amps g')
    (h : fft grid values false iso = .ok (.amplitudes freq amps, g')) (d : Nat) (g f : List ℝ) (x0 dx : ℝ)
    (hg : (proper grid)[d]? = some g) (hf : freq[d]? = some f)
    (hdx : 0 < dx) (hx : ∀ (i : Nat) (x : ℝ), g[i]? = some x → x = x0 + i * dx) :
    f.length = g.length ∧ f[0]? = some 0 ∧ ∀ q ∈ f, -(1 / 2) ≤ q * dx ∧ q * dx < 1 / 2 := by
  have hl : 2 < g.length := by
    have := List.mem_of_getElem? hg
    simp [proper] at this; omega
  obtain ⟨v, hv⟩ : ∃ v, squeezeAxes grid values = .ok v := by
    rcases hsq : squeezeAxes grid values with e | v
    · simp [fft, hsq, bind, Except.bind] at h
    · exact ⟨v, rfl⟩
  rw [fft_eq false iso hv] at h
  have hfr : freq = (proper grid).map axisFreq := by
    unfold core at h
    simp only [Bool.false_eq_true, if_false] at h
    split at h
    · simp [Except.map] at h
    split at h
    · simp [Except.map] at h
    · simp only [Except.map, Except.ok.injEq, Prod.mk.injEq, Out.amplitudes.injEq] at h
      exact h.1.1.symm
  have hfe : f = axisFreq g := by
    rw [hfr, List.getElem?_map, hg] at hf
    simpa using hf.symm
  subst hfe
  have hn : (0 : ℝ) < g.length := by have : 0 < g.length := by omega
                                     exact_mod_cast this
  refine ⟨fftfreq_length _ _, ?_, ?_⟩
  · rw [axisFreq, fftfreq_get _ _ 0 (by omega), if_pos (by omega)]; simp
  intro q hq
  rw [axisFreq, spacing_eq hx hl, fftfreq, List.mem_map] at hq
  obtain ⟨k, hk, rfl⟩ := hq
  have hk : k < g.length := by simpa using hk
  split
  · next h =>
    have h2 : 2 * k + 1 ≤ g.length := by omega
    have h2' : 2 * (k : ℝ) + 1 ≤ g.length := by exact_mod_cast h2
    have e : (k : ℝ) / (g.length * dx) * dx = k / g.length := by field_simp
    rw [e]
    refine ⟨by have : (0 : ℝ) ≤ k / g.length := by positivity
               linarith, ?_⟩
    rw [div_lt_iff₀ hn]; linarith
  · next h =>
    have h2 : g.length ≤ 2 * k := by omega
    have h2' : (g.length : ℝ) ≤ 2 * k := by exact_mod_cast h2
    have hk' : (k : ℝ) < g.length := by exact_mod_cast hk
    have e : ((k : ℝ) - g.length) / (g.length * dx) * dx = (k - g.length) / g.length := by field_simp
    rw [e]
    refine ⟨?_, ?_⟩
    · rw [le_div_iff₀ hn]; linarith
    · rw [div_lt_iff₀ hn]; linarith

theorem core_psd {grid : List (List ℝ)} (values : NArr ℝ) (h1 : grid ≠ []) (h3 : grid.length ≤ 3) :
    core grid values true false = .ok (.power ((grid.map axisFreq).map fun f => f.take (f.length / 2))
      (if grid.length = 2 then 1 else 0)
      (psdValues ((grid.map List.length).map (· / 2)) (transform values))) := by
  have h1' : grid.length ≠ 0 := by simpa using h1
  simp [core, h1, Nat.not_lt.mpr h3]

/-- The power values. -/
theorem psdValues_get {ft : NArr ℂ} {ns : List Nat} {nc : Nat} (hs : ft.shape = ns ++ [nc]) (hw : ft.WF) :
    (psdValues (ns.map (· / 2)) ft).WF ∧ (psdValues (ns.map (· / 2)) ft).shape = ns.map (· / 2) ++ [nc] ∧
      ∀ k c, inRange (ns.map (· / 2)) k = true → c < nc →
        (psdValues (ns.map (· / 2)) ft).get? (k ++ [c]) = (ft.get? (k ++ [c])).map fun z => ‖z‖ ^ 2 := by
  have hrs : (((ns.map (· / 2)).zip ft.shape).map fun p : Nat × Nat => (0, min p.1 p.2))
      = (ns.map (· / 2)).map fun m => (0, m) := by
    rw [hs]; clear hs hw
    induction ns with
    | nil => rfl
    | cons n ns ih => simp only [List.map_cons, List.cons_append, List.zip_cons_cons, ih]; congr 2; omega
  set rs : List (Nat × Nat) := (ns.map (· / 2)).map (fun m => (0, m)) ++ [(0, nc)] with hrsdef
  have hsl : ft.slice ((ns.map (· / 2)).map fun m => (0, m)) = ft.slice rs := by
    simp [NArr.slice, hs, hrsdef]
  have hrl : rs.length = ft.shape.length := by simp [hrsdef, hs]
  have hle : ∀ p ∈ rs.zip ft.shape, p.1.2 ≤ p.2 := by
    rw [hs, hrsdef, List.zip_append (by simp)]
    intro p hp
    rw [List.mem_append] at hp
    rcases hp with hp | hp
    · rw [List.map_map, List.mem_iff_getElem?] at hp
      obtain ⟨i, hi⟩ := hp
      rw [List.getElem?_zip_eq_some] at hi
      obtain ⟨ha, hb⟩ := hi
      rw [List.getElem?_map, hb] at ha
      simp at ha
      rw [← ha]; simp; omega
    · simp at hp; rw [hp]
  obtain ⟨s1, s2, s3⟩ := Pgkyl.slice_get? hw hrl hle
  have hshape : rs.map (fun r => r.2 - r.1) = ns.map (· / 2) ++ [nc] := by
    simp [hrsdef, Function.comp_def]
  unfold psdValues
  simp only [hrs, hsl]
  refine ⟨NArr.map1_WF s1, by simp only [NArr.map1]; rw [s2, hshape], ?_⟩
  intro k c hk hc
  rw [NArr.map1_get?, s3 _ (by rw [hshape]; exact inRange_snoc.mpr ⟨hk, hc⟩)]
  congr 2
  have hkl : k.length = ns.length := by have := inRange_length hk; simpa using this
  simp only [hrsdef, List.map_append, List.map_map, Function.comp_def, List.map_cons, List.map_nil]
  rw [List.zipWith_append (by simp [hkl])]
  have : List.zipWith (· + ·) k (ns.map fun _ => 0) = k := by
    clear hk hrs hrsdef hrl hle s1 s2 s3 hsl hshape hs
    induction k generalizing ns with
    | nil => simp
    | cons a k ih =>
      cases ns with
      | nil => simp at hkl
      | cons n ns => simp only [List.map_cons, List.zipWith_cons_cons, Nat.add_zero]; rw [ih (by simpa using hkl)]
  rw [this]; simp

/-- C70: with `psd` the returned frequencies are the first half of the frequencies and the values are
the squared magnitudes of the amplitudes at them. -/
theorem C70_psd (grid : List (List ℝ)) (dims : List Nat) (values : NArr ℝ) (nc : Nat)
    (hp : PointData grid dims) (h1 : proper grid ≠ []) (h3 : (proper grid).length ≤ 3)
    (hs : values.shape = dims ++ [nc]) (hw : values.WF) (freq amps)
    (h : fft grid values false false = .ok (.amplitudes freq amps, proper grid)) :
    ∃ zeros power, fft grid values true false
        = .ok (.power (freq.map fun f => f.take (f.length / 2)) zeros power, proper grid) ∧
      power.WF ∧ power.shape = ((proper grid).map fun g => g.length / 2) ++ [nc] ∧
      ∀ k c, inRange ((proper grid).map fun g => g.length / 2) k = true → c < nc →
        ∃ z, amps.get? (k ++ [c]) = some z ∧ power.get? (k ++ [c]) = some (‖z‖ ^ 2) := by
  obtain ⟨v, hv, hvs, hvw, hvg⟩ := squeezeAxes_ok hp hs hw
  rw [fft_eq false false hv, core_amplitudes v false h1 h3] at h
  simp only [Except.map, Except.ok.injEq, Prod.mk.injEq, Out.amplitudes.injEq, and_true] at h
  obtain ⟨rfl, rfl⟩ := h
  have hts : (transform v).shape = (proper grid).map List.length ++ [nc] := hvs ▸ rfl
  obtain ⟨p1, p2, p3⟩ := psdValues_get hts (transform_WF v)
  refine ⟨_, _, by rw [fft_eq true false hv, core_psd v h1 h3]; rfl, p1, by rw [p2, List.map_map]; rfl, ?_⟩
  intro k c hk hc
  have hk' : inRange (((proper grid).map List.length).map (· / 2)) k = true := by rw [List.map_map]; exact hk
  have hkf : inRange ((proper grid).map List.length) k = true := by
    rw [inRange_iff_forall₂] at hk' ⊢
    rw [List.forall₂_map_right_iff] at hk'
    exact hk'.imp fun i n h => by omega
  have ht := transform_get v hvs hkf hc
  exact ⟨_, ht, by rw [p3 k c hk' hc, ht]; rfl⟩

/-- C70 is false of two-dimensional power spectra: the returned grid has a third entry, the integer 0. -/
theorem C70_psd_two_dims_fails (grid : List (List ℝ)) (dims : List Nat) (values : NArr ℝ) (nc : Nat)
    (hp : PointData grid dims) (h2 : (proper grid).length = 2)
    (hs : values.shape = dims ++ [nc]) (hw : values.WF) :
    ∃ freq power, fft grid values true false = .ok (.power freq 1 power, proper grid) ∧ freq.length = 2 := by
  obtain ⟨v, hv, hvs, hvw, hvg⟩ := squeezeAxes_ok hp hs hw
  have h1 : proper grid ≠ [] := by intro h; simp [h] at h2
  exact ⟨_, _, by rw [fft_eq true false hv, core_psd v h1 (by omega), if_pos h2]; rfl, by simp [h2]⟩

/-- C70 is false of data on cells: with the grid of the `n + 1` edges of `n` cells there is one
frequency more than amplitudes, and the frequency listed for the mode of one period over the domain,
which is `1 / (n Δx)`, is `1 / ((n + 1) Δx)`. -/
theorem C70_nodal_fails (g : List ℝ) (values : NArr ℝ) (n nc : Nat) (x0 dx : ℝ) (hn : 2 ≤ n) (hdx : 0 < dx)
    (hg : g.length = n + 1) (hx : ∀ (i : Nat) (x : ℝ), g[i]? = some x → x = x0 + i * dx)
    (hs : values.shape = [n, nc]) (iso : Bool) :
    ∃ freq amps, fft [g] values false iso = .ok (.amplitudes [freq] amps, [g]) ∧
      amps.shape = [n, nc] ∧ freq.length = n + 1 ∧
      freq[1]? = some (1 / (((n : ℝ) + 1) * dx)) ∧ 1 / (((n : ℝ) + 1) * dx) ≠ 1 / (n * dx) := by
  have hpop : proper [g] = [g] := by simp [proper, show 2 < g.length by omega]
  have hv : squeezeAxes [g] values = .ok values := by
    simp [squeezeAxes, show 2 < g.length by omega]
  refine ⟨axisFreq g, transform values, ?_, hs, by rw [axisFreq, fftfreq_length, hg], ?_, ?_⟩
  · rw [fft_eq false iso hv, hpop, core_amplitudes values iso (by simp) (by simp)]; rfl
  · rw [axisFreq, spacing_eq hx (by omega), fftfreq_get _ _ 1 (by omega), if_pos (by omega), hg]
    simp
  · have hn' : (0 : ℝ) < n := by have : 0 < n := by omega
                                 exact_mod_cast this
    intro h
    rw [div_eq_div_iff (by positivity) (by positivity)] at h
    nlinarith

/-- C70: `fft` takes the collapsed directions out of the dataset's own grid list, although its values
keep them. -/
theorem C70_source_grid_fails (grid : List (List ℝ)) (values : NArr ℝ) (psd iso : Bool) (o : Out) (g' : List (List ℝ))
    (hd : ∃ g ∈ grid, g.length ≤ 2) (h : fft grid values psd iso = .ok (o, g')) :
    g'.length < grid.length := by
  obtain ⟨v, hv⟩ : ∃ v, squeezeAxes grid values = .ok v := by
    rcases hsq : squeezeAxes grid values with e | v
    · simp [fft, hsq, bind, Except.bind] at h
    · exact ⟨v, rfl⟩
  rw [fft_eq psd iso hv] at h
  have : g' = proper grid := by
    cases hc : core (proper grid) v psd iso with
    | error e => simp [hc, Except.map] at h
    | ok x => simp [hc, Except.map] at h; exact h.2.symm
  rw [this, proper]
  obtain ⟨g, hg, hl⟩ := hd
  refine lt_of_le_of_ne (List.length_filter_le _ _) fun he => ?_
  rw [List.length_filter_eq_length_iff] at he
  have := he g hg
  simp at this; omega

end Pgkyl.Spectral
