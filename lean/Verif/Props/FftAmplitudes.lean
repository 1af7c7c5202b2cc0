import Verif.Props.FftCommand
import Verif.Spec.FftAmplitudes
/-! # C111: the `fft` command without `--psd` -/

namespace Pgkyl
open Spec FftCmd Spectral Space

theorem fftCmdC_eq (iso : Bool) (use tag : Option Tag) (label : List Char) (s : Space ℂ) :
    fftCmdC iso use tag label s =
      Space.iterate id use false true .none (fun s _ i => changeBody (effectC iso tag label) s i) s := by
  unfold fftCmdC
  congr 1
  funext s _ i
  unfold changeBody
  cases s.heap[i]? <;> rfl

theorem transformC_get (values : NArr ℂ) {shape : List Nat} {nc : Nat} (hs : values.shape = shape ++ [nc])
    {k : List Nat} {c : Nat} (hk : inRange shape k = true) (hc : c < nc) :
    (transformC values).get? (k ++ [c]) = some (dftAt shape (fun j => (values.get? (j ++ [c])).getD 0) k) := by
  have hr : inRange values.shape (k ++ [c]) = true := by
    rw [hs, inRange_iff_forall₂] at *
    exact List.rel_append hk (List.Forall₂.cons hc .nil)
  rw [transformC, NArr.ofFn_get? (fun _ _ => rfl) hr]
  simp [hs]

theorem axisFreq_band {g : List ℝ} (hl : 2 < g.length) (hu : EquallySpaced g) :
    (axisFreq g).getD 0 1 = 0 ∧ ∀ q ∈ axisFreq g, |q * (g.getD 1 0 - g.getD 0 0)| ≤ 1 / 2 := by
  obtain ⟨x0, dx, hdx, hx⟩ := hu
  have hsp : g.getD 1 0 - g.getD 0 0 = dx := by
    have := spacing_eq hx hl
    simpa [spacing, List.getD_eq_getElem?_getD] using this
  have hn : (0 : ℝ) < g.length := by exact_mod_cast (by omega : 0 < g.length)
  constructor
  · rw [List.getD_eq_getElem?_getD, axisFreq, fftfreq_get _ _ 0 (by omega), if_pos (by omega)]; simp
  · intro q hq
    rw [hsp]
    rw [axisFreq, spacing_eq hx hl, fftfreq, List.mem_map] at hq
    obtain ⟨k, hk, rfl⟩ := hq
    have hk : k < g.length := by simpa using hk
    split
    · next h =>
      have e : (k : ℝ) / (g.length * dx) * dx = k / g.length := by field_simp
      have h2 : 2 * (k : ℝ) + 1 ≤ g.length := by exact_mod_cast (by omega : 2 * k + 1 ≤ g.length)
      rw [e, abs_of_nonneg (by positivity), div_le_div_iff₀ hn (by norm_num)]
      linarith
    · next h =>
      have e : ((k : ℝ) - g.length) / (g.length * dx) * dx = -((g.length - k) / g.length) := by field_simp; ring
      have h2 : (g.length : ℝ) ≤ 2 * k := by exact_mod_cast (by omega : g.length ≤ 2 * k)
      have h3 : (k : ℝ) ≤ g.length := by exact_mod_cast hk.le
      rw [e, abs_neg, abs_of_nonneg (div_nonneg (by linarith) hn.le), div_le_div_iff₀ hn (by norm_num)]
      linarith

theorem realAxis_re (grid : List (List ℝ)) :
    ((grid.map reals).map fun (a : NArr ℂ) => a.data.map Complex.re) = grid := by
  rw [List.map_map]
  conv_rhs => rw [← List.map_id grid]
  refine List.map_congr_left fun g _ => ?_
  simp [reals, NArr.ofList, Function.comp_def]

/-- The amplitudes of data at points. -/
theorem coreC_ok {d : GData ℂ} {grid : List (List ℝ)} {dims : List Nat} {values : NArr ℂ} {nc : Nat}
    (h : HoldsPointsC d grid dims values nc) :
    ∃ v f p, squeezeAxes grid values = .ok v ∧ coreC (popAxes grid) v = .ok (f, p) ∧
      ∀ e : GData ℂ, ∃ r, e.push (f.map realAxis) p = .ok r ∧ r.tag = e.tag ∧ r.status = e.status ∧
        HoldsAmplitudes grid dims values nc r := by
  obtain ⟨v, hv, hvs, hvw, hvg⟩ := squeezeAxes_ok h.points h.shape h.wf
  obtain ⟨hl, hu⟩ := proper_spaced h.points
  have hpop : popAxes grid = proper grid := rfl
  refine ⟨v, (proper grid).map axisFreq, transformC v, hv, ?_, fun e => ?_⟩
  · unfold coreC
    rw [hpop, if_neg (by simpa using h.directions), if_neg (Nat.not_lt.mpr h.three)]
  have hlen : ((proper grid).map axisFreq).map List.length = (proper grid).map List.length := by
    rw [List.map_map]; apply List.map_congr_left; intro g _; simp [axisFreq, fftfreq_length]
  have hts : (transformC v).shape = (proper grid).map List.length ++ [nc] := hvs ▸ rfl
  have hne : ∀ g ∈ ((proper grid).map axisFreq).map realAxis, g.data ≠ [] := by
    intro g hg
    simp only [List.map_map, List.mem_map, Function.comp_apply] at hg
    obtain ⟨g, hg, rfl⟩ := hg
    have := hl g hg
    simp only [realAxis, NArr.ofList, ne_eq, List.map_eq_nil_iff]
    intro h0
    have hl0 : (axisFreq g).length = g.length := by simp [axisFreq, fftfreq_length]
    rw [h0] at hl0
    simp at hl0
    omega
  have hd : (transformC v).shape.length - 1 ≤ (((proper grid).map axisFreq).map realAxis).length := by
    rw [hts]; simp
  obtain ⟨l, hl'⟩ := Collect.minima_ok hne hd
  obtain ⟨u, hu'⟩ := Collect.maxima_ok hne hd
  have hp := GData.push_ok (d := e) (nc := nc) (by rw [hts]; simp) hl' hu'
  refine ⟨_, hp, rfl, rfl, (proper grid).map axisFreq,
    fun c k => dftAt ((proper grid).map List.length) (fun j => (v.get? (j ++ [c])).getD 0) k, ⟨hlen, ?_, ?_⟩, rfl,
    transformC v, rfl, NArr.ofFn_WF fun _ _ => rfl, hts, fun k c hk hc => transformC_get v hvs hk hc⟩
  · rw [List.forall₂_map_left_iff, List.forall₂_same]
    exact fun g hg => axisFreq_band (hl g hg) (hu g hg)
  · intro c hc j hj
    obtain ⟨x, hx⟩ := Option.isSome_iff_exists.mp
      (NArr.get?_isSome hvw (idx := j ++ [c]) (by rw [hvs]; exact inRange_snoc_iff.mpr ⟨hj, hc⟩))
    refine ⟨x, by rw [← hvg j c hj]; exact hx, ?_⟩
    have hd := sum_dft ((proper grid).map List.length) (fun j => (v.get? (j ++ [c])).getD 0) j hj
    simp only [hx, Option.getD_some] at hd
    rw [← hd]
    congr 1
    apply List.map_congr_left
    intro k hk
    rw [mem_indices] at hk
    rw [gridWave_eq (proper grid) j k hl hu hj hk]

/-- What is left of the source: the grid without the collapsed directions. -/
noncomputable def afterFftC (d : GData ℂ) : GData ℂ :=
  { d with grid := d.grid.map fun g => (proper (g.map fun (a : NArr ℂ) => a.data.map Complex.re)).map reals }

theorem effectC_tag {d : GData ℂ} {grid : List (List ℝ)} {dims : List Nat} {values : NArr ℂ} {nc : Nat}
    (h : HoldsPointsC d grid dims values nc) (iso : Bool) (c : Char) (cs label : List Char) :
    ∃ r, effectC iso (some (c :: cs)) label d = .ok (afterFftC d, [r]) ∧ r.tag = c :: cs ∧ r.status = true ∧
      HoldsAmplitudes grid dims values nc r := by
  obtain ⟨v, f, p, h1, h2, h3⟩ := coreC_ok h
  obtain ⟨r, hr, ht, hs, hp⟩ := h3 (GData.new (c :: cs) label d.ctx)
  refine ⟨r, ?_, ht, hs, hp⟩
  unfold effectC
  rw [h.hgrid, h.hvalues]
  simp only [realAxis_re, h1, h2, hr, bind, Except.bind, pure, Except.pure]
  simp only [afterFftC, h.hgrid, h.hvalues, Option.map_some, realAxis_re]
  rfl

theorem effectC_in_place {d : GData ℂ} {grid : List (List ℝ)} {dims : List Nat} {values : NArr ℂ} {nc : Nat}
    (h : HoldsPointsC d grid dims values nc) {iso : Bool} (hiso : iso = false ∨ (proper grid).length = 1) (label : List Char) :
    ∃ r, effectC iso none label d = .ok (r, []) ∧ r.tag = d.tag ∧ HoldsAmplitudes grid dims values nc r := by
  obtain ⟨v, f, p, h1, h2, h3⟩ := coreC_ok h
  obtain ⟨r, hr, ht, hs, hp⟩ := h3 { d with grid := some ((proper grid).map reals) }
  refine ⟨r, ?_, ht, hp⟩
  have ho : overwritten iso (popAxes grid).length (f.map realAxis) p { d with grid := some ((proper grid).map reals) } = .ok r := by
    unfold overwritten
    rw [if_pos (show (popAxes grid).length = 1 ∨ iso = false from hiso.symm), hr]
  unfold effectC
  rw [h.hvalues] at ho
  rw [h.hgrid, h.hvalues]
  simp only [realAxis_re, h1, h2, bind, Except.bind, pure, Except.pure]
  have e : (popAxes grid).map realAxis = (proper grid).map reals := rfl
  simp only [e, ho]

theorem effectC_iso {d : GData ℂ} {grid : List (List ℝ)} {dims : List Nat} {values : NArr ℂ} {nc : Nat}
    (h : HoldsPointsC d grid dims values nc) (h2 : 2 ≤ (proper grid).length) (label : List Char) :
    effectC true none label d = .ok (afterFftC d, []) := by
  obtain ⟨v, f, p, h1, h2', -⟩ := coreC_ok h
  have hpop : (popAxes grid).length = (proper grid).length := rfl
  unfold effectC
  rw [h.hgrid, h.hvalues]
  simp only [realAxis_re, h1, h2', bind, Except.bind, pure, Except.pure]
  unfold overwritten
  rw [if_neg (by rw [hpop]; simp; omega)]
  simp only [afterFftC, h.hgrid, h.hvalues, Option.map_some, realAxis_re]
  rfl

theorem overwritten_status {iso : Bool} {n : Nat} {f : List (NArr ℂ)} {p : NArr ℂ} {d r : GData ℂ}
    (h : overwritten iso n f p d = .ok r) : r.status = d.status := by
  unfold overwritten at h
  split at h
  · exact (Cmd.push_tag h).2.1
  · rw [Except.ok.inj h]

theorem effectC_status {iso : Bool} {tag : Option Tag} {label : List Char} (d : GData ℂ) (e : GData ℂ × List (GData ℂ))
    (h : effectC iso tag label d = .ok e) : e.1.status = d.status ∧ ∀ r ∈ e.2, tag = some r.tag := by
  unfold effectC at h
  split at h
  · rename_i g v hg hv
    simp only [bind, Except.bind, pure, Except.pure] at h
    cases h1 : squeezeAxes (g.map fun (a : NArr ℂ) => a.data.map Complex.re) v with
    | error e => rw [h1] at h; cases h
    | ok v' =>
      rw [h1] at h
      simp only at h
      cases h2 : coreC (popAxes (g.map fun (a : NArr ℂ) => a.data.map Complex.re)) v' with
      | error e => rw [h2] at h; cases h
      | ok fp =>
        rw [h2] at h
        simp only at h
        split at h
        · rename_i c cs
          cases h3 : (GData.new (c :: cs) label d.ctx).push (fp.1.map realAxis) fp.2 with
          | error e => rw [h3] at h; cases h
          | ok r =>
            rw [h3] at h
            cases h
            refine ⟨rfl, fun r' hr' => ?_⟩
            simp only [List.mem_singleton] at hr'
            subst hr'
            rw [(Cmd.push_tag h3).1]; rfl
        · revert h
          generalize hs : ({ d with grid := some _ } : GData ℂ) = src
          cases h3 : overwritten iso _ _ _ src with
          | error e => intro h; cases h
          | ok r =>
            intro h
            cases h
            exact ⟨by rw [overwritten_status h3, ← hs], by simp⟩
  · cases h

/-- C111 without `--psd`: `fft --tag T` adds for every active dataset of the chosen tags, in turn, one dataset with the
amplitudes of its modes, for data at equally spaced points.  The source loses the collapsed directions of its grid; everything
else is as it was. -/
theorem C111_amplitudes_partial {s : Space ℂ} (hr : Reachable s) {use : Option Tag} {ts : List Tag} (hts : Requests s use ts)
    (hkeys : ∀ t ∈ ts, t ∈ s.dict.map Prod.fst) (hnd : ts.Nodup) {T : Tag} (hT : T ≠ []) (hlater : T ∉ ts.tail)
    (iso : Bool) (label : List Char)
    (hd : ∀ id ∈ visited s ts, ∀ d, s.heap[id]? = some d → ∃ grid dims values nc, HoldsPointsC d grid dims values nc) :
    ∃ s' after made, fftCmdC iso use (some T) label s = .ok s' ∧ ChangesAndAdds s (visited s ts) after made s' ∧
      ∀ id ∈ visited s ts, ∀ d, s.heap[id]? = some d →
        (∀ grid, d.grid = some (grid.map reals) → after id = { d with grid := some ((proper grid).map reals) }) ∧
        ∃ r, made id = [r] ∧ r.tag = T ∧ r.status = true ∧
          ∀ grid dims values nc, HoldsPointsC d grid dims values nc → HoldsAmplitudes grid dims values nc r := by
  rw [← hts.tagsOf_eq] at *
  cases T with
  | nil => exact absurd rfl hT
  | cons c cs =>
    let res : Nat → GData ℂ × List (GData ℂ) := fun id => match s.heap[id]? with
      | some d => ((effectC iso (some (c :: cs)) label d).toOption).getD (d, [])
      | none => ({}, [])
    obtain ⟨s', h1, h2⟩ := Space.iterate_changes (Space.reachable_inv hr) hkeys hnd (effectC iso (some (c :: cs)) label)
      (fun id => (res id).1) (fun id => (res id).2) (fun d e h => (effectC_status d e h).1) (by
        intro d e h r hr
        have := (effectC_status d e h).2 r hr
        rw [← Option.some.inj this]; exact hlater) (by
        intro id hid d hdd
        obtain ⟨grid, dims, values, nc, hp⟩ := hd id hid d hdd
        obtain ⟨r, hr, -⟩ := effectC_tag hp iso c cs label
        simp only [res, hdd, hr]
        rfl)
    refine ⟨s', _, _, (fftCmdC_eq ..).trans h1, h2, fun id hid d hdd => ?_⟩
    obtain ⟨grid, dims, values, nc, hp⟩ := hd id hid d hdd
    obtain ⟨r, hr, ht, hs, hpow⟩ := effectC_tag hp iso c cs label
    have hres : res id = (afterFftC d, [r]) := by simp only [res, hdd, hr]; rfl
    refine ⟨fun grid' hg' => ?_, r, by simp only [hres], ht, hs, fun grid' dims' values' nc' hp' => ?_⟩
    · simp only [hres, afterFftC, hg', Option.map_some, realAxis_re]
    · obtain ⟨r', hr', -, -, hpow'⟩ := effectC_tag hp' iso c cs label
      rw [hr] at hr'
      simp only [Except.ok.injEq, Prod.mk.injEq, List.cons.injEq, and_true, true_and] at hr'
      rw [hr']; exact hpow'

/-- C111 without `--psd` and without a tag: the amplitudes take the place of the data. -/
theorem C111_amplitudes_in_place {s : Space ℂ} (hr : Reachable s) {use : Option Tag} {ts : List Tag} (hts : Requests s use ts)
    (hkeys : ∀ t ∈ ts, t ∈ s.dict.map Prod.fst) (hnd : ts.Nodup) (label : List Char)
    (hd : ∀ id ∈ visited s ts, ∀ d, s.heap[id]? = some d → ∃ grid dims values nc, HoldsPointsC d grid dims values nc) :
    ∃ s' after, fftCmdC false use none label s = .ok s' ∧ ChangesAndAdds s (visited s ts) after (fun _ => []) s' ∧
      ∀ id ∈ visited s ts, ∀ d, s.heap[id]? = some d → (after id).tag = d.tag ∧ (after id).status = d.status ∧
        ∀ grid dims values nc, HoldsPointsC d grid dims values nc → HoldsAmplitudes grid dims values nc (after id) := by
  rw [← hts.tagsOf_eq] at *
  have hi := Space.reachable_inv hr
  let res : Nat → GData ℂ × List (GData ℂ) := fun id => match s.heap[id]? with
    | some d => ((effectC false none label d).toOption).getD (d, [])
    | none => ({}, [])
  obtain ⟨s', h1, h2⟩ := Space.iterate_changes hi hkeys hnd (effectC false none label)
    (fun id => (res id).1) (fun _ => []) (fun d e h => (effectC_status d e h).1) (by
      intro d e h r hr
      have := (effectC_status d e h).2 r hr
      cases this) (by
      intro id hid d hdd
      obtain ⟨grid, dims, values, nc, hp⟩ := hd id hid d hdd
      obtain ⟨r, hr, -⟩ := effectC_in_place hp (Or.inl rfl) label
      simp only [res, hdd, hr]
      rfl)
  refine ⟨s', _, (fftCmdC_eq ..).trans h1, h2, fun id hid d hdd => ?_⟩
  obtain ⟨grid, dims, values, nc, hp⟩ := hd id hid d hdd
  obtain ⟨r, hr, ht, hpow⟩ := effectC_in_place hp (Or.inl rfl) label
  have hres : res id = (r, []) := by simp only [res, hdd, hr]; rfl
  simp only [hres]
  refine ⟨ht, (effectC_status d _ hr).1, fun grid' dims' values' nc' hp' => ?_⟩
  obtain ⟨r', hr', -, hpow'⟩ := effectC_in_place hp' (Or.inl rfl) label
  rw [hr] at hr'
  simp only [Except.ok.injEq, Prod.mk.injEq, and_true] at hr'
  rw [hr']; exact hpow'

/-- C111 fails for `fft --iso` without `--psd` and without a tag: data with two or three directions keep their values, only the
collapsed directions of their grids are lost. -/
theorem C111_iso_alone_fails {s : Space ℂ} (hr : Reachable s) {use : Option Tag} {ts : List Tag} (hts : Requests s use ts)
    (hkeys : ∀ t ∈ ts, t ∈ s.dict.map Prod.fst) (hnd : ts.Nodup) (label : List Char)
    (hd : ∀ id ∈ visited s ts, ∀ d, s.heap[id]? = some d → ∃ grid dims values nc, HoldsPointsC d grid dims values nc ∧
      2 ≤ (proper grid).length) :
    ∃ s' after, fftCmdC true use none label s = .ok s' ∧ ChangesAndAdds s (visited s ts) after (fun _ => []) s' ∧
      ∀ id ∈ visited s ts, ∀ d, s.heap[id]? = some d →
        ∀ grid, d.grid = some (grid.map reals) → after id = { d with grid := some ((proper grid).map reals) } := by
  rw [← hts.tagsOf_eq] at *
  have hi := Space.reachable_inv hr
  let res : Nat → GData ℂ := fun id => match s.heap[id]? with
    | some d => afterFftC d
    | none => {}
  obtain ⟨s', h1, h2⟩ := Space.iterate_changes hi hkeys hnd (effectC true none label)
    res (fun _ => []) (fun d e h => (effectC_status d e h).1) (by
      intro d e h r hr
      have := (effectC_status d e h).2 r hr
      cases this) (by
      intro id hid d hdd
      obtain ⟨grid, dims, values, nc, hp, h2⟩ := hd id hid d hdd
      simp only [res, hdd, effectC_iso hp h2 label])
  refine ⟨s', _, (fftCmdC_eq ..).trans h1, h2, fun id hid d hdd grid hg => ?_⟩
  simp only [res, hdd, afterFftC, hg, Option.map_some, realAxis_re]

/-! Non-vacuity: three points of complex data with a collapsed direction, and a square of points. -/
namespace FftAmplitudesEx

theorem three : EquallySpaced [0, 1, 2] := by
  refine ⟨0, 1, one_ne_zero, ?_⟩
  intro i x h
  match i, h with
  | 0, h => simp at h; simp [← h]
  | 1, h => simp at h; simp [← h]
  | 2, h => simp at h; simp [← h]
  | i + 3, h => simp at h

noncomputable def line : GData ℂ :=
  { tag := "f".toList, grid := some ([[0, 1, 2], [0, 1]].map reals), values := some ⟨[3, 1, 1], [5, Complex.I, 7]⟩ }

theorem line_points : HoldsPointsC line [[0, 1, 2], [0, 1]] [3, 1] ⟨[3, 1, 1], [5, Complex.I, 7]⟩ 1 :=
  ⟨rfl, rfl, .cons (Or.inr ⟨by decide, rfl, three⟩) (.cons (Or.inl ⟨by decide, rfl⟩) .nil), rfl, rfl,
    by simp [proper], by simp [proper]⟩

noncomputable def square : GData ℂ :=
  { tag := "f".toList, grid := some ([[0, 1, 2], [0, 1, 2]].map reals),
    values := some ⟨[3, 3, 1], [1, 2, 3, 4, 5, 6, 7, 8, 9]⟩ }

theorem square_points : HoldsPointsC square [[0, 1, 2], [0, 1, 2]] [3, 3] ⟨[3, 3, 1], [1, 2, 3, 4, 5, 6, 7, 8, 9]⟩ 1 ∧
    2 ≤ (proper [[0, 1, 2], [0, 1, 2]]).length :=
  ⟨⟨rfl, rfl, .cons (Or.inr ⟨by decide, rfl, three⟩) (.cons (Or.inr ⟨by decide, rfl, three⟩) .nil), rfl, rfl,
    by simp [proper], by simp [proper]⟩, by simp [proper]⟩

example : let s := perform [.add line]
    ∃ s' after made, fftCmdC false (some "f".toList) (some "a".toList) [] s = .ok s' ∧
      ChangesAndAdds s [0] after made s' ∧ ∃ r, made 0 = [r] ∧
        HoldsAmplitudes [[0, 1, 2], [0, 1]] [3, 1] ⟨[3, 1, 1], [5, Complex.I, 7]⟩ 1 r := by
  intro s
  obtain ⟨s', after, made, h1, h2, h3⟩ := C111_amplitudes_partial (s := s) (Space.reachable_perform _)
    (.listed (ts := ["f".toList]) (by decide) (by decide)) (fun t ht => ht) (by simp) (T := "a".toList) (by decide) (by simp)
    false [] (by
      intro id hid d hdd
      have h0 : visited s ["f".toList] = [0] := rfl
      rw [h0, List.mem_singleton] at hid
      subst hid
      have : d = line := (Option.some.inj hdd).symm
      subst this
      exact ⟨_, _, _, _, line_points⟩)
  obtain ⟨-, r, hr, -, -, hp⟩ := h3 0 (by show 0 ∈ [0]; simp) line rfl
  exact ⟨s', after, made, h1, h2, r, hr, hp _ _ _ _ line_points⟩

end FftAmplitudesEx
end Pgkyl
