import Verif.Lemmas.FftCommand
import Verif.Props.DataSpace
/-! # C111: the `fft --psd` command -/

namespace Pgkyl
open Spec FftCmd Spectral Space

theorem fftCmd_eq (iso : Bool) (use tag : Option Tag) (label : List Char) (s : Space ℝ) :
    fftCmd iso use tag label s =
      Space.iterate id use false true .none (fun s _ i => changeBody (effect iso tag label) s i) s := by
  unfold fftCmd
  congr 1
  funext s _ i
  unfold changeBody
  cases s.heap[i]? <;> rfl

/-- The power spectrum of data at points. -/
theorem fft_power {d : GData ℝ} {grid : List (List ℝ)} {dims : List Nat} {values : NArr ℝ} {nc : Nat}
    (h : HoldsPoints d grid dims values nc) :
    ∃ out f p freq a, fft grid values true false = .ok (out, proper grid) ∧ pushed out = .ok (f, p) ∧
      IsSpectrum grid dims values nc freq a ∧
      f = ((freq.map fun f => NArr.ofList (f.take (f.length / 2))) ++
        if (proper grid).length = 2 then [⟨[], [0]⟩] else []) ∧ p.WF ∧
      p.shape = ((proper grid).map fun g => g.length / 2) ++ [nc] ∧
      ∀ k c, inRange ((proper grid).map fun g => g.length / 2) k = true → c < nc → p.get? (k ++ [c]) = some (‖a c k‖ ^ 2) := by
  obtain ⟨freq, amps, h1, h2, h3, h4, h5⟩ :=
    C70_spectrum_partial grid dims values nc false h.points h.directions h.three h.shape h.wf
  obtain ⟨zeros, p, q1, q2, q3, q4⟩ := C70_psd grid dims values nc h.points h.directions h.three h.shape h.wf freq amps h1
  have hz : zeros = if (proper grid).length = 2 then 1 else 0 := by
    obtain ⟨v, hv, -⟩ := squeezeAxes_ok h.points h.shape h.wf
    rw [fft_eq true false hv, core_psd v h.directions h.three] at q1
    simp only [Except.map, Except.ok.injEq, Prod.mk.injEq, Out.power.injEq] at q1
    exact q1.1.2.1.symm
  choose a ha using h5
  let a' : Nat → List Nat → ℂ := fun c => if hc : c < nc then a c hc else fun _ => 0
  have ha' : ∀ c (hc : c < nc), a' c = a c hc := fun c hc => by simp [a', hc]
  refine ⟨_, _, _, freq, a', q1, rfl, ⟨h4, fun c hc j hj => ?_⟩, ?_, q2, q3, fun k c hk hc => ?_⟩
  · rw [ha' c hc]; exact (ha c hc).2 j hj
  · rw [hz, List.map_map]
    congr 1
    split <;> rfl
  · obtain ⟨z, hz1, hz2⟩ := q4 k c hk hc
    have hkf : inRange ((proper grid).map List.length) k = true := by
      clear q4 hz1 hz2 ha ha' hz q1 q2 q3 h1 h2 h3 h4
      clear a'
      clear a
      generalize proper grid = G at hk
      induction G generalizing k with
      | nil => simpa using hk
      | cons g G ih =>
        cases k with
        | nil => simp [inRange] at hk
        | cons i k =>
          simp only [List.map_cons, inRange, Bool.and_eq_true, decide_eq_true_eq] at hk ⊢
          exact ⟨by omega, ih k hk.2⟩
    rw [hz2]
    have := (ha c hc).1 k hkf
    rw [hz1] at this
    rw [ha' c hc, Option.some.inj this]

theorem fft_pushes {d : GData ℝ} {grid : List (List ℝ)} {dims : List Nat} {values : NArr ℝ} {nc : Nat}
    (h : HoldsPoints d grid dims values nc) :
    ∃ out f p, fft grid values true false = .ok (out, proper grid) ∧ pushed out = .ok (f, p) ∧
      ∀ e : GData ℝ, ∃ r, e.push f p = .ok r ∧ r.tag = e.tag ∧ r.status = e.status ∧ HoldsPower grid dims values nc r := by
  obtain ⟨out, f, p, freq, a, h1, h2, h3, h4, h5, h6, h7⟩ := fft_power h
  refine ⟨out, f, p, h1, h2, fun e => ?_⟩
  have hlen : freq.length = (proper grid).length := by simpa using congrArg List.length h3.1
  have hne : ∀ g ∈ f, g.data ≠ [] := by
    intro g hg
    rw [h4] at hg
    rcases List.mem_append.1 hg with hg | hg
    · obtain ⟨q, hq, rfl⟩ := List.mem_map.1 hg
      have hql : 2 < q.length := by
        have : q.length ∈ (proper grid).map List.length := h3.1 ▸ List.mem_map_of_mem hq
        obtain ⟨g, hg, hgl⟩ := List.mem_map.1 this
        rw [← hgl]
        exact (proper_spaced h.points).1 g hg
      simp only [NArr.ofList, ne_eq, List.take_eq_nil_iff, not_or]
      exact ⟨by omega, by rintro rfl; simp at hql⟩
    · split at hg
      · simp only [List.mem_singleton] at hg; subst hg; simp
      · simp at hg
  have hd : p.shape.length - 1 ≤ f.length := by
    rw [h6, h4]; simp; omega
  obtain ⟨l, hl⟩ := Collect.minima_ok hne hd
  obtain ⟨u, hu⟩ := Collect.maxima_ok hne hd
  have hp := GData.push_ok (d := e) (nc := nc) (by rw [h6]; simp) hl hu
  exact ⟨_, hp, rfl, rfl, freq, a, h3, by rw [← h4], p, rfl, h5, h6, h7⟩

/-- What is left of the source: the grid without the collapsed directions. -/
def afterFft (d : GData ℝ) : GData ℝ :=
  { d with grid := d.grid.map fun g => (proper (g.map (·.data))).map NArr.ofList }

theorem effect_tag {d : GData ℝ} {grid : List (List ℝ)} {dims : List Nat} {values : NArr ℝ} {nc : Nat}
    (h : HoldsPoints d grid dims values nc) (c : Char) (cs label : List Char) :
    ∃ r, effect false (some (c :: cs)) label d = .ok (afterFft d, [r]) ∧ r.tag = c :: cs ∧ r.status = true ∧
      HoldsPower grid dims values nc r := by
  obtain ⟨out, f, p, h1, h2, h3⟩ := fft_pushes h
  obtain ⟨r, hr, ht, hs, hp⟩ := h3 (GData.new (c :: cs) label d.ctx)
  have e : (grid.map NArr.ofList).map (·.data) = grid := by
    rw [List.map_map]; exact List.map_id grid
  refine ⟨r, ?_, ht, hs, hp⟩
  unfold effect
  rw [h.hgrid, h.hvalues]
  simp only [e, h1, h2, hr, bind, Except.bind, pure, Except.pure]
  simp only [afterFft, h.hgrid, h.hvalues, Option.map_some, e]

theorem effect_in_place {d : GData ℝ} {grid : List (List ℝ)} {dims : List Nat} {values : NArr ℝ} {nc : Nat}
    (h : HoldsPoints d grid dims values nc) (label : List Char) :
    ∃ r, effect false none label d = .ok (r, []) ∧ r.tag = d.tag ∧ HoldsPower grid dims values nc r := by
  obtain ⟨out, f, p, h1, h2, h3⟩ := fft_pushes h
  have e : (grid.map NArr.ofList).map (·.data) = grid := by
    rw [List.map_map]; exact List.map_id grid
  obtain ⟨r, hr, ht, hs, hp⟩ := h3 { d with grid := some ((proper grid).map NArr.ofList) }
  refine ⟨r, ?_, ht, hp⟩
  unfold effect
  rw [h.hvalues] at hr
  rw [h.hgrid, h.hvalues]
  simp only [e, h1, h2, bind, Except.bind, pure, Except.pure]
  simp only [hr]

theorem effect_status {iso : Bool} {tag : Option Tag} {label : List Char} (d : GData ℝ) (e : GData ℝ × List (GData ℝ))
    (h : effect iso tag label d = .ok e) : e.1.status = d.status ∧ ∀ r ∈ e.2, tag = some r.tag := by
  unfold effect at h
  split at h
  · rename_i g v hg hv
    simp only [bind, Except.bind, pure, Except.pure] at h
    cases h1 : fft (g.map (·.data)) v true iso with
    | error e => rw [h1] at h; cases h
    | ok og =>
      rw [h1] at h
      simp only at h
      cases h2 : pushed og.1 with
      | error e => rw [h2] at h; cases h
      | ok fp =>
        rw [h2] at h
        simp only at h
        split at h
        · rename_i c cs
          cases h3 : (GData.new (c :: cs) label d.ctx).push fp.1 fp.2 with
          | error e => rw [h3] at h; cases h
          | ok r =>
            rw [h3] at h
            cases h
            refine ⟨rfl, fun r' hr' => ?_⟩
            simp only [List.mem_singleton] at hr'
            subst hr'
            rw [(Cmd.push_tag h3).1]; rfl
        · cases h3 : ({ d with grid := some (og.2.map NArr.ofList) } : GData ℝ).push fp.1 fp.2 with
          | error e => rw [h3] at h; cases h
          | ok r =>
            rw [h3] at h
            cases h
            exact ⟨(Cmd.push_tag h3).2.1, by simp⟩
  · cases h

/-- C111: `fft --psd --tag T` adds for every active dataset of the chosen tags, in turn, one dataset with the power of its
modes, for data at equally spaced points.  The source loses the collapsed directions of its grid; everything else is as it
was. -/
theorem C111_power_partial {s : Space ℝ} (hr : Reachable s) {use : Option Tag} {ts : List Tag} (hts : Requests s use ts)
    (hkeys : ∀ t ∈ ts, t ∈ s.dict.map Prod.fst) (hnd : ts.Nodup) {T : Tag} (hT : T ≠ []) (hlater : T ∉ ts.tail)
    (label : List Char)
    (hd : ∀ id ∈ visited s ts, ∀ d, s.heap[id]? = some d → ∃ grid dims values nc, HoldsPoints d grid dims values nc) :
    ∃ s' after made, fftCmd false use (some T) label s = .ok s' ∧ ChangesAndAdds s (visited s ts) after made s' ∧
      ∀ id ∈ visited s ts, ∀ d, s.heap[id]? = some d →
        (∀ grid, d.grid = some (grid.map NArr.ofList) → after id = { d with grid := some ((proper grid).map NArr.ofList) }) ∧
        ∃ r, made id = [r] ∧ r.tag = T ∧ r.status = true ∧
          ∀ grid dims values nc, HoldsPoints d grid dims values nc → HoldsPower grid dims values nc r := by
  rw [← hts.tagsOf_eq] at *
  cases T with
  | nil => exact absurd rfl hT
  | cons c cs =>
    let res : Nat → GData ℝ × List (GData ℝ) := fun id => match s.heap[id]? with
      | some d => ((effect false (some (c :: cs)) label d).toOption).getD (d, [])
      | none => ({}, [])
    obtain ⟨s', h1, h2⟩ := Space.iterate_changes (Space.reachable_inv hr) hkeys hnd (effect false (some (c :: cs)) label)
      (fun id => (res id).1) (fun id => (res id).2) (fun d e h => (effect_status d e h).1) (by
        intro d e h r hr
        have := (effect_status d e h).2 r hr
        rw [← Option.some.inj this]; exact hlater) (by
        intro id hid d hdd
        obtain ⟨grid, dims, values, nc, hp⟩ := hd id hid d hdd
        obtain ⟨r, hr, -⟩ := effect_tag hp c cs label
        simp only [res, hdd, hr]
        rfl)
    refine ⟨s', _, _, (fftCmd_eq ..).trans h1, h2, fun id hid d hdd => ?_⟩
    obtain ⟨grid, dims, values, nc, hp⟩ := hd id hid d hdd
    obtain ⟨r, hr, ht, hs, hpow⟩ := effect_tag hp c cs label
    have hres : res id = (afterFft d, [r]) := by simp only [res, hdd, hr]; rfl
    refine ⟨fun grid' hg' => ?_, r, by simp only [hres], ht, hs, fun grid' dims' values' nc' hp' => ?_⟩
    · simp only [hres, afterFft, hg', Option.map_some]
      have e : (grid'.map NArr.ofList).map (·.data) = grid' := by
        rw [List.map_map]; exact List.map_id grid'
      rw [e]
    · obtain ⟨r', hr', -, -, hpow'⟩ := effect_tag hp' c cs label
      rw [hr] at hr'
      simp only [Except.ok.injEq, Prod.mk.injEq, List.cons.injEq, and_true, true_and] at hr'
      rw [hr']; exact hpow'

/-- C111: without a tag the power spectra take the place of the data. -/
theorem C111_in_place_partial {s : Space ℝ} (hr : Reachable s) {use : Option Tag} {ts : List Tag} (hts : Requests s use ts)
    (hkeys : ∀ t ∈ ts, t ∈ s.dict.map Prod.fst) (hnd : ts.Nodup) (label : List Char)
    (hd : ∀ id ∈ visited s ts, ∀ d, s.heap[id]? = some d → ∃ grid dims values nc, HoldsPoints d grid dims values nc) :
    ∃ s' after, fftCmd false use none label s = .ok s' ∧ ChangesAndAdds s (visited s ts) after (fun _ => []) s' ∧
      ∀ id ∈ visited s ts, ∀ d, s.heap[id]? = some d → (after id).tag = d.tag ∧ (after id).status = d.status ∧
        ∀ grid dims values nc, HoldsPoints d grid dims values nc → HoldsPower grid dims values nc (after id) := by
  rw [← hts.tagsOf_eq] at *
  have hi := Space.reachable_inv hr
  let res : Nat → GData ℝ × List (GData ℝ) := fun id => match s.heap[id]? with
    | some d => ((effect false none label d).toOption).getD (d, [])
    | none => ({}, [])
  obtain ⟨s', h1, h2⟩ := Space.iterate_changes hi hkeys hnd (effect false none label)
    (fun id => (res id).1) (fun _ => []) (fun d e h => (effect_status d e h).1) (by
      intro d e h r hr
      have := (effect_status d e h).2 r hr
      cases this) (by
      intro id hid d hdd
      obtain ⟨grid, dims, values, nc, hp⟩ := hd id hid d hdd
      obtain ⟨r, hr, -⟩ := effect_in_place hp label
      simp only [res, hdd, hr]
      rfl)
  refine ⟨s', _, (fftCmd_eq ..).trans h1, h2, fun id hid d hdd => ?_⟩
  obtain ⟨grid, dims, values, nc, hp⟩ := hd id hid d hdd
  obtain ⟨r, hr, ht, hpow⟩ := effect_in_place hp label
  have hres : res id = (r, []) := by simp only [res, hdd, hr]; rfl
  simp only [hres]
  refine ⟨ht, (effect_status d _ hr).1, fun grid' dims' values' nc' hp' => ?_⟩
  obtain ⟨r', hr', -, hpow'⟩ := effect_in_place hp' label
  rw [hr] at hr'
  simp only [Except.ok.injEq, Prod.mk.injEq, and_true] at hr'
  rw [hr']; exact hpow'

/-- C111 fails: the command changes its source: afterwards the grid of a dataset with a collapsed direction has fewer directions
than its values. -/
theorem C111_source_fails {s : Space ℝ} (hr : Reachable s) {use : Option Tag} {ts : List Tag} (hts : Requests s use ts)
    (hkeys : ∀ t ∈ ts, t ∈ s.dict.map Prod.fst) (hnd : ts.Nodup) {T : Tag} (hT : T ≠ []) (hlater : T ∉ ts.tail)
    (label : List Char)
    (hd : ∀ id ∈ visited s ts, ∀ d, s.heap[id]? = some d → ∃ grid dims values nc, HoldsPoints d grid dims values nc)
    {id : Nat} (hid : id ∈ visited s ts) {d : GData ℝ} (hdd : s.heap[id]? = some d) {grid : List (List ℝ)} {dims : List Nat}
    {values : NArr ℝ} {nc : Nat} (hp : HoldsPoints d grid dims values nc) (hc : ∃ g ∈ grid, g.length ≤ 2) :
    ∃ s' d' g, fftCmd false use (some T) label s = .ok s' ∧ s'.heap[id]? = some d' ∧ d'.grid = some g ∧
      d'.values = some values ∧ g.length < values.shape.length - 1 := by
  obtain ⟨s', after, made, h1, ⟨h2, -⟩, h3⟩ := C111_power_partial hr hts hkeys hnd hT hlater label hd
  have h4 := (h3 id hid d hdd).1 grid hp.hgrid
  refine ⟨s', { d with grid := some ((proper grid).map NArr.ofList) }, (proper grid).map NArr.ofList, h1, ?_, rfl, hp.hvalues, ?_⟩
  · have hil := (List.getElem?_eq_some_iff.1 hdd).1
    rw [h2, List.getElem?_append_left (by simpa using hil), List.getElem?_mapIdx, hdd]
    simp only [Option.map_some, hid, if_true, h4]
  · have hlen : grid.length = dims.length := hp.points.length_eq
    have : (proper grid).length < grid.length := by
      obtain ⟨g, hg, hl⟩ := hc
      refine lt_of_le_of_ne (List.length_filter_le _ _) fun he => ?_
      have := List.length_filter_eq_length_iff.1 he g hg
      simp at this
      omega
    rw [hp.shape]
    simp
    omega

/-- C111 fails: the spectrum of data with two directions is stored with three entries in its grid. -/
theorem C111_two_directions_fails {grid : List (List ℝ)} {dims : List Nat} {values : NArr ℝ} {nc : Nat} {d : GData ℝ}
    (hp : HoldsPoints d grid dims values nc) (h2 : (proper grid).length = 2) (c : Char) (cs label : List Char) :
    ∃ r g p, effect false (some (c :: cs)) label d = .ok (afterFft d, [r]) ∧ r.grid = some g ∧ r.values = some p ∧
      g.length = 3 ∧ p.shape.length = 3 := by
  obtain ⟨r, h, -, -, freq, a, h3, h4, p, h5, h6, h7, -⟩ := effect_tag hp c cs label
  have hlen : freq.length = (proper grid).length := by simpa using congrArg List.length h3.1
  exact ⟨r, _, p, h, h4, h5, by simp [h2, hlen], by simp [h7, h2]⟩

/-- A dataset with three points and two values of the same component collapsed in the second direction. -/
noncomputable def fftEx : GData ℝ :=
  { tag := "f".toList, grid := some ([[0, 1, 2], [0, 1]].map NArr.ofList), values := some ⟨[3, 1, 1], [5, 6, 7]⟩ }

theorem fftEx_points : HoldsPoints fftEx [[0, 1, 2], [0, 1]] [3, 1] ⟨[3, 1, 1], [5, 6, 7]⟩ 1 := by
  refine ⟨rfl, rfl, .cons (Or.inr ⟨by decide, rfl, 0, 1, one_ne_zero, ?_⟩) (.cons (Or.inl ⟨by decide, rfl⟩) .nil), rfl, rfl,
    by simp [proper], by simp [proper]⟩
  intro i x h
  match i, h with
  | 0, h => simp at h; simp [← h]
  | 1, h => simp at h; simp [← h]
  | 2, h => simp at h; simp [← h]
  | i + 3, h => simp at h

/-- The hypotheses of C111 are met, those of the failure as well. -/
example : let s := perform [.add fftEx]
    Reachable s ∧ Requests s (some "f".toList) ["f".toList] ∧ (∀ t ∈ ["f".toList], t ∈ s.dict.map Prod.fst) ∧
      visited s ["f".toList] = [0] ∧ s.heap[0]? = some fftEx ∧ ∃ g ∈ ([[0, 1, 2], [0, 1]] : List (List ℝ)), g.length ≤ 2 := by
  intro s
  exact ⟨Space.reachable_perform _, .listed (ts := ["f".toList]) (by decide) (by decide), fun t ht => ht, rfl, rfl, [0, 1], by simp, by simp⟩

end Pgkyl
