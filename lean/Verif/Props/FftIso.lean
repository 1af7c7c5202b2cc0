import Verif.Props.FftCommand
import Verif.Props.SpectralIso
/-! # C111: the `fft --psd --iso` command -/

namespace Pgkyl
open Spec FftCmd Spectral Space

theorem waveLength_half : ∀ (fs : List (List ℝ)) (k : List Nat), inRange (fs.map fun f => f.length / 2) k = true →
    waveLength (fs.map fun f => f.take (f.length / 2)) k = waveLength fs k := by
  intro fs k hk
  unfold waveLength
  congr 2
  induction fs generalizing k with
  | nil => rfl
  | cons f fs ih =>
    cases k with
    | nil => rfl
    | cons i k =>
      simp only [List.map_cons, inRange, Bool.and_eq_true, decide_eq_true_eq] at hk
      simp only [List.map_cons, List.zipWith_cons_cons, ih k hk.2]
      congr 2
      rw [List.getD_eq_getElem?_getD, List.getD_eq_getElem?_getD, List.getElem?_take, if_pos hk.1]

theorem modesIn_half (fs : List (List ℝ)) (n : Nat) (dk : ℝ) (b : Nat) :
    modesIn (fs.map fun f => f.length / 2) (fs.map fun f => f.take (f.length / 2)) n dk b =
      modesIn (fs.map fun f => f.length / 2) fs n dk b := by
  classical
  ext k
  simp only [modesIn, Finset.mem_filter, List.mem_toFinset, mem_indices]
  exact and_congr_right fun hk => by rw [waveLength_half fs k hk]

theorem lowest_half (fs : List (List ℝ)) (hl : ∀ f ∈ fs, 4 ≤ f.length) :
    lowest (fs.map fun f => f.take (f.length / 2)) = lowest fs := by
  unfold lowest
  congr 1
  rw [List.map_map]
  apply List.map_congr_left
  intro f hf
  have := hl f hf
  simp only [Function.comp, List.getD_eq_getElem?_getD, List.getElem?_take]
  rw [if_pos (by omega)]

theorem foldl_max_spec : ∀ (l : List ℝ) (a : ℝ), a ≤ l.foldl max a ∧ (∀ x ∈ l, x ≤ l.foldl max a) ∧
    (l.foldl max a = a ∨ l.foldl max a ∈ l)
  | [], a => by simp
  | x :: l, a => by
    obtain ⟨h1, h2, h3⟩ := foldl_max_spec l (max a x)
    simp only [List.foldl_cons, List.mem_cons]
    refine ⟨(le_max_left _ _).trans h1, ?_, ?_⟩
    · rintro y (rfl | hy)
      · exact (le_max_right _ _).trans h1
      · exact h2 y hy
    · rcases h3 with h3 | h3
      · rw [h3]
        rcases max_choice a x with h | h
        · exact Or.inl h
        · exact Or.inr (Or.inl h)
      · exact Or.inr (Or.inr h3)

theorem lowest_spec {fs : List (List ℝ)} (h : 0 < lowest fs) :
    (∃ f ∈ fs, f.getD 1 0 = lowest fs) ∧ ∀ f ∈ fs, f.getD 1 0 ≤ lowest fs := by
  obtain ⟨-, h2, h3⟩ := foldl_max_spec (fs.map fun f => f.getD 1 0) 0
  have hl : lowest fs = (fs.map fun f => f.getD 1 0).foldl max 0 := rfl
  refine ⟨?_, fun f hf => h2 _ (List.mem_map_of_mem hf)⟩
  rcases h3 with h3 | h3
  · rw [hl, h3] at h; exact absurd h (lt_irrefl _)
  · obtain ⟨f, hf, he⟩ := List.mem_map.1 h3
    exact ⟨f, hf, he⟩

open Classical in
/-- The isotropic spectrum of data at points. -/
theorem fft_shells {d : GData ℝ} {grid : List (List ℝ)} {dims : List Nat} {values : NArr ℝ} {nc : Nat}
    (h : HoldsShellData d grid dims values nc) :
    ∃ out f p, fft grid values true true = .ok (out, proper grid) ∧ pushed out = .ok (f, p) ∧
      ∀ e : GData ℝ, ∃ r, e.push f p = .ok r ∧ r.tag = e.tag ∧ r.status = e.status ∧ HoldsShells grid dims values nc r := by
  have h1 : proper grid ≠ [] := h.directions
  obtain ⟨freq, amps, a1, a2, a3, a4, a5⟩ :=
    C70_spectrum_partial grid dims values nc false h.points h.directions h.three h.shape h.wf
  obtain ⟨zeros, power, q1, q2, q3, q4⟩ := C70_psd grid dims values nc h.points h.directions h.three h.shape h.wf freq amps a1
  choose a ha using a5
  let a' : Nat → List Nat → ℂ := fun c => if hc : c < nc then a c hc else fun _ => 0
  have ha' : ∀ c (hc : c < nc), a' c = a c hc := fun c hc => by simp [a', hc]
  have hhalf : (proper grid).map (fun g => g.length / 2) = freq.map fun f => f.length / 2 := by
    have := congrArg (List.map fun n => n / 2) a4
    simpa [List.map_map, Function.comp_def] using this.symm
  have hfl : ∀ f ∈ freq, 4 ≤ f.length := by
    intro f hf
    have : f.length ∈ (proper grid).map List.length := a4 ▸ List.mem_map_of_mem hf
    obtain ⟨g, hg, hgl⟩ := List.mem_map.1 this
    rw [← hgl]; exact h.long g hg
  obtain ⟨centres, p, e1, e2, e3, e4, e5, e6, e7⟩ := iso_exact_wf
    ⟨h.points, h.two, h.three, h.long, h.ascending, h.shape, h.wf⟩ _ _ _ q1
  rw [lowest_half freq hfl] at e5 e6 e7
  obtain ⟨l1, l2⟩ := lowest_spec e5
  refine ⟨_, _, _, e1, rfl, fun e => ?_⟩
  have hcpos : 0 < centres.length := by
    rw [e3, numBins]
    match hg : proper grid, h.two with
    | x :: y :: rest, _ =>
      have := h.long x (by simp [hg])
      rw [Nat.sqrt_pos]; simp only [List.map_cons, List.sum_cons]
      positivity
  have hne : ∀ g ∈ ([centres].map NArr.ofList ++ List.replicate 0 (NArr.scalar 0)), g.data ≠ [] := by
    intro g hg
    simp only [List.map_cons, List.map_nil, List.replicate_zero, List.append_nil, List.mem_singleton] at hg
    subst hg
    simp only [NArr.ofList]
    rintro rfl
    simp at hcpos
  have hd : p.shape.length - 1 ≤ ([centres].map NArr.ofList ++ List.replicate 0 (NArr.scalar (0 : ℝ))).length := by
    rw [e4]; simp
  obtain ⟨l, hl⟩ := Collect.minima_ok hne hd
  obtain ⟨u, hu⟩ := Collect.maxima_ok hne hd
  have hp := GData.push_ok (d := e) (nc := nc) (by rw [e4]; simp) hl hu
  refine ⟨_, hp, rfl, rfl, freq, a', lowest freq, centres, p, ⟨a4, fun c hc j hj => ?_⟩, e5, l1, l2, rfl, rfl, e2, e4, ?_, e6, ?_⟩
  · rw [ha' c hc]; exact (ha c hc).2 j hj
  · rw [e3, numBins, List.map_map]; rfl
  · intro b c hb1 hb hc _
    obtain ⟨pk, p1, p2⟩ := e7 b c hb hc
    rw [p2]
    have hb0 : b ≠ 0 := by omega
    rw [hhalf] at p1 ⊢
    rw [modesIn_half]
    congr 2
    rw [← modesIn_half]
    apply Finset.sum_congr
    · ext k; simp [modesIn, hb0]
    intro k hk
    rw [modesIn, Finset.mem_filter, List.mem_toFinset, mem_indices] at hk
    have hk1 := hk.1
    have := p1 k hk1
    rw [← hhalf] at hk1
    obtain ⟨z, hz1, hz2⟩ := q4 k c hk1 hc
    rw [hz2] at this
    have hkf : inRange ((proper grid).map List.length) k = true := by
      generalize proper grid = G at hk1
      clear * - hk1
      induction G generalizing k with
      | nil => simpa using hk1
      | cons g G ih =>
        cases k with
        | nil => simp [inRange] at hk1
        | cons i k =>
          simp only [List.map_cons, inRange, Bool.and_eq_true, decide_eq_true_eq] at hk1 ⊢
          exact ⟨by omega, ih k hk1.2⟩
    have hz := (ha c hc).1 k hkf
    rw [hz1] at hz
    rw [ha' c hc, ← Option.some.inj hz, ← Option.some.inj this]

theorem effect_iso_tag {d : GData ℝ} {grid : List (List ℝ)} {dims : List Nat} {values : NArr ℝ} {nc : Nat}
    (h : HoldsShellData d grid dims values nc) (c : Char) (cs label : List Char) :
    ∃ r, effect true (some (c :: cs)) label d = .ok (afterFft d, [r]) ∧ r.tag = c :: cs ∧ r.status = true ∧
      HoldsShells grid dims values nc r := by
  obtain ⟨out, f, p, h1, h2, h3⟩ := fft_shells h
  obtain ⟨r, hr, ht, hs, hp⟩ := h3 (GData.new (c :: cs) label d.ctx)
  have e : (grid.map NArr.ofList).map (·.data) = grid := by
    rw [List.map_map]; exact List.map_id grid
  refine ⟨r, ?_, ht, hs, hp⟩
  unfold effect
  rw [h.hgrid, h.hvalues]
  simp only [e, h1, h2, hr, bind, Except.bind, pure, Except.pure]
  simp only [afterFft, h.hgrid, h.hvalues, Option.map_some, e]

theorem effect_iso_in_place {d : GData ℝ} {grid : List (List ℝ)} {dims : List Nat} {values : NArr ℝ} {nc : Nat}
    (h : HoldsShellData d grid dims values nc) (label : List Char) :
    ∃ r, effect true none label d = .ok (r, []) ∧ r.tag = d.tag ∧ HoldsShells grid dims values nc r := by
  obtain ⟨out, f, p, h1, h2, h3⟩ := fft_shells h
  have e : (grid.map NArr.ofList).map (·.data) = grid := by
    rw [List.map_map]; exact List.map_id grid
  obtain ⟨r, hr, ht, hs, hp⟩ := h3 { d with grid := some ((proper grid).map NArr.ofList) }
  refine ⟨r, ?_, ht, hp⟩
  unfold effect
  rw [h.hvalues] at hr
  rw [h.hgrid, h.hvalues]
  simp only [e, h1, h2, bind, Except.bind, pure, Except.pure]
  simp only [hr]

/-- C111: `fft --psd --iso --tag T` adds for every active dataset of the chosen tags, in turn, one dataset with its isotropic
spectrum, for data in two or three directions with at least four ascending, equally spaced points in each.  The source loses the
collapsed directions of its grid; everything else is as it was. -/
theorem C111_isotropic_partial {s : Space ℝ} (hr : Reachable s) {use : Option Tag} {ts : List Tag} (hts : Requests s use ts)
    (hkeys : ∀ t ∈ ts, t ∈ s.dict.map Prod.fst) (hnd : ts.Nodup) {T : Tag} (hT : T ≠ []) (hlater : T ∉ ts.tail)
    (label : List Char)
    (hd : ∀ id ∈ visited s ts, ∀ d, s.heap[id]? = some d → ∃ grid dims values nc, HoldsShellData d grid dims values nc) :
    ∃ s' after made, fftCmd true use (some T) label s = .ok s' ∧ ChangesAndAdds s (visited s ts) after made s' ∧
      ∀ id ∈ visited s ts, ∀ d, s.heap[id]? = some d →
        (∀ grid, d.grid = some (grid.map NArr.ofList) → after id = { d with grid := some ((proper grid).map NArr.ofList) }) ∧
        ∃ r, made id = [r] ∧ r.tag = T ∧ r.status = true ∧
          ∀ grid dims values nc, HoldsShellData d grid dims values nc → HoldsShells grid dims values nc r := by
  rw [← hts.tagsOf_eq] at *
  cases T with
  | nil => exact absurd rfl hT
  | cons c cs =>
    let res : Nat → GData ℝ × List (GData ℝ) := fun id => match s.heap[id]? with
      | some d => ((effect true (some (c :: cs)) label d).toOption).getD (d, [])
      | none => ({}, [])
    obtain ⟨s', h1, h2⟩ := Space.iterate_changes (Space.reachable_inv hr) hkeys hnd (effect true (some (c :: cs)) label)
      (fun id => (res id).1) (fun id => (res id).2) (fun d e h => (effect_status d e h).1) (by
        intro d e h r hr
        have := (effect_status d e h).2 r hr
        rw [← Option.some.inj this]; exact hlater) (by
        intro id hid d hdd
        obtain ⟨grid, dims, values, nc, hp⟩ := hd id hid d hdd
        obtain ⟨r, hr, -⟩ := effect_iso_tag hp c cs label
        simp only [res, hdd, hr]
        rfl)
    refine ⟨s', _, _, (fftCmd_eq ..).trans h1, h2, fun id hid d hdd => ?_⟩
    obtain ⟨grid, dims, values, nc, hp⟩ := hd id hid d hdd
    obtain ⟨r, hr, ht, hs, hpow⟩ := effect_iso_tag hp c cs label
    have hres : res id = (afterFft d, [r]) := by simp only [res, hdd, hr]; rfl
    refine ⟨fun grid' hg' => ?_, r, by simp only [hres], ht, hs, fun grid' dims' values' nc' hp' => ?_⟩
    · simp only [hres, afterFft, hg', Option.map_some]
      have e : (grid'.map NArr.ofList).map (·.data) = grid' := by
        rw [List.map_map]; exact List.map_id grid'
      rw [e]
    · obtain ⟨r', hr', -, -, hpow'⟩ := effect_iso_tag hp' c cs label
      rw [hr] at hr'
      simp only [Except.ok.injEq, Prod.mk.injEq, List.cons.injEq, and_true, true_and] at hr'
      rw [hr']; exact hpow'

/-- C111: without a tag the isotropic spectra take the place of the data. -/
theorem C111_isotropic_in_place_partial {s : Space ℝ} (hr : Reachable s) {use : Option Tag} {ts : List Tag}
    (hts : Requests s use ts) (hkeys : ∀ t ∈ ts, t ∈ s.dict.map Prod.fst) (hnd : ts.Nodup) (label : List Char)
    (hd : ∀ id ∈ visited s ts, ∀ d, s.heap[id]? = some d → ∃ grid dims values nc, HoldsShellData d grid dims values nc) :
    ∃ s' after, fftCmd true use none label s = .ok s' ∧ ChangesAndAdds s (visited s ts) after (fun _ => []) s' ∧
      ∀ id ∈ visited s ts, ∀ d, s.heap[id]? = some d → (after id).tag = d.tag ∧ (after id).status = d.status ∧
        ∀ grid dims values nc, HoldsShellData d grid dims values nc → HoldsShells grid dims values nc (after id) := by
  rw [← hts.tagsOf_eq] at *
  have hi := Space.reachable_inv hr
  let res : Nat → GData ℝ × List (GData ℝ) := fun id => match s.heap[id]? with
    | some d => ((effect true none label d).toOption).getD (d, [])
    | none => ({}, [])
  obtain ⟨s', h1, h2⟩ := Space.iterate_changes hi hkeys hnd (effect true none label)
    (fun id => (res id).1) (fun _ => []) (fun d e h => (effect_status d e h).1) (by
      intro d e h r hr
      have := (effect_status d e h).2 r hr
      cases this) (by
      intro id hid d hdd
      obtain ⟨grid, dims, values, nc, hp⟩ := hd id hid d hdd
      obtain ⟨r, hr, -⟩ := effect_iso_in_place hp label
      simp only [res, hdd, hr]
      rfl)
  refine ⟨s', _, (fftCmd_eq ..).trans h1, h2, fun id hid d hdd => ?_⟩
  obtain ⟨grid, dims, values, nc, hp⟩ := hd id hid d hdd
  obtain ⟨r, hr, ht, hpow⟩ := effect_iso_in_place hp label
  have hres : res id = (r, []) := by simp only [res, hdd, hr]; rfl
  simp only [hres]
  refine ⟨ht, (effect_status d _ hr).1, fun grid' dims' values' nc' hp' => ?_⟩
  obtain ⟨r', hr', -, hpow'⟩ := effect_iso_in_place hp' label
  rw [hr] at hr'
  simp only [Except.ok.injEq, Prod.mk.injEq, and_true] at hr'
  rw [hr']; exact hpow'

/-- A dataset with four points in each of two directions and one component. -/
noncomputable def shellEx : GData ℝ :=
  { tag := "f".toList, grid := some ([[0, 1, 2, 3], [0, 1, 2, 3]].map NArr.ofList),
    values := some ⟨[4, 4, 1], [1, 0, 0, 2, 0, 3, 0, 0, 0, 0, 5, 0, 4, 0, 0, 7]⟩ }

theorem shellEx_data : HoldsShellData shellEx [[0, 1, 2, 3], [0, 1, 2, 3]] [4, 4]
    ⟨[4, 4, 1], [1, 0, 0, 2, 0, 3, 0, 0, 0, 0, 5, 0, 4, 0, 0, 7]⟩ 1 := by
  have hsp : EquallySpaced [0, 1, 2, 3] := by
    refine ⟨0, 1, one_ne_zero, ?_⟩
    intro i x h
    match i, h with
    | 0, h => simp at h; simp [← h]
    | 1, h => simp at h; simp [← h]
    | 2, h => simp at h; simp [← h]
    | 3, h => simp at h; simp [← h]
    | i + 4, h => simp at h
  refine ⟨⟨rfl, rfl, .cons (Or.inr ⟨by decide, rfl, hsp⟩) (.cons (Or.inr ⟨by decide, rfl, hsp⟩) .nil), rfl, rfl,
    by simp [proper], by simp [proper]⟩, by simp [proper], ?_, ?_⟩
  · simp [proper]
  · simp [proper]

/-- The hypotheses of the isotropic part of C111 are met. -/
example : let s := perform [.add shellEx]
    Reachable s ∧ Requests s (some "f".toList) ["f".toList] ∧ (∀ t ∈ ["f".toList], t ∈ s.dict.map Prod.fst) ∧
      visited s ["f".toList] = [0] ∧ s.heap[0]? = some shellEx := by
  intro s
  exact ⟨Space.reachable_perform _, .listed (ts := ["f".toList]) (by decide) (by decide), fun t ht => ht, rfl, rfl⟩

end Pgkyl
