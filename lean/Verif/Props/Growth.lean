import Verif.Lemmas.Growth
import Verif.Props.Fit
import Verif.Props.DataSpace
import Verif.Lemmas.PairCommands
/-! # C110: the `growth` command -/

namespace Pgkyl
open Spec Growth Fit Space

theorem growthCmd_eq (fit : Fitter) (o : Opts) (use : Option Tag) (s : Space ℝ) :
    growthCmd fit o use s = Space.iterate id use false true .none (fun s _ i => Space.addBody (sets fit o) s i) s := by
  unfold growthCmd
  congr 1
  funext s _ i
  unfold addBody
  cases s.heap[i]? <;> rfl

/-- The tags of the results are not among the tags that are still to be visited. -/
theorem growth_tags {fit : Fitter} {o : Opts} {l : List Tag} (hd : o.dataset = true → "growth".toList ∉ l)
    (ht : ∀ T, o.tag = some T → T ∉ l) (d : GData ℝ) (rs : List (GData ℝ)) (h : sets fit o d = .ok rs) :
    ∀ r ∈ rs, r.tag ∉ l := by
  intro r hr
  rcases sets_tags fit o d rs h r hr with ⟨h1, h2⟩ | h1
  · rw [h2]; exact hd h1
  · exact ht _ h1

/-- C110 (partial: series, no direction): `growth` adds for every active series of the chosen tags, in turn, what was asked
for: with `--dataset` the fitted exponential, with `--tag` the growth rate; both are those of the best fit that `fit_growth`
finds.  Everything else in the store stays as it was. -/
theorem C110_growth_partial (fit : Fitter) {o : Opts} (hdir : o.dir = none) {s : Space ℝ} (hr : Reachable s) {use : Option Tag}
    {ts : List Tag} (hts : Requests s use ts) (hkeys : ∀ t ∈ ts, t ∈ s.dict.map Prod.fst)
    (hlater : o.dataset = true → "growth".toList ∉ ts.tail) (hlater' : ∀ T, o.tag = some T → T ∉ ts.tail)
    (hd : ∀ id ∈ visited s ts, ∀ d, s.heap[id]? = some d → ∃ t y a b r2 N, IsSeries d t y ∧
      fitGrowth fit t y o.minN o.guess = .ok ((a, b), r2, N)) :
    ∃ s' made, growthCmd fit o use s = .ok s' ∧ AddsMade s (visited s ts) made s' ∧
      ∀ id ∈ visited s ts, ∀ d, s.heap[id]? = some d → ∀ t y a b r2 N, IsSeries d t y →
        fitGrowth fit t y o.minN o.guess = .ok ((a, b), r2, N) → IsMade o.dataset o.tag o.label t a b (made id) := by
  rw [← hts.tagsOf_eq] at *
  have hi := Space.reachable_inv hr
  let made : Nat → List (GData ℝ) := fun id => match s.heap[id]? with
    | some d => ((sets fit o d).toOption).getD []
    | none => []
  obtain ⟨s', h1, h2⟩ := Space.iterate_adds hi hkeys (sets fit o) made (growth_tags hlater hlater') (by
    intro id hid d hdd
    obtain ⟨t, y, a, b, r2, N, hs, hf⟩ := hd id hid d hdd
    obtain ⟨x, z, h, -⟩ := sets_series fit o hs hdir hf
    simp only [made, hdd, h]
    rfl)
  refine ⟨s', made, (growthCmd_eq fit o use s).trans h1, h2, fun id hid d hdd t y a b r2 N hs hf => ?_⟩
  obtain ⟨x, z, h, h3⟩ := sets_series fit o hs hdir hf
  refine ⟨x, z, ?_, h3⟩
  simp only [made, hdd, h]
  rfl

/-- C110: with a fitting routine that recovers exponentials and a minimal number of points, the growth rates of noiseless
exponential series are exact. -/
theorem C110_exact_partial {fit : Fitter} (hfit : Recovers fit) {o : Opts} (hdir : o.dir = none) {N : Nat} (hN : o.minN = some N)
    (h2 : 2 ≤ N) {s : Space ℝ} (hr : Reachable s) {use : Option Tag} {ts : List Tag} (hts : Requests s use ts)
    (hkeys : ∀ t ∈ ts, t ∈ s.dict.map Prod.fst)
    (hlater : o.dataset = true → "growth".toList ∉ ts.tail) (hlater' : ∀ T, o.tag = some T → T ∉ ts.tail)
    (t y : Nat → List ℝ) (a b : Nat → ℝ)
    (hd : ∀ id ∈ visited s ts, ∃ d, s.heap[id]? = some d ∧ IsSeries d (t id) (y id) ∧ N < (t id).length ∧
      (t id).Pairwise (· < ·) ∧ (∀ x, (t id).getLast? = some x → 0 < x) ∧ a id ≠ 0 ∧ b id ≠ 0 ∧
      Exponential (a id) (b id) (t id) (y id)) :
    ∃ s' made, growthCmd fit o use s = .ok s' ∧ AddsMade s (visited s ts) made s' ∧
      ∀ id ∈ visited s ts, IsMade o.dataset o.tag o.label (t id) (a id) (b id) (made id) := by
  have key : ∀ id ∈ visited s ts, fitGrowth fit (t id) (y id) o.minN o.guess = .ok ((a id, b id), 1, N) := by
    intro id hid
    obtain ⟨d, -, hs, hl, hp, hpos, ha, hb, he⟩ := hd id hid
    cases hm : (t id).getLast? with
    | none => rw [List.getLast?_eq_none_iff] at hm; rw [hm] at hl; simp at hl
    | some m =>
      rw [hN]
      exact C79_exact_partial hfit ha hb hp hm (hpos m hm) h2 hl he
  obtain ⟨s', made, h1, h2, h3⟩ := C110_growth_partial fit hdir hr hts hkeys hlater hlater' (by
    intro id hid d hdd
    obtain ⟨d', hd', hs, -⟩ := hd id hid
    rw [hdd] at hd'
    cases hd'
    exact ⟨_, _, _, _, _, _, hs, key id hid⟩)
  refine ⟨s', made, h1, h2, fun id hid => ?_⟩
  obtain ⟨d, hdd, hs, -⟩ := hd id hid
  exact h3 id hid d hdd _ _ _ _ _ _ hs (key id hid)

/-- C110 fails: with a direction every series is refused. -/
theorem C110_series_direction_fails (fit : Fitter) {o : Opts} {k : Int} (hdir : o.dir = some k) (hk : k = 0 ∨ k = 1) {s : Space ℝ}
    (hr : Reachable s) {use : Option Tag} {ts : List Tag} (hts : Requests s use ts) (hkeys : ∀ t ∈ ts, t ∈ s.dict.map Prod.fst)
    (hlater : o.dataset = true → "growth".toList ∉ ts.tail) (hlater' : ∀ T, o.tag = some T → T ∉ ts.tail)
    {id : Nat} (hid : id ∈ visited s ts) {d : GData ℝ} (hdd : s.heap[id]? = some d) {t y : List ℝ} (hs : IsSeries d t y) :
    ∃ err, growthCmd fit o use s = .error err := by
  rw [← hts.tagsOf_eq] at *
  obtain ⟨h2, hy2, hg, v, nc, hv, hsh, hy⟩ := hs
  have hnc : nc ≠ 0 := by
    rintro rfl
    have := hy 0 (y[0]'(by omega)) (List.getElem?_eq_getElem _)
    unfold NArr.get? at this
    rw [if_neg (by simp [hsh, inRange])] at this
    cases this
  have : ∃ err, sets fit o d = .error err := by
    unfold sets
    rw [hg, hv]
    rcases hk with rfl | rfl
    · obtain ⟨n, rfl⟩ := Nat.exists_eq_succ_of_ne_zero hnc
      have h1 : numRates o v.shape = .ok (n + 1) := by simp [numRates, hsh, hdir]
      have h3 : oneFit fit o [NArr.ofList t] v 0 = .error .indexError := by
        simp [oneFit, abscissae, ordinates, hdir, hsh, bind, Except.bind]
      refine ⟨.indexError, ?_⟩
      simp only [h1, bind, Except.bind]
      rw [List.range_succ_eq_map, List.mapM_cons, h3]
      rfl
    · obtain ⟨n, hn⟩ : ∃ n, y.length = n + 1 := ⟨y.length - 1, by omega⟩
      have h1 : numRates o v.shape = .ok (n + 1) := by simp [numRates, hsh, hdir, hn]
      have h3 : oneFit fit o [NArr.ofList t] v 0 = .error .indexError := by
        simp [oneFit, abscissae, hdir, bind, Except.bind]
      refine ⟨.indexError, ?_⟩
      simp only [h1, bind, Except.bind]
      rw [List.range_succ_eq_map, List.mapM_cons, h3]
      rfl
  obtain ⟨err, he⟩ := this
  rw [growthCmd_eq]
  exact Space.iterate_adds_fails (Space.reachable_inv hr) hkeys (sets fit o) (growth_tags hlater hlater') hid hdd he

/-- C110 fails: for a two-dimensional dataset with `n1` lines along the chosen first direction `growth --dir 0 --tag T` makes
one rate, that of the line 0; the other lines have no effect on the result. -/
theorem C110_lines_fails (fit : Fitter) {o : Opts} (hdir : o.dir = some 0) (hds : o.dataset = false) {c : Char} {cs : List Char}
    (htag : o.tag = some (c :: cs)) {d : GData ℝ} {g : List (NArr ℝ)} {v : NArr ℝ} {n0 n1 nc : Nat}
    (hg : d.grid = some g) (hv : d.values = some v) (hs : v.shape = [n0, n1, nc]) {rs : List (GData ℝ)}
    (h : sets fit o d = .ok rs) :
    (∃ r b, rs = [r] ∧ HoldsRate (c :: cs) o.label b r) ∧
    ∀ w : NArr ℝ, w.shape = [n0, n1, nc] → (∀ i, w.get? [i, 0, 0] = v.get? [i, 0, 0]) →
      sets fit o { d with values := some w } = .ok rs := by
  have h1 : numRates o v.shape = .ok 1 := by simp [numRates, hs]
  have range1 : List.range 1 = [0] := rfl
  unfold sets at h
  rw [hg, hv] at h
  simp only [h1, range1, bind, Except.bind, pure, Except.pure] at h
  cases hf : [0].mapM (oneFit fit o g v) with
  | error e => rw [hf] at h; cases h
  | ok fits =>
    have hf' := hf
    rw [hf] at h
    rw [List.mapM_cons] at hf'
    simp only [bind, Except.bind, pure, Except.pure, List.mapM_nil] at hf'
    cases ho : oneFit fit o g v 0 with
    | error e => rw [ho] at hf'; cases hf'
    | ok p =>
      rw [ho] at hf'
      cases hf'
      have hfs : fitSets o d g [p] = .ok [] := by simp [fitSets, hds]
      obtain ⟨r, hr, hh⟩ := rateSet_holds d c cs o.label p.2
      have hrs : rateSets o d [p.2] = .ok [r] := by simp [rateSets, htag, hr, Except.map]
      simp only [hfs, List.map_cons, List.map_nil, hrs] at h
      cases h
      refine ⟨⟨r, p.2, rfl, hh⟩, fun w hw hl => ?_⟩
      have h1' : numRates o w.shape = .ok 1 := by simp [numRates, hw]
      have hord : ordinates o w 0 = ordinates o v 0 := by
        simp only [ordinates, hdir, if_true, hs, hw]
        unfold entries
        simp only [hl]
      have ho' : oneFit fit o g w 0 = .ok p := by
        rw [← ho]
        simp only [oneFit, hord]
      have hf2 : [0].mapM (oneFit fit o g w) = .ok [p] := by
        rw [List.mapM_cons, ho']; rfl
      have hfs' : fitSets o { d with values := some w } g [p] = .ok [] := by simp [fitSets, hds]
      have hrs' : rateSets o { d with values := some w } [p.2] = .ok [r] := by
        rw [← hrs]; rfl
      simp only [hg] at hfs' hrs'
      unfold sets
      simp only [hg, h1', range1, bind, Except.bind, pure, Except.pure, hf2, hfs', hrs', List.map_cons, List.map_nil]

namespace GrowthEx

/-- Four times and the values of `exp(2 t)` there. -/
noncomputable def series : GData ℝ :=
  { tag := "e".toList, grid := some [NArr.ofList [0, 1, 2, 3]],
    values := some ⟨[4, 1], [0, 1, 2, 3].map fun x => 1 * Real.exp (2 * 1 * x)⟩ }

theorem series_is : IsSeries series [0, 1, 2, 3] ([0, 1, 2, 3].map fun x => 1 * Real.exp (2 * 1 * x)) := by
  refine ⟨by simp, by simp, rfl, _, 1, rfl, rfl, ?_⟩
  intro i x h
  rw [← h]
  exact column_get ([0, 1, 2, 3].map fun x : ℝ => 1 * Real.exp (2 * 1 * x)) i

open Classical in
/-- A fitting routine that recovers exponentials. -/
noncomputable def ideal : Fitter := fun xs ys _ =>
  if h : ∃ p : ℝ × ℝ, p.1 ≠ 0 ∧ p.2 ≠ 0 ∧ Exponential p.1 p.2 xs ys then .ok h.choose else .error .fail

theorem exponential_unique {a b a' b' : ℝ} {xs ys : List ℝ} (ha : a ≠ 0) (hl : 2 ≤ xs.length) (hx : xs.Pairwise (· < ·))
    (h : Exponential a b xs ys) (h' : Exponential a' b' xs ys) : a' = a ∧ b' = b := by
  match xs, hl with
  | u :: v :: xs, _ =>
    have huv : u < v := (List.pairwise_cons.1 hx).1 v (by simp)
    unfold Exponential at h h'
    rw [h] at h'
    simp only [List.map_cons, List.cons.injEq] at h'
    obtain ⟨h1, h2, -⟩ := h'
    have ha' : a' ≠ 0 := by
      rintro rfl
      rw [zero_mul] at h1
      exact (mul_ne_zero ha (Real.exp_ne_zero _)) h1
    have hb : b' = b := by
      have h3 : Real.exp (2 * b * v - 2 * b * u) = Real.exp (2 * b' * v - 2 * b' * u) := by
        rw [Real.exp_sub, Real.exp_sub, div_eq_div_iff (Real.exp_ne_zero _) (Real.exp_ne_zero _)]
        have : (a * Real.exp (2 * b * v)) * (a' * Real.exp (2 * b' * u)) =
            (a' * Real.exp (2 * b' * v)) * (a * Real.exp (2 * b * u)) := by rw [h1, h2]
        have haa : a * a' ≠ 0 := mul_ne_zero ha ha'
        apply mul_left_cancel₀ haa
        linear_combination this
      have h4 := Real.exp_injective h3
      have : (b' - b) * (2 * (v - u)) = 0 := by linear_combination -h4
      rcases mul_eq_zero.1 this with h5 | h5
      · linarith
      · exact absurd h5 (by linarith)
    subst hb
    exact ⟨(mul_right_cancel₀ (Real.exp_ne_zero _) h1).symm, rfl⟩

theorem ideal_recovers : Recovers ideal := by
  intro a b xs ys p0 ha hb hl hx he
  have h : ∃ p : ℝ × ℝ, p.1 ≠ 0 ∧ p.2 ≠ 0 ∧ Exponential p.1 p.2 xs ys := ⟨(a, b), ha, hb, he⟩
  unfold ideal
  rw [dif_pos h]
  have := exponential_unique ha hl hx he h.choose_spec.2.2
  exact congrArg _ (Prod.ext this.1 this.2)

/-- `growth --minn 2 -d -t g` on a store with this series: the hypotheses of C110 are met. -/
example : let s := perform [.add series]
    Reachable s ∧ Requests s (some "e".toList) ["e".toList] ∧ (∀ t ∈ ["e".toList], t ∈ s.dict.map Prod.fst) ∧
      visited s ["e".toList] = [0] ∧ s.heap[0]? = some series ∧ IsSeries series [0, 1, 2, 3] ([0, 1, 2, 3].map fun x => 1 * Real.exp (2 * 1 * x)) ∧
      Recovers ideal ∧
      fitGrowth ideal [0, 1, 2, 3] ([0, 1, 2, 3].map fun x => 1 * Real.exp (2 * 1 * x)) (some 2) none = .ok ((1, 1), 1, 2) := by
  intro s
  refine ⟨Space.reachable_perform _, .listed (ts := ["e".toList]) (by decide) (by decide), ?_, rfl, rfl, series_is, ideal_recovers,
    C79_exact_partial (maxX := 3) ideal_recovers one_ne_zero one_ne_zero (by norm_num) rfl (by norm_num) (by norm_num)
      (by norm_num) rfl⟩
  intro t ht
  exact ht

/-- A field over four times with two lines: the exponential, and zeros. -/
noncomputable def lines : NArr ℝ :=
  ⟨[4, 2, 1], ([0, 1, 2, 3] : List ℝ).flatMap fun x => [1 * Real.exp (2 * 1 * x), 0]⟩

/-- The hypotheses of C110_lines_fails are met. -/
example : ∃ rs, sets ideal { dir := some 0, tag := some "g".toList, minN := some 2 }
    { tag := "e".toList, grid := some [NArr.ofList [0, 1, 2, 3], NArr.ofList [0, 1]], values := some lines } = .ok rs := by
  have he : entries lines 4 (fun i => [i, 0, 0]) = .ok ([0, 1, 2, 3].map fun x => 1 * Real.exp (2 * 1 * x)) := by
    refine entries_ok (y := [0, 1, 2, 3].map fun x => 1 * Real.exp (2 * 1 * x)) ?_
    intro i x h
    have hi := (List.getElem?_eq_some_iff.1 h).1
    simp only [List.length_map, List.length_cons, List.length_nil] at hi
    rw [← h]
    match i, hi with
    | 0, _ => rfl
    | 1, _ => rfl
    | 2, _ => rfl
    | 3, _ => rfl
  have hfit : fitGrowth ideal [0, 1, 2, 3] ([0, 1, 2, 3].map fun x => 1 * Real.exp (2 * 1 * x)) (some 2) none = .ok ((1, 1), 1, 2) :=
    C79_exact_partial (maxX := 3) ideal_recovers one_ne_zero one_ne_zero (by norm_num) rfl (by norm_num) (by norm_num)
      (by norm_num) rfl
  have hs : lines.shape = [4, 2, 1] := rfl
  obtain ⟨r, hr, -⟩ := rateSet_holds { tag := "e".toList, grid := some [NArr.ofList [0, 1, 2, 3], NArr.ofList [0, 1]], values := some lines } 'g' [] [] 1
  refine ⟨[r], ?_⟩
  have ho : ∀ o : Opts, o.dir = some 0 → o.minN = some 2 → o.guess = none →
      (List.range 1).mapM (oneFit ideal o [NArr.ofList [0, 1, 2, 3], NArr.ofList [0, 1]] lines) = .ok [(1, 1)] := by
    intro o h1 h2 h3
    show [0].mapM _ = _
    rw [List.mapM_cons]
    simp only [oneFit, abscissae, ordinates, h1, h2, h3, hs, if_true, he, NArr.ofList, bind, Except.bind, pure, Except.pure,
      List.mapM_nil]
    rw [if_neg (by decide)]
    simp only [hfit]
  unfold sets
  simp only [numRates, hs, bind, Except.bind, pure, Except.pure]
  rw [ho _ rfl rfl rfl]
  simp only [fitSets, rateSets, Bool.false_eq_true, if_false, List.map_cons, List.map_nil]
  have e : "g".toList = ['g'] := rfl
  simp only [e, hr, Except.map, List.nil_append]

end GrowthEx

end Pgkyl
