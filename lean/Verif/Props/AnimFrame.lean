import Verif.Spec.AnimFrame
import Verif.Props.PlotPanels
import Mathlib.Algebra.Ring.Rat
/-! # C155: the pictures of an animation -/

namespace Pgkyl
open Spec Plot Anim

section
variable {F : Type} [Zero F] [DecidableEq F]

omit [Zero F] [DecidableEq F] in
theorem Anim.time_text : "  time: ".toList = [' '] ++ " time: ".toList := by decide +kernel

theorem Anim.titleOf_stamp (fmt : F → List Char) {n : Int} {t : F} (hn : n ≠ 0) (ht : t ≠ 0) :
    titleOf fmt false ⟨some n, some t⟩ = stampTitle fmt n t := by
  have h1 : frameText (some n) = " frame: ".toList ++ pyStr n ++ [' '] := if_neg hn
  have h2 : timeText fmt (some t) = " time: ".toList ++ fmt t := if_neg ht
  have h3 : stampTitle fmt n t = " frame: ".toList ++ pyStr n ++ ([' '] ++ " time: ".toList) ++ fmt t := by
    rw [← Anim.time_text]; rfl
  have h4 : titleOf fmt false ⟨some n, some t⟩ = frameText (some n) ++ timeText fmt (some t) := rfl
  refine h4.trans ?_
  refine Eq.trans ?_ h3.symm
  rw [h1, h2]
  have : ∀ a b c d : List Char, a ++ b ++ [' '] ++ (c ++ d) = a ++ b ++ ([' '] ++ c) ++ d := by simp
  exact this _ _ _ _

omit [Zero F] [DecidableEq F] in
theorem Anim.plotFigures_cons {o : Opts} {d : Captions F} {nc : Nat} {rest : List (Opts × Captions F × Nat)} {fig fig' : Figure F}
    (h : plotFigures ((o, d, nc) :: rest) fig = .ok fig') :
    ∃ f1, plotFigure o d nc fig = .ok f1 ∧ plotFigures rest f1 = .ok fig' := by
  simp only [plotFigures, bind, Except.bind] at h
  split at h
  · cases h
  · rename_i f1 hf1
    exact ⟨f1, hf1, h⟩

theorem Anim.figure_title (fmt : F → List Char) {c : Call F} (hs : c.squeeze = false) (st : Stamp F) {nc : Nat}
    (hc : 1 ≤ nc / (if c.vectors then 2 else 1)) {rest : List (Stamp F × Nat)} {fig : Figure F}
    (h : drawFrame fmt c ((st, nc) :: rest) = .ok fig) :
    fig.title = titleOf fmt c.notitle st ∧ fig.xlabel = c.xlabel ∧ fig.ylabel = c.ylabel := by
  rw [drawFrame, if_neg (by simp)] at h
  obtain ⟨f1, h1, h2⟩ := Anim.plotFigures_cons h
  obtain ⟨f, e, g1, g2, g3, g4, -⟩ := C151_captions (o := callOpts c true) (nc := nc) (d := callCaptions fmt c st)
    (titles := []) (xs := []) (ys := []) hs (by simp [callOpts]) (by simp [callOpts])
    (by simpa [panelsWanted, callOpts, idxComps] using hc) (by simp [panelsWanted, callOpts, idxComps])
    ⟨rfl, by simp⟩ ⟨rfl, by simp⟩ ⟨rfl, by simp⟩
  rw [e] at h1
  cases h1
  obtain ⟨k1, k2, k3, -⟩ := C151_again (by
    intro he
    rw [he] at g4
    have : panelsWanted (callOpts c true) nc = nc / (if c.vectors then 2 else 1) := by simp [panelsWanted, callOpts, idxComps]
    simp only [List.length_nil] at g4
    omega) h2
  rw [k1, k2, k3, g1, g2, g3]
  exact ⟨rfl, rfl, rfl⟩

theorem Anim.panel_title (fmt : F → List Char) {c : Call F} (hs : c.squeeze = true) (st : Stamp F) {nc : Nat}
    {rest : List (Stamp F × Nat)} {fig : Figure F} (h : drawFrame fmt c ((st, nc) :: rest) = .ok fig) :
    ∃ p, fig.panels[0]? = some p ∧ p.title = titleOf fmt c.notitle st ∧ p.xlabel = c.xlabel ∧ p.ylabel = c.ylabel := by
  rw [drawFrame, if_neg (by simp)] at h
  obtain ⟨f1, h1, h2⟩ := Anim.plotFigures_cons h
  obtain ⟨f, p, e, g1, g2, g3, g4, -⟩ := C151_squeezed (o := callOpts c true) (d := callCaptions fmt c st) hs nc
  rw [e] at h1
  cases h1
  obtain ⟨-, -, -, k⟩ := C151_again (by intro he; rw [he] at g1; simp at g1) h2
  obtain ⟨q, hq, hsame, -⟩ := k 0 p g1
  exact ⟨q, hq, by rw [hsame.title, g2]; rfl, by rw [hsame.xlabel, g3]; rfl, by rw [hsame.ylabel, g4]; rfl⟩

/-- **C155** (frames and times other than 0).  A picture is titled with the frame and the time of its first dataset, and has the labels of
its axes. -/
theorem C155_title_partial (fmt : F → List Char) {c : Call F} (hs : c.squeeze = false) (hno : c.notitle = false) {n : Int} {t : F}
    (hn : n ≠ 0) (ht : t ≠ 0) {nc : Nat} (hc : 1 ≤ nc / (if c.vectors then 2 else 1)) {rest : List (Stamp F × Nat)} {fig : Figure F}
    (h : drawFrame fmt c ((⟨some n, some t⟩, nc) :: rest) = .ok fig) :
    fig.title = stampTitle fmt n t ∧ fig.xlabel = c.xlabel ∧ fig.ylabel = c.ylabel := by
  obtain ⟨h1, h2, h3⟩ := Anim.figure_title fmt hs _ hc h
  exact ⟨by rw [h1, hno, Anim.titleOf_stamp fmt hn ht], h2, h3⟩

/-- **C155** (frames and times other than 0).  With `--squeeze` the title is that of the only panel. -/
theorem C155_title_squeezed_partial (fmt : F → List Char) {c : Call F} (hs : c.squeeze = true) (hno : c.notitle = false) {n : Int} {t : F}
    (hn : n ≠ 0) (ht : t ≠ 0) {nc : Nat} {rest : List (Stamp F × Nat)} {fig : Figure F}
    (h : drawFrame fmt c ((⟨some n, some t⟩, nc) :: rest) = .ok fig) :
    ∃ p, fig.panels[0]? = some p ∧ p.title = stampTitle fmt n t ∧ p.xlabel = c.xlabel ∧ p.ylabel = c.ylabel := by
  obtain ⟨p, h0, h1, h2, h3⟩ := Anim.panel_title fmt hs _ h
  exact ⟨p, h0, by rw [h1, hno, Anim.titleOf_stamp fmt hn ht], h2, h3⟩

/-- **C155.**  With `--notitle` a picture has no title. -/
theorem C155_notitle (fmt : F → List Char) {c : Call F} (hno : c.notitle = true) (st : Stamp F) {nc : Nat}
    (hc : 1 ≤ nc / (if c.vectors then 2 else 1)) {rest : List (Stamp F × Nat)} {fig : Figure F}
    (h : drawFrame fmt c ((st, nc) :: rest) = .ok fig) :
    (c.squeeze = false → fig.title = []) ∧ (c.squeeze = true → ∃ p, fig.panels[0]? = some p ∧ p.title = []) := by
  refine ⟨fun hs => ?_, fun hs => ?_⟩
  · rw [(Anim.figure_title fmt hs _ hc h).1, hno]
    rfl
  · obtain ⟨p, h0, h1, -⟩ := Anim.panel_title fmt hs _ h
    exact ⟨p, h0, by rw [h1, hno]; rfl⟩

/-- C155 fails for the beginning of a simulation: the picture of frame 0 at time 0 has no title. -/
theorem C155_first_frame_fails (fmt : F → List Char) {c : Call F} (hs : c.squeeze = false) {nc : Nat}
    (hc : 1 ≤ nc / (if c.vectors then 2 else 1)) {rest : List (Stamp F × Nat)} {fig : Figure F}
    (h : drawFrame fmt c ((⟨some 0, some 0⟩, nc) :: rest) = .ok fig) : fig.title = [] := by
  rw [(Anim.figure_title fmt hs _ hc h).1]
  simp [titleOf, frameText, timeText]

/-- C155 fails for three options of the command: the title given with `--title` and the numbers of rows and columns given with
`--nsubplotrow` and `--nsubplotcol` change nothing in any picture. -/
theorem C155_ignored_fails (fmt : F → List Char) (c : Call F) (title : List Char) (rows cols : Option Nat) (ds : List (Stamp F × Nat)) :
    drawFrame fmt { c with title := title, rows := rows, cols := cols } ds = drawFrame fmt c ds := by
  cases ds <;> rfl

omit [Zero F] [DecidableEq F] in
theorem Anim.plotFigure_length {o : Opts} {d : Captions F} {nc : Nat} {fig fig' : Figure F} (h : plotFigure o d nc fig = .ok fig') :
    fig.panels.length ≤ fig'.panels.length ∧ ∀ c ∈ idxComps o nc, panelFor o c < fig'.panels.length := by
  simp only [plotFigure, bind, Except.bind, pure, Except.pure] at h
  split at h
  · cases h
  rename_i f1 hf1
  split at h
  · cases h
  rename_i qs hqs
  cases h
  obtain ⟨h1, hl, -⟩ := drawComps_get hqs
  refine ⟨?_, fun c hc => lt_of_lt_of_le (h1 c hc) hl⟩
  by_cases hne : fig.panels = []
  · simp [hne]
  · rw [← newAxes_again hne hf1]
    exact hl

omit [Zero F] [DecidableEq F] in
theorem Anim.drawn_calls : ∀ {calls : List (Opts × Captions F × Nat)} {fig fig' : Figure F} (_ : plotFigures calls fig = .ok fig')
    (k : Nat) (q : Panel F) (_ : fig'.panels[k]? = some q),
    q.drawn = ((fig.panels[k]?).map Panel.drawn).getD [] ++ calls.flatMap fun e =>
      ((idxComps e.1 e.2.2).filter (panelFor e.1 · = k)).map
        (compLabel e.2.1.labelPrefix (decide ((idxComps e.1 e.2.2).length > 1)))
  | [], fig, fig', h, k, q, hq => by
    cases h
    simp [hq]
  | (o, d, nc) :: rest, fig, fig', h, k, q, hq => by
    obtain ⟨f1, h1, h2⟩ := Anim.plotFigures_cons h
    rw [Anim.drawn_calls h2 k q hq, List.flatMap_cons, ← List.append_assoc]
    congr 1
    cases hk : f1.panels[k]? with
    | some p => simpa using C151_drawn h1 k p hk
    | none =>
      obtain ⟨l1, l2⟩ := Anim.plotFigure_length h1
      have hl := List.getElem?_eq_none_iff.mp hk
      rw [List.getElem?_eq_none (l1.trans hl), List.filter_eq_nil_iff.mpr (by
        intro c hc
        have := l2 c hc
        simp
        omega)]
      rfl

omit [Zero F] [DecidableEq F] in
theorem Anim.comp_label (n : Nat) :
    compLabel [] (decide (1 < n)) = fun c => if 1 < n then 'c' :: Nat.toDigits 10 c else [] := by
  funext c
  by_cases h : 1 < n
  · simp only [h, if_true, decide_true]
    exact (C151_labels [] c).2.1
  · simp [h, compLabel]

/-- **C155.**  Panel `k` of a picture shows component `k` of every dataset of the frame, in the order of the datasets. -/
theorem C155_drawn (fmt : F → List Char) {c : Call F} {ds : List (Stamp F × Nat)} {fig : Figure F}
    (h : drawFrame fmt c ds = .ok fig) (k : Nat) (q : Panel F) (hq : fig.panels[k]? = some q) :
    q.drawn = ds.flatMap fun e => drawnIn c.squeeze (e.2 / (if c.vectors then 2 else 1)) k := by
  unfold drawFrame at h
  split at h
  · cases h
  rw [Anim.drawn_calls h k q hq]
  cases ds with
  | nil => simp [frameCalls]
  | cons e rest =>
    obtain ⟨s, n⟩ := e
    simp [frameCalls, List.flatMap_map, drawnIn, callOpts, callCaptions, idxComps, panelFor, Anim.comp_label]

omit [Zero F] [DecidableEq F] in
theorem Anim.drawComp_bars {o : Opts} {d : Captions F} {several : Bool} {axes : Nat} {ps qs : List (Panel F)} {c : Nat}
    (h : drawComp o d several axes ps c = .ok qs) :
    qs.map Panel.bar = ps.map Panel.bar ++ if o.colorbar then [true] else [] := by
  unfold drawComp at h
  split at h
  · cases h
    have e : ∀ (k : Nat) (ps : List (Panel F)), (setLimits d k ps).map Panel.bar = ps.map Panel.bar := by
      intro k ps
      refine List.ext_getElem? fun i => ?_
      rw [List.getElem?_map, setLimits_get, List.getElem?_map, Option.map_map]
      congr 1
      funext p
      exact (limitPanel_same d _ p).1.bar
    have e' : ∀ ps : List (Panel F), (autoscale d ps).map Panel.bar = ps.map Panel.bar := by
      intro ps
      refine List.ext_getElem? fun i => ?_
      rw [List.getElem?_map, autoscale_get, List.getElem?_map, Option.map_map]
      congr 1
      funext p
      simp only [Function.comp]
      split
      · exact (autoPanel_same _ p).1.bar
      · rfl
    rw [e, e', List.map_append]
    congr 1
    · refine List.ext_getElem? fun i => ?_
      rw [List.getElem?_map, List.getElem?_modify, List.getElem?_map, Option.map_eq_map, Option.map_map]
      congr 1
      funext p
      simp only [Function.comp]
      split <;> rfl
    · split <;> rfl
  · cases h

omit [Zero F] [DecidableEq F] in
theorem Anim.drawComps_bars {o : Opts} {d : Captions F} {several : Bool} {axes : Nat} : ∀ {cs : List Nat} {ps qs : List (Panel F)},
    drawComps o d several axes ps cs = .ok qs →
    qs.map Panel.bar = ps.map Panel.bar ++ List.replicate (if o.colorbar then cs.length else 0) true
  | [], ps, qs, h => by
    cases h
    simp
  | c :: cs, ps, qs, h => by
    simp only [drawComps, bind, Except.bind] at h
    split at h
    · cases h
    rename_i ms hm
    rw [Anim.drawComps_bars h, Anim.drawComp_bars hm]
    cases o.colorbar <;> simp [List.replicate_succ]

omit [Zero F] [DecidableEq F] in
theorem Anim.newAxes_bars {o : Opts} {d : Captions F} {nc : Nat} {fig fig' : Figure F} (h : newAxes o d nc fig = .ok fig') :
    (fig'.panels.map Panel.bar).count true = (fig.panels.map Panel.bar).count true := by
  unfold newAxes at h
  split at h
  · split at h
    · cases h
    · cases h; rfl
  · rename_i hne
    rw [not_not.mp hne]
    split at h
    · cases h; rfl
    · simp only [bind, Except.bind, pure, Except.pure] at h
      split at h
      · cases h
      · cases h
        rw [List.map_map, List.map_nil, List.count_nil, List.count_eq_zero]
        simp [newPanel]

omit [Zero F] [DecidableEq F] in
theorem Anim.plotFigure_bars {o : Opts} {d : Captions F} {nc : Nat} {fig fig' : Figure F} (h : plotFigure o d nc fig = .ok fig') :
    (fig'.panels.map Panel.bar).count true =
      (fig.panels.map Panel.bar).count true + if o.colorbar then (idxComps o nc).length else 0 := by
  simp only [plotFigure, bind, Except.bind, pure, Except.pure] at h
  split at h
  · cases h
  rename_i f1 hf1
  split at h
  · cases h
  rename_i qs hqs
  cases h
  rw [Anim.drawComps_bars hqs, List.count_append, Anim.newAxes_bars hf1, List.count_replicate_self]

omit [Zero F] [DecidableEq F] in
theorem Anim.plotFigures_bars : ∀ {calls : List (Opts × Captions F × Nat)} {fig fig' : Figure F}, plotFigures calls fig = .ok fig' →
    (fig'.panels.map Panel.bar).count true =
      (fig.panels.map Panel.bar).count true + (calls.map fun e => if e.1.colorbar then (idxComps e.1 e.2.2).length else 0).sum
  | [], fig, fig', h => by
    cases h
    simp
  | (o, d, nc) :: rest, fig, fig', h => by
    obtain ⟨f1, h1, h2⟩ := Anim.plotFigures_cons h
    rw [Anim.plotFigures_bars h2, Anim.plotFigure_bars h1, List.map_cons, List.sum_cons, Nat.add_assoc]

/-- **C155.**  However many datasets a frame has, a picture has one colour bar for each panel of the first of them, or none. -/
theorem C155_bars (fmt : F → List Char) {c : Call F} {s : Stamp F} {nc : Nat} {rest : List (Stamp F × Nat)} {fig : Figure F}
    (h : drawFrame fmt c ((s, nc) :: rest) = .ok fig) :
    (fig.panels.map Panel.bar).count true = if c.bars then nc / (if c.vectors then 2 else 1) else 0 := by
  rw [drawFrame, if_neg (by simp)] at h
  rw [Anim.plotFigures_bars h]
  have : ∀ l : List (Stamp F × Nat), ((l.map fun e => (callOpts c false, callCaptions fmt c e.1, e.2)).map fun e =>
      if e.1.colorbar then (idxComps e.1 e.2.2).length else 0).sum = 0 := by
    intro l
    induction l with
    | nil => rfl
    | cons a l ih => simpa [callOpts] using ih
  rw [frameCalls, List.map_cons, List.sum_cons, this]
  simp [callOpts, idxComps]

omit [Zero F] [DecidableEq F] in
theorem Anim.plotFigures_ok : ∀ (calls : List (Opts × Captions F × Nat)) (fig : Figure F), fig.panels ≠ [] →
    (∀ e ∈ calls, e.1.startAxes = 0 ∧ e.1.numAxes = none ∧
      (e.1.squeeze = false → (idxComps e.1 e.2.2).length ≤ fig.panels.length)) → ∃ fig', plotFigures calls fig = .ok fig'
  | [], fig, _, _ => ⟨fig, rfl⟩
  | (o, d, nc) :: rest, fig, hne, h => by
    obtain ⟨h1, h2, h3⟩ := h _ List.mem_cons_self
    have hw : panelsWanted o nc = (idxComps o nc).length := by
      simp only at h2
      simp [panelsWanted, h2]
    have hnew : newAxes o d nc fig = .ok fig := by
      rw [newAxes, if_pos hne, if_neg]
      rintro ⟨hs, hgt⟩
      have := h3 hs
      simp only at this
      omega
    have hpos : 0 < fig.panels.length := List.length_pos_iff.mpr hne
    obtain ⟨qs, hq⟩ := drawComps_ok (o := o) (d := d) (several := decide ((idxComps o nc).length > 1)) (axes := fig.panels.length)
      (cs := idxComps o nc) fig.panels (by
        intro c hc
        unfold panelFor
        simp only at h1
        cases hs : o.squeeze with
        | true => simpa using hpos
        | false =>
          have h4 := h3 hs
          have h5 : c < (idxComps o nc).length := by simpa [idxComps] using hc
          simp only at h4
          simp only [Bool.false_eq_true, if_false, h1]
          omega)
    have hpf : plotFigure o d nc fig = .ok { fig with panels := qs } := by
      simp only [plotFigure, hnew, hq, bind, Except.bind, pure, Except.pure]
    have hl := (drawComps_get hq).2.1
    obtain ⟨f, hf⟩ := Anim.plotFigures_ok rest { fig with panels := qs } (by
      intro he
      simp only at he
      rw [he] at hl
      simp at hl
      exact hne hl) fun e he => by
        obtain ⟨a1, a2, a3⟩ := h e (List.mem_cons_of_mem _ he)
        exact ⟨a1, a2, fun hs => (a3 hs).trans hl⟩
    exact ⟨f, by simp only [plotFigures, hpf, bind, Except.bind, hf]⟩

/-- **C155.**  A picture is drawn for every frame whose datasets have as many components as its first one, or fewer. -/
theorem C155_drawable (fmt : F → List Char) (c : Call F) (s : Stamp F) {nc : Nat} (hc : 1 ≤ nc / (if c.vectors then 2 else 1))
    {rest : List (Stamp F × Nat)} (hr : ∀ e ∈ rest, e.2 ≤ nc) : ∃ fig, drawFrame fmt c ((s, nc) :: rest) = .ok fig := by
  rw [drawFrame, if_neg (by simp)]
  have hw : ∀ (b : Bool) (n : Nat), (idxComps (callOpts c b) n).length = n / (if c.vectors then 2 else 1) := by
    intro b n
    exact List.length_range
  have key : ∃ f1, plotFigure (callOpts c true) (callCaptions fmt c s) nc {} = .ok f1 ∧ f1.panels ≠ [] ∧
      (c.squeeze = false → nc / (if c.vectors then 2 else 1) ≤ f1.panels.length) := by
    cases hs : c.squeeze with
    | true =>
      obtain ⟨f, p, e, g1, -⟩ := C151_squeezed (o := callOpts c true) (d := callCaptions fmt c s) hs nc
      exact ⟨f, e, by intro he; rw [he] at g1; simp at g1, by simp⟩
    | false =>
      have hp : panelsWanted (callOpts c true) nc = nc / (if c.vectors then 2 else 1) := by simp [panelsWanted, callOpts, idxComps]
      obtain ⟨f, e, -, -, -, g4, -⟩ := C151_captions (o := callOpts c true) (nc := nc) (d := callCaptions fmt c s)
        (titles := []) (xs := []) (ys := []) hs (by simp [callOpts]) (by simp [callOpts]) (by rw [hp]; exact hc)
        (by rw [hp, hw]; simp [callOpts]) ⟨rfl, by simp⟩ ⟨rfl, by simp⟩ ⟨rfl, by simp⟩
      rw [hp] at g4
      refine ⟨f, e, fun he => ?_, fun _ => g4⟩
      rw [he] at g4
      simp only [List.length_nil] at g4
      omega
  obtain ⟨f1, e, hne, hl⟩ := key
  obtain ⟨f, hf⟩ := Anim.plotFigures_ok (rest.map fun e => (callOpts c false, callCaptions fmt c e.1, e.2)) f1 hne (by
    intro x hx
    obtain ⟨y, hy, rfl⟩ := List.mem_map.mp hx
    refine ⟨rfl, rfl, fun hs => ?_⟩
    rw [hw]
    exact (Nat.div_le_div_right (hr y hy)).trans (hl hs))
  exact ⟨f, by simp only [frameCalls, plotFigures, e, bind, Except.bind, hf]⟩

/-- C155 fails for a frame without datasets. -/
theorem C155_empty_fails (fmt : F → List Char) (c : Call F) : drawFrame fmt c [] = .error .unboundLocal := rfl

end

section Witness

/-- Two datasets of frame 3 with two components each, drawn in colours. -/
example : (drawFrame (fun t : ℚ => if t = 2 then "2.0000e+00".toList else [])
    { bars := true, one := false, title := "ignored".toList } [(⟨some 3, some 2⟩, 2), (⟨some 3, some 2⟩, 2)]).toOption.map
      (fun fig => (fig.title, fig.panels.map Panel.drawn, fig.panels.map Panel.bar)) =
    some (" frame: 3  time: 2.0000e+00".toList, [["c0".toList, "c0".toList], ["c1".toList, "c1".toList], [], []],
      [false, false, true, true]) := by
  decide +kernel

/-- The same with all lines in one panel. -/
example : (drawFrame (fun t : ℚ => if t = 2 then "2.0000e+00".toList else [])
    { squeeze := true } [(⟨some 3, some 2⟩, 2), (⟨some 3, some 2⟩, 2)]).toOption.map
      (fun fig => (fig.panels.map Panel.title, fig.panels.map Panel.drawn)) =
    some ([" frame: 3  time: 2.0000e+00".toList], [["c0".toList, "c1".toList, "c0".toList, "c1".toList]]) := by
  decide +kernel

end Witness
end Pgkyl
