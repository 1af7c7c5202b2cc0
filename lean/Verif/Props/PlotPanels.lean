import Verif.Props.Plot
import Verif.Spec.PlotPanels
import Verif.Lemmas.Py
import Verif.Lemmas.Idx
/-! # C151: captions, labels and limits of the panels -/

namespace Pgkyl
open Spec Plot

variable {F : Type}

theorem entry_listed {text : List Char} {parts : List (List Char)} (h : Listed text parts) (k : Nat) :
    entry text k = parts.getD k [] := by
  obtain ⟨rfl, hc⟩ := h
  unfold entry
  cases parts with
  | nil => simp [joinWith]
  | cons p ps =>
    by_cases he : joinWith ',' (p :: ps) = []
    · rw [if_pos he]
      cases ps with
      | nil =>
        simp only [joinWith] at he
        subst he
        cases k <;> simp
      | cons q ps => simp [joinWith] at he
    · rw [if_neg he, splitOn_joinWith _ (by simp) hc]
      by_cases hk : k < (p :: ps).length
      · rw [if_pos hk, List.getD_eq_getElem?_getD]
      · rw [if_neg hk, List.getD_eq_getElem?_getD, List.getElem?_eq_none (by omega)]; rfl

/-! ### One component -/

theorem drawComp_ok {o : Opts} {d : Captions F} {several : Bool} {axes : Nat} {ps qs : List (Panel F)} {c : Nat}
    (h : drawComp o d several axes ps c = .ok qs) :
    panelFor o c < axes ∧ qs = setLimits d (panelFor o c) (autoscale d
      (ps.modify (panelFor o c) (addLabel (compLabel d.labelPrefix several c)) ++
        if o.colorbar then [{ bar := true }] else [])) := by
  unfold drawComp at h
  split at h
  · next hk => exact ⟨hk, (Except.ok.inj h).symm⟩
  · cases h

theorem autoscale_length (d : Captions F) (ps : List (Panel F)) : (autoscale d ps).length = ps.length := by
  unfold autoscale
  split <;> simp

theorem setLimits_length (d : Captions F) (k : Nat) (ps : List (Panel F)) : (setLimits d k ps).length = ps.length := by
  simp [setLimits]

theorem autoscale_get (d : Captions F) (ps : List (Panel F)) (i : Nat) : (autoscale d ps)[i]? = (ps[i]?).map fun p =>
    if d.one = true ∧ d.relax = false then autoPanel (decide (i + 1 = ps.length)) p else p := by
  unfold autoscale
  split <;> simp

theorem setLimits_get (d : Captions F) (k : Nat) (ps : List (Panel F)) (i : Nat) :
    (setLimits d k ps)[i]? = (ps[i]?).map fun p => limitPanel d (decide (i = k)) p := by
  simp [setLimits]

theorem autoPanel_same (l : Bool) (p : Panel F) : SameCaptions p (autoPanel l p) ∧ (autoPanel l p).drawn = p.drawn :=
  ⟨⟨rfl, rfl, rfl, rfl, rfl⟩, rfl⟩

theorem limitPanel_same (d : Captions F) (h : Bool) (p : Panel F) :
    SameCaptions p (limitPanel d h p) ∧ (limitPanel d h p).drawn = p.drawn := by
  unfold limitPanel
  split <;> exact ⟨⟨rfl, rfl, rfl, rfl, rfl⟩, rfl⟩

theorem setLim_within (g l : Option F × Option F) : Within g (setLim g l) := by
  constructor <;> intro a ha <;> simp [setLim, ha]

theorem limitPanel_x (d : Captions F) (h : Bool) {p : Panel F} (hb : p.bar = false) : Within d.xlim (limitPanel d h p).xlim := by
  simp only [limitPanel, hb, Bool.false_eq_true, if_false]
  exact setLim_within _ _

theorem limitPanel_y (d : Captions F) (h : Bool) {p : Panel F} (hb : p.bar = false) (hy : h = true ∨ Within d.ylim p.ylim) :
    Within d.ylim (limitPanel d h p).ylim := by
  simp only [limitPanel, hb, Bool.false_eq_true, if_false]
  split
  · exact setLim_within _ _
  · next hn => exact hy.resolve_left fun e => hn (Or.inl e)

theorem Spec.SameCaptions.trans {p q r : Panel F} (h : SameCaptions p q) (h' : SameCaptions q r) : SameCaptions p r :=
  ⟨h'.1.trans h.1, h'.2.trans h.2, h'.3.trans h.3, h'.4.trans h.4, h'.5.trans h.5⟩

/-- What one component changes in the axes there are. -/
theorem drawComp_get {o : Opts} {d : Captions F} {several : Bool} {axes : Nat} {ps qs : List (Panel F)} {c i : Nat}
    (h : drawComp o d several axes ps c = .ok qs) {p : Panel F} (hp : ps[i]? = some p) :
    ∃ q, qs[i]? = some q ∧ SameCaptions p q ∧
      q.drawn = p.drawn ++ (if panelFor o c = i then [compLabel d.labelPrefix several c] else []) ∧
      (p.bar = false → Within d.xlim q.xlim) ∧ (p.bar = false → panelFor o c = i → Within d.ylim q.ylim) ∧
      (i + 1 < ps.length → p.bar = false → Within d.ylim p.ylim → Within d.ylim q.ylim) := by
  obtain ⟨hk, rfl⟩ := drawComp_ok h
  generalize panelFor o c = k at *
  generalize compLabel d.labelPrefix several c = lab at *
  have hi : i < ps.length := (List.getElem?_eq_some_iff.mp hp).1
  generalize hbars : (if o.colorbar then [({ bar := true } : Panel F)] else []) = bars
  have hm : (ps.modify k (addLabel lab) ++ bars)[i]? =
      some { p with drawn := p.drawn ++ (if k = i then [lab] else []) } := by
    rw [List.getElem?_append_left (by simpa using hi), List.getElem?_modify]
    by_cases hki : k = i <;> simp [hki, hp, addLabel]
  have hlen : i + 1 < ps.length → decide (i + 1 = (ps.modify k (addLabel lab) ++ bars).length) = false := by
    intro h
    rw [List.length_append, List.length_modify]; simp; omega
  rw [setLimits_get, autoscale_get, hm]
  generalize hla : decide (i + 1 = (ps.modify k (addLabel lab) ++ bars).length) = la at *
  generalize hp1 : ({ p with drawn := p.drawn ++ (if k = i then [lab] else []) } : Panel F) = p1
  have hs1 : SameCaptions p p1 := by subst hp1; exact ⟨rfl, rfl, rfl, rfl, rfl⟩
  have hd1 : p1.drawn = p.drawn ++ (if k = i then [lab] else []) := by subst hp1; rfl
  have hy1 : p1.ylim = p.ylim := by subst hp1; rfl
  generalize hp2 : (if d.one = true ∧ d.relax = false then autoPanel la p1 else p1) = p2
  have hs2 : SameCaptions p1 p2 ∧ p2.drawn = p1.drawn ∧ (la = false → p2.ylim = p1.ylim) := by
    subst hp2
    split
    · exact ⟨(autoPanel_same la p1).1, rfl, fun e => by subst e; rfl⟩
    · exact ⟨⟨rfl, rfl, rfl, rfl, rfl⟩, rfl, fun _ => rfl⟩
  obtain ⟨h2a, h2b, h2c⟩ := hs2
  have hb2 : p.bar = false → p2.bar = false := fun h => by rw [h2a.bar, hs1.bar, h]
  simp only [Option.map_some, hp2]
  refine ⟨_, rfl, (hs1.trans h2a).trans (limitPanel_same d _ p2).1, ?_, fun hb => limitPanel_x d _ (hb2 hb),
    fun hb hki => limitPanel_y d _ (hb2 hb) (Or.inl (by simp [hki])), fun hl hb hy => limitPanel_y d _ (hb2 hb) (Or.inr ?_)⟩
  · rw [(limitPanel_same d _ p2).2, h2b, hd1]
  · rw [h2c (hlen hl), hy1]; exact hy

theorem drawComp_length {o : Opts} {d : Captions F} {several : Bool} {axes : Nat} {ps qs : List (Panel F)} {c : Nat}
    (h : drawComp o d several axes ps c = .ok qs) : ps.length ≤ qs.length := by
  obtain ⟨-, rfl⟩ := drawComp_ok h
  rw [setLimits_length, autoscale_length, List.length_append, List.length_modify]
  omega

/-- The axes added by one component are colour bars in which nothing is drawn. -/
theorem drawComp_new {o : Opts} {d : Captions F} {several : Bool} {axes : Nat} {ps qs : List (Panel F)} {c i : Nat}
    (h : drawComp o d several axes ps c = .ok qs) (hi : ps.length ≤ i) {q : Panel F} (hq : qs[i]? = some q) :
    q.bar = true ∧ q.drawn = [] := by
  obtain ⟨-, rfl⟩ := drawComp_ok h
  rw [setLimits_get, autoscale_get] at hq
  rw [List.getElem?_append_right (by simpa using hi)] at hq
  cases hb : o.colorbar with
  | false => simp [hb] at hq
  | true =>
    rw [hb, if_pos rfl] at hq
    generalize i - _ = j at hq
    match j, hq with
    | 0, hq =>
      simp only [List.getElem?_cons_zero, Option.map_some, Option.some.injEq] at hq
      subst hq
      rw [(limitPanel_same ..).1.bar, (limitPanel_same ..).2]
      split
      · rw [(autoPanel_same ..).1.bar, (autoPanel_same ..).2]
        exact ⟨rfl, rfl⟩
      · exact ⟨rfl, rfl⟩
    | j + 1, hq => simp at hq

/-! ### All components -/

theorem drawComps_get {o : Opts} {d : Captions F} {several : Bool} {axes : Nat} : ∀ {cs : List Nat} {ps qs : List (Panel F)},
    drawComps o d several axes ps cs = .ok qs → (∀ c ∈ cs, panelFor o c < axes) ∧ ps.length ≤ qs.length ∧
    ∀ i, (∀ p, ps[i]? = some p → ∃ q, qs[i]? = some q ∧ SameCaptions p q ∧
      q.drawn = p.drawn ++ (cs.filter (panelFor o · = i)).map (compLabel d.labelPrefix several)) ∧
      (axes ≤ ps.length → ps.length ≤ i → ∀ q, qs[i]? = some q → q.bar = true ∧ q.drawn = [])
  | [], ps, qs, h => by
    cases h
    refine ⟨by simp, le_rfl, fun i => ⟨fun p hp => ⟨p, hp, ⟨rfl, rfl, rfl, rfl, rfl⟩, by simp⟩, fun _ hi q hq => ?_⟩⟩
    rw [List.getElem?_eq_none hi] at hq; cases hq
  | c :: cs, ps, qs, h => by
    simp only [drawComps, bind, Except.bind] at h
    split at h
    · cases h
    rename_i ms hm
    obtain ⟨h1, h2, h3⟩ := drawComps_get h
    refine ⟨fun x hx => ?_, (drawComp_length hm).trans h2, fun i => ⟨fun p hp => ?_, fun ha hi q hq => ?_⟩⟩
    · rcases List.mem_cons.mp hx with rfl | hx
      · exact (drawComp_ok hm).1
      · exact h1 x hx
    · obtain ⟨m, hm', hs, hd, -⟩ := drawComp_get hm hp
      obtain ⟨q, hq, hs', hd'⟩ := (h3 i).1 m hm'
      refine ⟨q, hq, hs.trans hs', ?_⟩
      rw [hd', hd, List.append_assoc, List.filter_cons]
      by_cases hk : panelFor o c = i <;> simp [hk]
    · by_cases hmi : ms.length ≤ i
      · exact (h3 i).2 (ha.trans (drawComp_length hm)) hmi q hq
      · obtain ⟨m, hm'⟩ : ∃ m, ms[i]? = some m := ⟨_, List.getElem?_eq_getElem (by omega)⟩
        obtain ⟨q', hq', hs, hd⟩ := (h3 i).1 m hm'
        obtain ⟨hb, hdr⟩ := drawComp_new hm hi hm'
        rw [hq] at hq'
        cases hq'
        refine ⟨hs.bar.trans hb, ?_⟩
        rw [hd, hdr, List.nil_append]
        have : cs.filter (panelFor o · = i) = [] := by
          rw [List.filter_eq_nil_iff]
          intro x hx
          have := h1 x hx
          simp only [decide_eq_true_eq]
          omega
        rw [this]; rfl

theorem drawComps_ok {o : Opts} {d : Captions F} {several : Bool} {axes : Nat} : ∀ {cs : List Nat} (ps : List (Panel F)),
    (∀ c ∈ cs, panelFor o c < axes) → ∃ qs, drawComps o d several axes ps cs = .ok qs
  | [], ps, _ => ⟨ps, rfl⟩
  | c :: cs, ps, h => by
    obtain ⟨ms, hm⟩ : ∃ ms, drawComp o d several axes ps c = .ok ms := by
      unfold drawComp
      rw [if_pos (show panelIndex o c < axes from h c (by simp))]
      exact ⟨_, rfl⟩
    obtain ⟨qs, hq⟩ := drawComps_ok (d := d) (several := several) ms fun x hx => h x (List.mem_cons_of_mem _ hx)
    exact ⟨qs, by simp only [drawComps, hm, bind, Except.bind, hq]⟩

/-- The limits of panel `i` stay as given while other components are drawn. -/
theorem drawComps_keep {o : Opts} {d : Captions F} {several : Bool} {axes i : Nat} : ∀ {cs : List Nat} {ps qs : List (Panel F)}
    {p : Panel F}, drawComps o d several axes ps cs = .ok qs → ps[i]? = some p → p.bar = false → Within d.xlim p.xlim →
    Within d.ylim p.ylim → (∀ c ∈ cs, panelFor o c = i ∨ i + 1 < ps.length) →
    ∃ q, qs[i]? = some q ∧ Within d.xlim q.xlim ∧ Within d.ylim q.ylim
  | [], ps, qs, p, h, hp, _, hx, hy, _ => by
    cases h
    exact ⟨p, hp, hx, hy⟩
  | c :: cs, ps, qs, p, h, hp, hb, hx, hy, hc => by
    simp only [drawComps, bind, Except.bind] at h
    split at h
    · cases h
    rename_i ms hm
    obtain ⟨m, hm', hs, -, h1, h2, h3⟩ := drawComp_get hm hp
    refine drawComps_keep h hm' (hs.bar.trans hb) (h1 hb) ?_ fun x hx => ?_
    · rcases hc c (by simp) with h | h
      · exact h2 hb h
      · exact h3 h hb hy
    · rcases hc x (List.mem_cons_of_mem _ hx) with h | h
      · exact Or.inl h
      · exact Or.inr (h.trans_le (drawComp_length hm))

theorem drawComps_within {o : Opts} {d : Captions F} {several : Bool} {axes : Nat} : ∀ {cs : List Nat} {ps qs : List (Panel F)},
    drawComps o d several axes ps cs = .ok qs → axes ≤ ps.length → cs.Pairwise (· < ·) →
    ∀ c ∈ cs, ∀ p, ps[panelFor o c]? = some p → p.bar = false →
    ∃ q, qs[panelFor o c]? = some q ∧ Within d.xlim q.xlim ∧ Within d.ylim q.ylim
  | c :: cs, ps, qs, h, ha, hs, x, hx, p, hp, hb => by
    have hall := (drawComps_get h).1
    simp only [drawComps, bind, Except.bind] at h
    split at h
    · cases h
    rename_i ms hm
    obtain ⟨h1, hs'⟩ := List.pairwise_cons.mp hs
    obtain ⟨m, hm', hsc, -, hx', hy', -⟩ := drawComp_get hm hp
    rcases List.mem_cons.mp hx with rfl | hx
    · refine drawComps_keep h hm' (hsc.bar.trans hb) (hx' hb) (hy' hb rfl) fun y hy => ?_
      have := h1 y hy
      have := hall y (List.mem_cons_of_mem _ hy)
      have := drawComp_length hm
      by_cases hsq : o.squeeze = true
      · left; simp [panelFor, hsq]
      · right
        simp only [panelFor, hsq, Bool.false_eq_true, if_false] at *
        omega
    · exact drawComps_within h (ha.trans (drawComp_length hm)) hs' x hx m hm' (hsc.bar.trans hb)

/-! ### The property -/

theorem newAxes_again {o : Opts} {d : Captions F} {nc : Nat} {fig fig' : Figure F} (hne : fig.panels ≠ [])
    (h : newAxes o d nc fig = .ok fig') : fig' = fig := by
  unfold newAxes at h
  rw [if_pos hne] at h
  split at h
  · cases h
  · exact (Except.ok.inj h).symm

/-- C151: captions. On a new figure the title and the axis labels are those of the figure, panel `k` has the captions number `k`
of the lists given (none beyond their ends), and exactly the panels that are not needed are switched off. -/
theorem C151_captions {o : Opts} (hsq : o.squeeze = false) (hr : o.rows ≠ some 0) (hc : o.cols ≠ some 0) {nc : Nat}
    (hn : 1 ≤ panelsWanted o nc) (hfit : o.startAxes + (idxComps o nc).length ≤ panelsWanted o nc) {d : Captions F}
    {titles xs ys : List (List Char)} (ht : Listed d.titles titles) (hx : Listed d.xlabels xs) (hy : Listed d.ylabels ys) :
    ∃ fig, plotFigure o d nc {} = .ok fig ∧ fig.title = d.title ∧ fig.xlabel = d.xlabel ∧ fig.ylabel = d.ylabel ∧
      panelsWanted o nc ≤ fig.panels.length ∧
      ∀ k p, fig.panels[k]? = some p → p.bar = false → p.title = titles.getD k [] ∧ p.xlabel = xs.getD k [] ∧
        p.ylabel = ys.getD k [] ∧ (p.off = true ↔ panelsWanted o nc ≤ k) := by
  obtain ⟨r, c, hl, hroom⟩ := layout_room hn hr hc
  have hnew : newAxes o d nc ({} : Figure F) = .ok
      { title := d.title, xlabel := d.xlabel, ylabel := d.ylabel,
        panels := (List.range (r * c)).map (newPanel d (panelsWanted o nc)) } := by
    have e : ∀ l : List Char, (if l = [] then ([] : List Char) else l) = l := by
      intro l
      split <;> simp_all
    simp [newAxes, hsq, hl, bind, Except.bind, pure, Except.pure, e]
  obtain ⟨qs, hq⟩ := drawComps_ok (o := o) (d := d) (several := decide ((idxComps o nc).length > 1)) (axes := r * c)
    (cs := idxComps o nc) ((List.range (r * c)).map (newPanel d (panelsWanted o nc))) (by
      intro x hx
      have hlen : (idxComps o nc).length = nc / (if o.vectors then 2 else 1) := by simp [idxComps]
      rw [idxComps, List.mem_range] at hx
      unfold panelFor
      rw [hsq]
      simp only [Bool.false_eq_true, if_false]
      omega)
  obtain ⟨-, h2, h3⟩ := drawComps_get hq
  refine ⟨{ title := d.title, xlabel := d.xlabel, ylabel := d.ylabel, panels := qs }, ?_, rfl, rfl, rfl, ?_, fun k p hp hb => ?_⟩
  · simp only [plotFigure, hnew, bind, Except.bind, pure, Except.pure, List.length_map, List.length_range, hq]
  · simp only [List.length_map, List.length_range] at h2
    exact hroom.trans h2
  · by_cases hk : k < r * c
    · obtain ⟨q, hq', hs, -⟩ := (h3 k).1 (newPanel d (panelsWanted o nc) k) (by simp [hk])
      rw [hp] at hq'
      cases hq'
      rw [hs.title, hs.xlabel, hs.ylabel, hs.off]
      simp only [newPanel, entry_listed ht, entry_listed hx, entry_listed hy, decide_eq_true_eq, true_and]
    · have := ((h3 k).2 (by simp) (by simpa using hk) p hp).1
      rw [hb] at this; cases this

/-- C151 with `--squeeze`: everything is in one panel with the title and the labels of the plot; the lists are not used. -/
theorem C151_squeezed {o : Opts} (hsq : o.squeeze = true) {d : Captions F} (nc : Nat) :
    ∃ fig p, plotFigure o d nc {} = .ok fig ∧ fig.panels[0]? = some p ∧ p.title = d.title ∧ p.xlabel = d.xlabel ∧
      p.ylabel = d.ylabel ∧ p.drawn = (idxComps o nc).map (compLabel d.labelPrefix (decide ((idxComps o nc).length > 1))) := by
  have hnew : newAxes o d nc ({} : Figure F) = .ok { panels := [{ xlabel := d.xlabel, ylabel := d.ylabel, title := d.title }] } := by
    simp [newAxes, hsq]
  have hpf : ∀ c, panelFor o c = 0 := by intro c; simp [panelFor, hsq]
  obtain ⟨qs, hq⟩ := drawComps_ok (o := o) (d := d) (several := decide ((idxComps o nc).length > 1)) (axes := 1)
    (cs := idxComps o nc) [{ xlabel := d.xlabel, ylabel := d.ylabel, title := d.title }] (by intro c _; rw [hpf]; omega)
  obtain ⟨-, -, h3⟩ := drawComps_get hq
  obtain ⟨q, hq', hs, hd⟩ := (h3 0).1 _ rfl
  refine ⟨{ panels := qs }, q, ?_, hq', hs.title, hs.xlabel, hs.ylabel, ?_⟩
  · simp only [plotFigure, hnew, bind, Except.bind, pure, Except.pure, List.length_cons, List.length_nil, Nat.zero_add, hq]
  · rw [hd, List.nil_append, List.filter_eq_self.mpr (by intro c _; simp [hpf])]

/-- C151: drawing more datasets into a figure leaves its captions as they are, and what was drawn before stays. -/
theorem C151_again : ∀ {calls : List (Opts × Captions F × Nat)} {fig fig' : Figure F}, fig.panels ≠ [] →
    plotFigures calls fig = .ok fig' → fig'.title = fig.title ∧ fig'.xlabel = fig.xlabel ∧ fig'.ylabel = fig.ylabel ∧
      ∀ (k : Nat) (p : Panel F), fig.panels[k]? = some p → ∃ q, fig'.panels[k]? = some q ∧ SameCaptions p q ∧ p.drawn <+: q.drawn
  | [], fig, fig', _, h => by
    cases h
    exact ⟨rfl, rfl, rfl, fun k p hp => ⟨p, hp, ⟨rfl, rfl, rfl, rfl, rfl⟩, List.prefix_rfl⟩⟩
  | (o, d, nc) :: rest, fig, fig', hne, h => by
    simp only [plotFigures, bind, Except.bind] at h
    split at h
    · cases h
    rename_i mid hm
    simp only [plotFigure, bind, Except.bind, pure, Except.pure] at hm
    split at hm
    · cases hm
    rename_i f1 hf1
    cases newAxes_again hne hf1
    split at hm
    · cases hm
    rename_i qs hq
    cases hm
    obtain ⟨-, hl, h3⟩ := drawComps_get hq
    obtain ⟨i1, i2, i3, i4⟩ := C151_again (calls := rest) (by
      intro he
      simp only at he
      rw [he] at hl
      exact hne (List.length_eq_zero_iff.mp (by simpa using hl))) h
    refine ⟨i1, i2, i3, fun k p hp => ?_⟩
    obtain ⟨q, hq', hs, hd⟩ := (h3 k).1 p hp
    obtain ⟨r, hr, hs', hd'⟩ := i4 k q hq'
    exact ⟨r, hr, hs.trans hs', (hd ▸ List.prefix_append _ _).trans hd'⟩

/-- C151: what a call of `plot` draws: in panel `k` the components that belong there, in order, each with its label; nothing is
drawn in the colour bars it adds. -/
theorem C151_drawn {o : Opts} {d : Captions F} {nc : Nat} {fig fig' : Figure F} (h : plotFigure o d nc fig = .ok fig')
    (k : Nat) (q : Panel F) (hq : fig'.panels[k]? = some q) :
    q.drawn = ((fig.panels[k]?).map Panel.drawn).getD [] ++
      ((idxComps o nc).filter (panelFor o · = k)).map (compLabel d.labelPrefix (decide ((idxComps o nc).length > 1))) := by
  simp only [plotFigure, bind, Except.bind, pure, Except.pure] at h
  split at h
  · cases h
  rename_i f1 hf1
  split at h
  · cases h
  rename_i qs hqs
  cases h
  obtain ⟨h1, hl, h3⟩ := drawComps_get hqs
  by_cases hk : k < f1.panels.length
  · obtain ⟨p, hp⟩ : ∃ p, f1.panels[k]? = some p := ⟨_, List.getElem?_eq_getElem hk⟩
    obtain ⟨q', hq', -, hd⟩ := (h3 k).1 p hp
    rw [show qs[k]? = some q from hq] at hq'
    cases hq'
    rw [hd]
    congr 1
    by_cases hne : fig.panels = []
    · rw [hne]
      unfold newAxes at hf1
      rw [if_neg (by simp [hne])] at hf1
      split at hf1
      · cases hf1
        match k, hp with
        | 0, hp => simp at hp; simp [← hp]
        | k + 1, hp => simp at hp
      · simp only [bind, Except.bind, pure, Except.pure] at hf1
        split at hf1
        · cases hf1
        · cases hf1
          simp only [List.getElem?_map] at hp
          obtain ⟨a, -, rfl⟩ := Option.map_eq_some_iff.mp hp
          simp [newPanel]
    · rw [← newAxes_again hne hf1, hp]; rfl
  · obtain ⟨-, hd⟩ := (h3 k).2 le_rfl (by omega) q hq
    have hf : (idxComps o nc).filter (panelFor o · = k) = [] := by
      rw [List.filter_eq_nil_iff]
      intro x hx
      have := h1 x hx
      simp only [decide_eq_true_eq]
      omega
    rw [hd, hf]
    by_cases hne : fig.panels = []
    · simp [hne]
    · rw [← newAxes_again hne hf1, List.getElem?_eq_none (by omega)]; rfl

/-- C151: the label of the only component is the one given; of several, component `c` has the label given followed by `_c` and its
number (without underscores at the beginning), so that different components have different labels. -/
theorem C151_labels (pre : List Char) (c : Nat) : compLabel pre false c = pre ∧
    compLabel pre true c = (if pre.dropWhile (· = '_') = [] then ['c'] else pre.dropWhile (· = '_') ++ ['_', 'c']) ++ dec c ∧
    ∀ c', compLabel pre true c' = compLabel pre true c → c' = c := by
  have key : ∀ c : Nat, compLabel pre true c =
      (if pre.dropWhile (· = '_') = [] then ['c'] else pre.dropWhile (· = '_') ++ ['_', 'c']) ++ dec c := by
    intro c
    have hd : '_' ∉ dec c := isDigitStr_notMem (isDigitStr_toDigits c) (by decide)
    have hne := dec_ne_nil c
    have hl : lstrip '_' (pre ++ "_c".toList ++ Nat.toDigits 10 c) =
        (if pre.dropWhile (· = '_') = [] then ['c'] else pre.dropWhile (· = '_') ++ ['_', 'c']) ++ dec c := by
      unfold lstrip
      rw [List.append_assoc]
      have e : "_c".toList = ['_', 'c'] := by decide +kernel
      rw [e, List.dropWhile_append]
      by_cases h : pre.dropWhile (· = '_') = []
      · simp [h, dec]
      · simp [h, dec]
    unfold compLabel
    rw [if_pos rfl, strip, hl]
    generalize (if pre.dropWhile (· = '_') = [] then ['c'] else pre.dropWhile (· = '_') ++ ['_', 'c']) = a
    obtain ⟨x, ds, hx⟩ : ∃ x ds, (dec c).reverse = x :: ds := by
      cases h : (dec c).reverse with
      | nil => exact absurd (List.reverse_eq_nil_iff.mp h) hne
      | cons x ds => exact ⟨x, ds, rfl⟩
    have hxu : x ≠ '_' := by
      rintro rfl
      exact hd (List.mem_reverse.mp (hx ▸ List.mem_cons_self))
    have : lstrip '_' (a ++ dec c).reverse = (a ++ dec c).reverse := by
      rw [List.reverse_append, hx]
      simp [lstrip, hxu]
    rw [this, List.reverse_reverse]
  refine ⟨rfl, key c, fun c' h => ?_⟩
  rw [key, key] at h
  have := List.append_cancel_left h
  have h2 := congrArg natOfDigits this
  rwa [dec, dec, natOfDigits_toDigits, natOfDigits_toDigits] at h2

/-- C151: the limits given hold in every panel that is drawn into, on any figure. -/
theorem C151_limits_partial {o : Opts} {d : Captions F} {nc : Nat} {fig fig' : Figure F} (hb : ∀ p ∈ fig.panels, p.bar = false)
    (h : plotFigure o d nc fig = .ok fig') : ∀ c ∈ idxComps o nc, ∃ q, fig'.panels[panelFor o c]? = some q ∧
      Within d.xlim q.xlim ∧ Within d.ylim q.ylim := by
  simp only [plotFigure, bind, Except.bind, pure, Except.pure] at h
  split at h
  · cases h
  rename_i f1 hf1
  split at h
  · cases h
  rename_i qs hqs
  cases h
  intro c hc
  obtain ⟨p, hp⟩ : ∃ p, f1.panels[panelFor o c]? = some p :=
    ⟨_, List.getElem?_eq_getElem ((drawComps_get hqs).1 c hc)⟩
  refine drawComps_within hqs le_rfl List.pairwise_lt_range c hc p hp ?_
  have hm := List.mem_of_getElem? hp
  by_cases hne : fig.panels = []
  · unfold newAxes at hf1
    rw [if_neg (by simp [hne])] at hf1
    split at hf1
    · cases hf1
      simp only [List.mem_singleton] at hm
      rw [hm]
    · simp only [bind, Except.bind, pure, Except.pure] at hf1
      split at hf1
      · cases hf1
      · cases hf1
        simp only [List.mem_map] at hm
        obtain ⟨a, -, rfl⟩ := hm
        rfl
  · rw [newAxes_again hne hf1] at hm
    exact hb p hm

/-- C151 fails for the limits in panels that a later dataset does not use: drawing a line with two components and then one with a
single component into the same figure, with the same limits along y, frees the limits of the last panel again. -/
theorem C151_limits_fails (a b : F) : ∃ fig : Figure F,
    plotFigures [({}, { ylim := (some a, some b) }, 2), ({}, { ylim := (some a, some b) }, 1)] {} = .ok fig ∧
      (fig.panels.map Panel.ylim) = [(some a, some b), (none, none)] ∧ (fig.panels.map fun p => p.drawn.length) = [2, 1] :=
  ⟨{ panels := [{ drawn := ["c0".toList, []], ylim := (some a, some b) }, { drawn := ["c1".toList] }] },
    by
      have h1 : layout none none 2 = .ok (1, 2) := by decide +kernel
      have h3 : List.range 2 = [0, 1] ∧ List.range 1 = [0] := by decide +kernel
      simp [plotFigures, plotFigure, newAxes, panelsWanted, idxComps, h1, h3, bind, Except.bind, pure, Except.pure, drawComps,
        drawComp, panelIndex, setLimits, autoscale, autoPanel, limitPanel, setLim, addLabel, newPanel, entry, compLabel]
      decide +kernel,
    rfl, rfl⟩

/-! Non-vacuity: five components with titles for two of them and limits on one side. -/
namespace PlotPanelsEx

def caps : Captions Int :=
  { title := "run".toList, xlabel := "x".toList, titles := "n,u".toList, labelPrefix := "f".toList, xlim := (some 2, none) }

theorem caps_titles : Listed caps.titles ["n".toList, "u".toList] := ⟨by decide +kernel, by decide +kernel⟩

example : ∃ fig, plotFigure {} caps 5 {} = .ok fig ∧ fig.title = "run".toList ∧
    ∀ k p, fig.panels[k]? = some p → p.bar = false → p.title = ["n".toList, "u".toList].getD k [] ∧
      (p.off = true ↔ 5 ≤ k) := by
  obtain ⟨fig, h1, h2, -, -, -, h3⟩ := C151_captions (o := {}) (d := caps) (nc := 5) rfl (by simp) (by simp) (by decide)
    (by decide) caps_titles (xs := []) (ys := []) ⟨rfl, by simp⟩ ⟨rfl, by simp⟩
  exact ⟨fig, h1, h2, fun k p hp hb => ⟨(h3 k p hp hb).1, (h3 k p hp hb).2.2.2⟩⟩

example : ((plotFigure {} caps 5 {}).toOption.map fun fig => fig.panels.map fun p => (String.ofList p.title, p.drawn.map String.ofList,
    p.off, p.xlim.1)) = some [("n", ["f_c0"], false, some 2), ("u", ["f_c1"], false, some 2),
      ("", ["f_c2"], false, some 2), ("", ["f_c3"], false, some 2), ("", ["f_c4"], false, some 2),
      ("", [], true, some 2)] := by decide +kernel

example : (plotFigures [({}, caps, 2), ({}, caps, 2)] {}).toOption.isSome = true := by decide +kernel

example : (plotFigure { squeeze := true } caps 3 {}).toOption.isSome = true := by decide +kernel

end PlotPanelsEx

end Pgkyl
