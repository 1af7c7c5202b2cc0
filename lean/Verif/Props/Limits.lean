import Verif.Model.Limits
import Verif.Props.Options
import Verif.Props.Contour
import Verif.Props.PlotKinds
import Verif.Lemmas.Py
/-! # C169: limits on the command line are the limits of every picture -/

namespace Pgkyl
open Spec Options
open Plot hiding Text Opts

/-- The last value given for an option. -/
def Spec.LastGiven (es : List (Text × Text)) (key v : Text) : Prop :=
  ∃ before after, es = before ++ (key, v) :: after ∧ ∀ e ∈ after, e.1 ≠ key

/-- An option that is not given. -/
def Spec.NotGiven (es : List (Text × Text)) (key : Text) : Prop := ∀ e ∈ es, e.1 ≠ key

/-- The names of the options of an axis, from its letter. -/
def Spec.axisNames (axis : Char) : AxisKeys := ⟨axis :: "min".toList, axis :: "max".toList, axis :: "lim".toList⟩

/-- What the user says about one axis: a pair with a comma in between, which counts more than single limits, or single limits. -/
inductive Spec.Asked {F : Type} (toFloat : Text → Option F) (k : AxisKeys) (es : List (Text × Text)) : Option F × Option F → Prop where
  | pair {a b : Text} {x y : F} : LastGiven es k.lim (a ++ ',' :: b) → ',' ∉ a → ',' ∉ b → toFloat a = some x → toFloat b = some y →
      (∀ t, LastGiven es k.min t → (toFloat t).isSome) → (∀ t, LastGiven es k.max t → (toFloat t).isSome) →
      Asked toFloat k es (some x, some y)
  | both {s t : Text} {x y : F} : NotGiven es k.lim → LastGiven es k.min s → LastGiven es k.max t → toFloat s = some x →
      toFloat t = some y → Asked toFloat k es (some x, some y)
  | lower {s : Text} {x : F} : NotGiven es k.lim → LastGiven es k.min s → NotGiven es k.max → toFloat s = some x →
      Asked toFloat k es (some x, none)
  | upper {t : Text} {y : F} : NotGiven es k.lim → NotGiven es k.min → LastGiven es k.max t → toFloat t = some y →
      Asked toFloat k es (none, some y)
  | nothing : NotGiven es k.lim → NotGiven es k.min → NotGiven es k.max → Asked toFloat k es (none, none)

namespace Limits
variable {F : Type} {toFloat : Options.Text → Option F}

theorem valueOf_last {es : List (Text × Text)} {key v : Text} (h : LastGiven es key v) : valueOf es key = some v := by
  obtain ⟨l, r, rfl, hr⟩ := h
  have : r.filter (fun e => e.1 = key) = [] := by
    rw [List.filter_eq_nil_iff]
    intro e he
    simpa using hr e he
  simp [valueOf, List.filter_append, this]

theorem valueOf_not {es : List (Text × Text)} {key : Text} (h : NotGiven es key) : valueOf es key = none := by
  have : es.filter (fun e => e.1 = key) = [] := by
    rw [List.filter_eq_nil_iff]
    intro e he
    simpa using h e he
  simp [valueOf, this]

theorem valueOf_some {es : List (Text × Text)} {key v : Text} (h : valueOf es key = some v) : LastGiven es key v := by
  unfold valueOf at h
  induction es with
  | nil => simp at h
  | cons e es ih =>
    by_cases hn : (es.filter fun e => e.1 = key) = []
    · by_cases he : e.1 = key
      · refine ⟨[], es, ?_, ?_⟩
        · simp [he, hn] at h
          subst h
          simp [← he]
        · intro e' he'
          have := List.filter_eq_nil_iff.1 hn e' he'
          simpa using this
      · simp [he, hn] at h
    · have hm : ((es.filter fun e => e.1 = key).map (·.2)) ≠ [] := by simpa using hn
      have h' : (((es.filter fun e => e.1 = key).map (·.2))).getLast? = some v := by
        by_cases he : e.1 = key
        · rw [List.filter_cons_of_pos (by simpa using he), List.map_cons, List.getLast?_cons_of_ne_nil hm] at h
          exact h
        · rw [List.filter_cons_of_neg (by simpa using he)] at h
          exact h
      obtain ⟨l, r, h1, h2⟩ := ih h'
      exact ⟨e :: l, r, by rw [h1]; rfl, h2⟩

theorem limOption_pair {a b : Text} {x y : F} (ha : ',' ∉ a) (hb : ',' ∉ b) (hx : toFloat a = some x) (hy : toFloat b = some y)
    (g : Option F × Option F) : limOption toFloat (some (a ++ ',' :: b)) g = .ok (some x, some y) := by
  have hs : splitOn ',' (a ++ ',' :: b) = [a, b] := by rw [splitOn_append ha, splitOn_notMem hb]
  obtain ⟨c, t, ht⟩ : ∃ c t, a ++ ',' :: b = c :: t := List.exists_cons_of_ne_nil (by simp)
  rw [ht] at hs ⊢
  simp only [limOption, hs, asFloat, hx, hy]
  rfl

theorem floatOption_ok {es : List (Text × Text)} {key : Text} (h : ∀ t, LastGiven es key t → (toFloat t).isSome) :
    ∃ x, floatOption toFloat (valueOf es key) = .ok x := by
  cases hv : valueOf es key with
  | none => exact ⟨none, rfl⟩
  | some t =>
    obtain ⟨x, hx⟩ := Option.isSome_iff_exists.1 (h t (valueOf_some hv))
    exact ⟨some x, by simp [floatOption, asFloat, hx, bind, Except.bind, pure, Except.pure]⟩

theorem axisLimits_asked {k : AxisKeys} {es : List (Text × Text)} {l : Option F × Option F} (h : Asked toFloat k es l) :
    axisLimits toFloat k es = .ok l := by
  cases h with
  | pair h1 ha hb hx hy h2 h3 =>
    obtain ⟨u, hu⟩ := floatOption_ok h2
    obtain ⟨w, hw⟩ := floatOption_ok h3
    simp only [axisLimits, hu, hw, bind, Except.bind, valueOf_last h1, limOption_pair ha hb hx hy]
  | both h1 h2 h3 hx hy =>
    simp only [axisLimits, valueOf_last h2, valueOf_last h3, valueOf_not h1, floatOption, asFloat, hx, hy, bind, Except.bind, pure,
      Except.pure, limOption]
  | lower h1 h2 h3 hx =>
    simp only [axisLimits, valueOf_last h2, valueOf_not h3, valueOf_not h1, floatOption, asFloat, hx, bind, Except.bind, pure,
      Except.pure, limOption]
  | upper h1 h2 h3 hy =>
    simp only [axisLimits, valueOf_not h2, valueOf_last h3, valueOf_not h1, floatOption, asFloat, hy, bind, Except.bind, pure,
      Except.pure, limOption]
  | nothing h1 h2 h3 =>
    simp only [axisLimits, valueOf_not h2, valueOf_not h3, valueOf_not h1, floatOption, bind, Except.bind, limOption]

theorem limits_x {es : List (Text × Text)} {l : Option F × Option F} (h : Asked toFloat (axisNames 'x') es l) :
    axisLimits toFloat xKeys es = .ok l :=
  axisLimits_asked h

theorem limits_y {es : List (Text × Text)} {l : Option F × Option F} (h : Asked toFloat (axisNames 'y') es l) :
    axisLimits toFloat yKeys es = .ok l :=
  axisLimits_asked h

theorem limits_z {es : List (Text × Text)} {l : Option F × Option F} (h : Asked toFloat (axisNames 'z') es l) :
    axisLimits toFloat zKeys es = .ok l :=
  axisLimits_asked h

theorem plotRange_keeps {o : RangeOpts} {ds : List (List ℝ)} {r : Option ℝ × Option ℝ} (h : plotRange o ds = .ok r) :
    (∀ x, o.zmin = some x → r.1 = some x) ∧ ∀ y, o.zmax = some y → r.2 = some y := by
  unfold plotRange at h
  split at h
  · cases ha : ds.foldlM (widenAll o.zscale) (none, []) with
    | error e => rw [ha] at h; cases h
    | ok a =>
      rw [ha] at h
      cases hr : cutRange (o.cutoff.getD 0) a with
      | error e => simp only [bind, Except.bind, hr] at h; cases h
      | ok q =>
        simp only [bind, Except.bind, hr, pure, Except.pure] at h
        cases h
        exact ⟨fun x hx => by simp [hx], fun y hy => by simp [hy]⟩
  · cases h
    exact ⟨fun x hx => hx, fun y hy => hy⟩

end Limits

open Limits

/-- **C169**: whatever else is on the line, the limits of the axes are those that the user asks for. -/
theorem C169_limits {F : Type} {toFloat : Text → Option F} {ws rest : List Text} {es : List (Text × Text)} (hl : Line cmd_plot ws es rest)
    {x y z : Option F × Option F} (hx : Asked toFloat (axisNames 'x') es x) (hy : Asked toFloat (axisNames 'y') es y) (hz : Asked toFloat (axisNames 'z') es z) :
    (do allLimits toFloat ((← (parseOpts cmd_plot ws).mapError fun _ => Err.fail).1)) = .ok (x, y, z) := by
  have hc : Clear cmd_plot := C168_table.2.2.2.1 _ (by decide +kernel) (by decide) (by decide)
  rw [line_parse hc hl]
  simp only [Except.mapError, bind, Except.bind, allLimits, limits_x hx, limits_y hy, limits_z hz, pure,
    Except.pure]

/-- **C169**: a pair for z is the range of the colours of every component of every dataset, with and without a common range, for
several blocks and with a cut-off, on a linear and on a logarithmic scale; and both ends of the colour bar are marked. -/
theorem C169_colours_partial {toFloat : Text → Option ℝ} {ws rest : List Text} {es : List (Text × Text)} (hl : Line cmd_plot ws es rest)
    {x y : Option ℝ × Option ℝ} {lo hi : ℝ} (hx : Asked toFloat (axisNames 'x') es x) (hy : Asked toFloat (axisNames 'y') es y)
    (hz : Asked toFloat (axisNames 'z') es (some lo, some hi)) (o : RangeOpts) {datasets : List (List ℝ)} {r : Option ℝ × Option ℝ}
    (hr : (do commandRange toFloat ((← (parseOpts cmd_plot ws).mapError fun _ => Err.fail).1) o datasets) = .ok r)
    (logz : Bool) (components : List (List ℝ)) :
    colourLoop false logz r components =
      .ok (components.map fun _ => (if logz then .log (some lo) (some hi) else .linear (some lo) (some hi), (true, true))) := by
  have hc : Clear cmd_plot := C168_table.2.2.2.1 _ (by decide +kernel) (by decide) (by decide)
  rw [line_parse hc hl] at hr
  simp only [Except.mapError, bind, Except.bind, commandRange, allLimits, limits_x hx, limits_y hy,
    limits_z hz, pure, Except.pure] at hr
  obtain ⟨h1, h2⟩ := plotRange_keeps hr
  have : r = (some lo, some hi) := Prod.ext (h1 lo rfl) (h2 hi rfl)
  rw [this, C118_limits]
  rfl

/-- **C169**: the same for the range of `animate`, which fills in only the limits that are missing, unless the tags are grouped. -/
theorem C169_animate_partial {toFloat : Text → Option ℝ} {es : List (Text × Text)} {y z : Option ℝ × Option ℝ}
    (hy : Asked toFloat (axisNames 'y') es y) (hz : Asked toFloat (axisNames 'z') es z) (range : ℝ × ℝ) (dims : Nat) :
    ∃ l : (Option ℝ × Option ℝ) × (Option ℝ × Option ℝ), (do return (← axisLimits toFloat yKeys es, ← axisLimits toFloat zKeys es)) = Except.ok (ε := Err) l ∧
      let r := Anim.Lim.fill ⟨l.1.1, l.1.2, l.2.1, l.2.2⟩ range dims
      (∀ a, y.1 = some a → r.ymin = some a) ∧ (∀ a, y.2 = some a → r.ymax = some a) ∧
      (∀ a, z.1 = some a → r.zmin = some a) ∧ (∀ a, z.2 = some a → r.zmax = some a) := by
  refine ⟨(y, z), ?_, ?_⟩
  · simp only [bind, Except.bind, limits_y hy, limits_z hz, pure, Except.pure]
  · unfold Anim.Lim.fill
    simp only
    split
    · refine ⟨fun a h => by simp [h], fun a h => by simp [h], fun a h => h, fun a h => h⟩
    · refine ⟨fun a h => h, fun a h => h, fun a h => by simp [h], fun a h => by simp [h]⟩

/-- **C169**: the words for the limits of an axis are the same for `plot` and `animate`, each with a value of its own. -/
theorem C169_names : ∀ axis ∈ ['x', 'y', 'z'], ∀ key ∈ [(axisNames axis).min, (axisNames axis).max, (axisNames axis).lim],
    (∃ o ∈ cmd_plot.opts, o.key = key ∧ o.kind = .value ∧ '-' :: '-' :: key ∈ o.names) ∧
    ∃ o ∈ cmd_animate.opts, o.key = key ∧ o.kind = .value ∧ '-' :: '-' :: key ∈ o.names := by
  decide +kernel

/-- **C169** fails for texts that are no pair: more than two numbers are accepted and those behind the second are dropped, and a single
number is an `IndexError`, whatever limits are given otherwise. -/
theorem C169_fails_pair {F : Type} {toFloat : Text → Option F} {a b c : Text} (ha : ',' ∉ a) (hb : ',' ∉ b) {x y : F}
    (hx : toFloat a = some x) (hy : toFloat b = some y) (ha' : a ≠ []) (g : Option F × Option F) :
    limOption toFloat (some (a ++ ',' :: (b ++ ',' :: c))) g = .ok (some x, some y) ∧
    limOption toFloat (some a) g = .error .indexError := by
  constructor
  · have hs : splitOn ',' (a ++ ',' :: (b ++ ',' :: c)) = a :: b :: splitOn ',' c := by rw [splitOn_append ha, splitOn_append hb]
    obtain ⟨d, t, ht⟩ : ∃ d t, a ++ ',' :: (b ++ ',' :: c) = d :: t := List.exists_cons_of_ne_nil (by simp)
    rw [ht] at hs ⊢
    simp only [limOption, hs, asFloat, hx, hy]
    rfl
  · have hs := splitOn_notMem (c := ',') ha
    obtain ⟨d, t, rfl⟩ := List.exists_cons_of_ne_nil ha'
    simp only [limOption, hs, asFloat, hx]
    rfl

/-! ## The hypotheses are met: `plot --zmin 7 --zlim -1,2 --ymax 3` -/

namespace LimitsEx

noncomputable def read (t : Text) : Option ℝ :=
  if t = "-1".toList then some (-1) else if t = "2".toList then some 2 else if t = "3".toList then some 3
  else if t = "7".toList then some 7 else none

def given : List (Text × Text) := [("zmin".toList, "7".toList), ("zlim".toList, "-1,2".toList), ("ymax".toList, "3".toList)]

theorem line : Line cmd_plot (["--zmin", "7", "--zlim", "-1,2", "--ymax=3"].map String.toList) given [] :=
  Line.cons (Written.value (o := ⟨"zmin".toList, .value, ["--zmin".toList], []⟩) (n := "--zmin".toList) (w := "7".toList)
    (by decide +kernel) (Or.inl rfl) (by decide))
    (Line.cons (Written.value (o := ⟨"zlim".toList, .value, ["--zlim".toList], []⟩) (n := "--zlim".toList) (w := "-1,2".toList)
      (by decide +kernel) (Or.inl rfl) (by decide))
      (Line.cons (Written.equals (o := ⟨"ymax".toList, .value, ["--ymax".toList], []⟩) (n := "--ymax".toList) (w := "3".toList)
        (by decide +kernel) (Or.inl rfl) (by decide) (by decide)) Line.nil))

theorem askedX : Asked read (axisNames 'x') given (none, none) := by
  refine .nothing ?_ ?_ ?_ <;> unfold NotGiven <;> decide

theorem askedY : Asked read (axisNames 'y') given (none, some 3) := by
  refine .upper (t := "3".toList) ?_ ?_ ⟨given.take 2, [], rfl, by simp⟩ ?_
  · unfold NotGiven; decide
  · unfold NotGiven; decide
  · have h1 : ¬ "3".toList = "-1".toList := by decide
    have h2 : ¬ "3".toList = "2".toList := by decide
    simp only [read, if_neg h1, if_neg h2, if_true]

theorem askedZ : Asked read (axisNames 'z') given (some (-1), some 2) := by
  refine .pair (a := "-1".toList) (b := "2".toList) ⟨given.take 1, given.drop 2, rfl, by decide⟩ (by decide) (by decide) ?_ ?_ ?_ ?_
  · simp only [read, if_true]
  · have h1 : ¬ "2".toList = "-1".toList := by decide
    simp only [read, if_neg h1, if_true]
  · intro t ht
    have hv := valueOf_last ht
    have : valueOf given (axisNames 'z').min = some "7".toList := by decide
    rw [this] at hv
    cases hv
    have h1 : ¬ "7".toList = "-1".toList := by decide
    have h2 : ¬ "7".toList = "2".toList := by decide
    have h3 : ¬ "7".toList = "3".toList := by decide
    simp only [read, if_neg h1, if_neg h2, if_neg h3, if_true, Option.isSome_some]
  · intro t ht
    have hv := valueOf_last ht
    have : valueOf given (axisNames 'z').max = none := by decide
    rw [this] at hv
    cases hv

example := C169_limits line askedX askedY askedZ

end LimitsEx

end Pgkyl
