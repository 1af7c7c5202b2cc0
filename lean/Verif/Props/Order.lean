import Verif.Model.SelectLine
import Verif.Props.OptionsExact
/-! # C171: the order of the options does not matter, nor how they are written, and the last value counts -/

namespace Pgkyl
open Spec Options

namespace Spec

/-- Some options, one after the other. -/
inductive Pieces (c : Command) : List Text → List (Text × Text) → Prop where
  | nil : Pieces c [] []
  | cons {u ws : List Text} {a es : List (Text × Text)} : Written c u a → Pieces c ws es → Pieces c (u ++ ws) (a ++ es)

/-- Two ways of writing the words behind a command mean the same to it, as far as `same` looks: both are refused for the same reason,
or both are accepted, with the same words left for the next command. -/
def MeanSame (c : Command) (same : List (Text × Text) → List (Text × Text) → Prop) (ws ws' : List Text) : Prop :=
  (∃ e, parseOpts c ws = .error e ∧ parseOpts c ws' = .error e) ∨
  ∃ es es' rest, parseOpts c ws = .ok (es, rest) ∧ parseOpts c ws' = .ok (es', rest) ∧ same es es'

/-- The same values for every option, in the same order. -/
def SameValues (es es' : List (Text × Text)) : Prop := ∀ key, (es.filter fun e => e.1 = key) = es'.filter fun e => e.1 = key

/-- The same last value for every option. -/
def SameLast (es es' : List (Text × Text)) : Prop := ∀ key, (es.reverse.find? fun e => e.1 = key) = es'.reverse.find? fun e => e.1 = key

end Spec

namespace Options

theorem pieces_parse {c : Command} (hc : Clear c) {ws : List Text} {es : List (Text × Text)} (h : Pieces c ws es) (post : List Text) :
    parseOpts c (ws ++ post) = (parseOpts c post).map fun q => (es ++ q.1, q.2) := by
  induction h with
  | nil =>
    simp only [List.nil_append]
    cases parseOpts c post <;> rfl
  | cons hw _ ih =>
    rw [List.append_assoc, written_parse hc hw, ih]
    cases parseOpts c post with
    | error e => rfl
    | ok q => simp only [Except.map, List.append_assoc]

theorem valueOf_find (es : List (Text × Text)) (key : Text) : valueOf es key = (es.reverse.find? fun e => e.1 = key).map (·.2) := by
  unfold valueOf
  rw [List.getLast?_map, List.getLast?_eq_head?_reverse, ← List.filter_reverse, List.head?_filter]

theorem SameLast.values {es es' : List (Text × Text)} (h : SameLast es es') : valueOf es = valueOf es' := by
  funext key
  rw [valueOf_find, valueOf_find, h key]

theorem SameValues.last {es es' : List (Text × Text)} (h : SameValues es es') : SameLast es es' := by
  intro key
  rw [← List.head?_filter, ← List.head?_filter, List.filter_reverse, List.filter_reverse, h key]

theorem meanSame_select {F : Type} [LT F] [DecidableLT F] [Min F] [Max F] {pf : List Char → Option F}
    {multi : (Text → Option Text) → Space F → Except Err (Space F)} {ws ws' : List Text} (h : MeanSame cmd_select SameLast ws ws')
    (s : Space F) : selectLine pf multi ws s = selectLine pf multi ws' s := by
  rcases h with ⟨e, h1, h2⟩ | ⟨es, es', rest, h1, h2, h3⟩
  · simp only [selectLine, h1, h2]
  · simp only [selectLine, h1, h2, SameLast.values h3]

end Options

/-- **C171**: two options next to one another may change places, if they are options for different things, whatever stands before and
behind them. -/
theorem C171_order {c : Command} (hc : Clear c) {pre u v : List Text} {a₀ a b : List (Text × Text)} (hp : Pieces c pre a₀)
    (hu : Written c u a) (hv : Written c v b) (hd : ∀ x ∈ a, ∀ y ∈ b, x.1 ≠ y.1) (post : List Text) :
    MeanSame c SameValues (pre ++ (u ++ (v ++ post))) (pre ++ (v ++ (u ++ post))) := by
  simp only [MeanSame, pieces_parse hc hp, written_parse hc hu, written_parse hc hv]
  cases parseOpts c post with
  | error e => exact Or.inl ⟨e, rfl, rfl⟩
  | ok q =>
    refine Or.inr ⟨_, _, _, rfl, rfl, ?_⟩
    intro key
    simp only [List.filter_append]
    congr 1
    rw [← List.append_assoc, ← List.append_assoc]
    congr 1
    by_cases ha : (a.filter fun e => e.1 = key) = []
    · rw [ha, List.nil_append, List.append_nil]
    · have hb : (b.filter fun e => e.1 = key) = [] := by
        obtain ⟨x, hx⟩ := List.exists_mem_of_ne_nil _ ha
        rw [List.mem_filter] at hx
        rw [List.filter_eq_nil_iff]
        intro y hy hk
        exact hd x hx.1 y hy ((of_decide_eq_true hx.2).trans (of_decide_eq_true hk).symm)
      rw [hb, List.nil_append, List.append_nil]

/-- **C171**: how an option is written (long or short name, with `=`, attached or as a word of its own) does not matter. -/
theorem C171_writing {c : Command} (hc : Clear c) {pre u v : List Text} {a₀ a : List (Text × Text)} (hp : Pieces c pre a₀)
    (hu : Written c u a) (hv : Written c v a) (post : List Text) : parseOpts c (pre ++ (u ++ post)) = parseOpts c (pre ++ (v ++ post)) := by
  rw [pieces_parse hc hp, pieces_parse hc hp, written_parse hc hu, written_parse hc hv]

/-- **C171**: of an option that is given twice the first is as if it were not there, unless the command collects its values. -/
theorem C171_last {c : Command} (hc : Clear c) {pre u mid v : List Text} {a₀ a₁ : List (Text × Text)} {k x y : Text}
    (hp : Pieces c pre a₀) (hu : Written c u [(k, x)]) (hm : Pieces c mid a₁) (hv : Written c v [(k, y)]) (post : List Text) :
    MeanSame c SameLast (pre ++ (u ++ (mid ++ (v ++ post)))) (pre ++ (mid ++ (v ++ post))) := by
  simp only [MeanSame, pieces_parse hc hp, pieces_parse hc hm, written_parse hc hu, written_parse hc hv]
  cases parseOpts c post with
  | error e => exact Or.inl ⟨e, rfl, rfl⟩
  | ok q =>
    refine Or.inr ⟨_, _, _, rfl, rfl, ?_⟩
    intro key
    simp only [List.reverse_append, List.reverse_cons, List.reverse_nil, List.nil_append, List.find?_append, List.append_assoc,
      List.find?_cons, List.find?_nil]
    by_cases hk : k = key
    · simp [hk]
    · simp [hk]

/-- **C171** for the effect of `select` on the datasets: the same in all three cases, for every store. -/
theorem C171_select {F : Type} [LT F] [DecidableLT F] [Min F] [Max F] {pf : List Char → Option F}
    {multi : (Text → Option Text) → Space F → Except Err (Space F)} {pre : List Text} {a₀ : List (Text × Text)}
    (hp : Pieces cmd_select pre a₀) (post : List Text) (s : Space F) :
    (∀ u v a b, Written cmd_select u a → Written cmd_select v b → (∀ x ∈ a, ∀ y ∈ b, x.1 ≠ y.1) →
      selectLine pf multi (pre ++ (u ++ (v ++ post))) s = selectLine pf multi (pre ++ (v ++ (u ++ post))) s) ∧
    (∀ u v a, Written cmd_select u a → Written cmd_select v a →
      selectLine pf multi (pre ++ (u ++ post)) s = selectLine pf multi (pre ++ (v ++ post)) s) ∧
    (∀ u mid v a₁ k x y, Written cmd_select u [(k, x)] → Pieces cmd_select mid a₁ → Written cmd_select v [(k, y)] →
      selectLine pf multi (pre ++ (u ++ (mid ++ (v ++ post)))) s = selectLine pf multi (pre ++ (mid ++ (v ++ post))) s) := by
  have hc : Clear cmd_select := C168_table.2.2.2.1 _ (by decide +kernel) (by decide) (by decide)
  refine ⟨?_, ?_, ?_⟩
  · intro u v a b hu hv hd
    refine meanSame_select ?_ s
    rcases C171_order hc hp hu hv hd post with h | ⟨es, es', rest, h1, h2, h3⟩
    · exact Or.inl h
    · exact Or.inr ⟨es, es', rest, h1, h2, SameValues.last h3⟩
  · intro u v a hu hv
    simp only [selectLine, C171_writing hc hp hu hv post]
  · intro u mid v a₁ k x y hu hm hv
    exact meanSame_select (C171_last hc hp hu hm hv post) s

/-- **C171** for the values: without `--multiblock` the datasets are cut as the last value of every option says. -/
theorem C171_select_values {F : Type} [LT F] [DecidableLT F] [Min F] [Max F] {pf : List Char → Option F}
    {multi : (Text → Option Text) → Space F → Except Err (Space F)} {ws rest : List Text} {es : List (Text × Text)}
    (hl : Line cmd_select ws es rest) (hm : ∀ e ∈ es, e.1 ≠ "multiblock".toList) {z0 z1 z2 z3 z4 z5 comp use tag label : Option Text}
    (h : ∀ q ∈ [("z0".toList, z0), ("z1".toList, z1), ("z2".toList, z2), ("z3".toList, z3), ("z4".toList, z4), ("z5".toList, z5),
      ("comp".toList, comp), ("use".toList, use), ("tag".toList, tag), ("label".toList, label)],
      (es.reverse.find? fun e => e.1 = q.1).map (·.2) = q.2) (s : Space F) :
    selectLine pf multi ws s = (Cmd.selectCmd pf comp [z0, z1, z2, z3, z4, z5] use tag (label.getD []) s).map fun s' => (s', rest) := by
  have hc : Clear cmd_select := C168_table.2.2.2.1 _ (by decide +kernel) (by decide) (by decide)
  have hmb : valueOf es "multiblock".toList = none := by
    rw [valueOf_find, Option.map_eq_none_iff, List.find?_eq_none]
    intro e he
    exact fun hk => hm e (List.mem_reverse.1 he) (of_decide_eq_true hk)
  obtain ⟨h0, h⟩ := List.forall_mem_cons.1 h
  obtain ⟨h1, h⟩ := List.forall_mem_cons.1 h
  obtain ⟨h2, h⟩ := List.forall_mem_cons.1 h
  obtain ⟨h3, h⟩ := List.forall_mem_cons.1 h
  obtain ⟨h4, h⟩ := List.forall_mem_cons.1 h
  obtain ⟨h5, h⟩ := List.forall_mem_cons.1 h
  obtain ⟨h6, h⟩ := List.forall_mem_cons.1 h
  obtain ⟨h7, h⟩ := List.forall_mem_cons.1 h
  obtain ⟨h8, h⟩ := List.forall_mem_cons.1 h
  obtain ⟨h9, h⟩ := List.forall_mem_cons.1 h
  replace h0 : valueOf es "z0".toList = z0 := (valueOf_find _ _).trans h0
  replace h1 : valueOf es "z1".toList = z1 := (valueOf_find _ _).trans h1
  replace h2 : valueOf es "z2".toList = z2 := (valueOf_find _ _).trans h2
  replace h3 : valueOf es "z3".toList = z3 := (valueOf_find _ _).trans h3
  replace h4 : valueOf es "z4".toList = z4 := (valueOf_find _ _).trans h4
  replace h5 : valueOf es "z5".toList = z5 := (valueOf_find _ _).trans h5
  replace h6 : valueOf es "comp".toList = comp := (valueOf_find _ _).trans h6
  replace h7 : valueOf es "use".toList = use := (valueOf_find _ _).trans h7
  replace h8 : valueOf es "tag".toList = tag := (valueOf_find _ _).trans h8
  replace h9 : valueOf es "label".toList = label := (valueOf_find _ _).trans h9
  subst h0
  subst h1
  subst h2
  subst h3
  subst h4
  subst h5
  subst h6
  subst h7
  subst h8
  subst h9
  unfold selectLine
  rw [line_parse hc hl]
  simp only
  rw [if_neg (by rw [hmb]; simp)]

/-- **C171**: words that no option of `select` can be read from stop the command with an error, and no dataset is touched, unless they
ask for help. -/
theorem C171_select_refused {F : Type} [LT F] [DecidableLT F] [Min F] [Max F] {pf : List Char → Option F}
    {multi : (Text → Option Text) → Space F → Except Err (Space F)} {ws : List Text} (h : ∀ es rest, ¬ Line cmd_select ws es rest)
    (hh : ∀ es rest, parseOpts cmd_select ws = .ok (es, rest) → ∀ e ∈ es, e.1 ≠ "help".toList) (s : Space F) :
    selectLine pf multi ws s = .error .fail := by
  have hc := C168_exact_table.1 cmd_select (by decide +kernel) (by decide)
  rcases C168_refused hc.1 hc.2 h with ⟨e, he⟩ | ⟨es, rest, h1, e, he, hk⟩
  · simp only [selectLine, he]
  · exact absurd hk (hh es rest h1 e he)

/-! ## The hypotheses are met -/

namespace OrderEx

def z0 : Opt := ⟨"z0".toList, .value, ["--z0".toList], []⟩
def comp : Opt := ⟨"comp".toList, .value, ["--comp".toList, "-c".toList], []⟩

theorem wz (w : Text) : Written cmd_select ["--z0".toList, w] [("z0".toList, w)] :=
  Written.value (o := z0) (by decide +kernel) (Or.inl rfl) (by decide)

theorem wc : Written cmd_select ["-c1".toList] [("comp".toList, "1".toList)] :=
  Written.attached (o := comp) (n := "-c".toList) (w := "1".toList) (by decide +kernel) (Or.inl rfl) (by decide) (by decide) (by decide)
    (by unfold NotLong; decide +kernel)

theorem wc' : Written cmd_select ["--comp=1".toList] [("comp".toList, "1".toList)] :=
  Written.equals (o := comp) (n := "--comp".toList) (w := "1".toList) (by decide +kernel) (Or.inl rfl) (by decide) (by decide)

variable {F : Type} [LT F] [DecidableLT F] [Min F] [Max F] (pf : List Char → Option F)
  (multi : (Text → Option Text) → Space F → Except Err (Space F)) (s : Space F)

/-- `select --z0 0:3 -c1 plot`, `select -c1 --z0 0:3 plot`, `select --comp=1 --z0 0:3 plot`, `select --z0 7 -c1 --z0 0:3 plot` -/
example : selectLine pf multi (["--z0", "0:3", "-c1", "plot"].map String.toList) s =
      selectLine pf multi (["-c1", "--z0", "0:3", "plot"].map String.toList) s ∧
    selectLine pf multi (["-c1", "--z0", "0:3", "plot"].map String.toList) s =
      selectLine pf multi (["--comp=1", "--z0", "0:3", "plot"].map String.toList) s ∧
    selectLine pf multi (["--z0", "7", "-c1", "--z0", "0:3", "plot"].map String.toList) s =
      selectLine pf multi (["-c1", "--z0", "0:3", "plot"].map String.toList) s :=
  ⟨(C171_select (pf := pf) (multi := multi) .nil ["plot".toList] s).1 _ _ _ _ (wz "0:3".toList) wc (by decide),
    (C171_select (pf := pf) (multi := multi) .nil ["--z0".toList, "0:3".toList, "plot".toList] s).2.1 _ _ _ wc wc',
    (C171_select (pf := pf) (multi := multi) .nil ["plot".toList] s).2.2 _ _ _ _ _ _ _ (wz "7".toList) (.cons wc .nil)
      (wz "0:3".toList)⟩

example : selectLine pf multi (["--z0", "0:3", "-c1", "plot"].map String.toList) s =
    (Cmd.selectCmd pf (some "1".toList) [some "0:3".toList, none, none, none, none, none] none none [] s).map
      fun s' => (s', ["plot".toList]) :=
  C171_select_values (label := none) (Line.cons (wz "0:3".toList) (Line.cons wc (Line.stop (by decide)))) (by decide) (by decide) s

/-- `select --z7 1` -/
example : selectLine pf multi (["--z7", "1"].map String.toList) s = .error .fail := by
  have h : parseOpts cmd_select (["--z7", "1"].map String.toList) = .error .noSuchOption :=
    C168_unknown (by decide) (by decide) (by decide +kernel)
  have hc := C168_exact_table.1 cmd_select (by decide +kernel) (by decide)
  refine C171_select_refused (fun es rest hl => ?_) (fun es rest hp => ?_) s
  · have := line_parse hc.1 hl
    rw [h] at this
    cases this
  · rw [h] at hp
    cases hp

end OrderEx

end Pgkyl
