import Verif.Lemmas.Text
import Verif.Props.DataSpace
import Verif.Lemmas.PairCommands
import Mathlib.Data.List.TakeWhile
/-! # C107-C109: style settings, `listoutputs`, `info` -/

namespace Pgkyl
open Spec Text

/-! ### C107: style settings -/

/-- The value stored for a text of a style file: the text itself, or the colours of a cycle. -/
def C107_value {α : Type} (ev : List Char → Except Err α) (v : List Char) (r : Rc α) : Prop :=
  (v.take 6 ≠ "cycler".toList ∧ r = .text v) ∨
    ∃ arg a, v = "cycler('color', ".toList ++ arg ++ [')'] ∧ ev arg = .ok a ∧ r = .cycle a

theorem rcOf_value {α : Type} {ev : List Char → Except Err α} {v : List Char} {r : Rc α} (h : C107_value ev v r) :
    rcOf ev v = .ok r := by
  rcases h with ⟨h, rfl⟩ | ⟨arg, a, rfl, h, rfl⟩
  · rw [rcOf, if_neg h]
  · have h1 : ("cycler('color', ".toList ++ arg ++ [')']).take 6 = "cycler".toList := by
      rw [List.append_assoc, List.take_append_of_le_length (by decide)]; decide
    have h2 : (("cycler('color', ".toList ++ arg ++ [')']).dropLast).drop 16 = arg := by
      rw [List.dropLast_concat, List.drop_append_of_le_length (by decide)]
      have : ("cycler('color', ".toList).drop 16 = [] := by decide
      rw [this, List.nil_append]
    rw [rcOf, if_pos h1, h2, h]; rfl

theorem loadStyle_lines {α : Type} (ev : List Char → Except Err α) :
    ∀ (lines : List (List Char)) (file : List (List Char × Rc α)) (rc : Params α),
    List.Forall₂ (fun line p => ∃ v, StyleLine line p.1 v ∧ C107_value ev v p.2) lines file →
    lines.foldlM (loadLine ev) rc = .ok (file.foldl (fun rc p => rc.set p.1 p.2) rc) := by
  intro lines file rc h
  induction h generalizing rc with
  | nil => rfl
  | @cons line p lines file h _ ih =>
    obtain ⟨v, hl, hv⟩ := h
    have : loadLine ev rc line = .ok (rc.set p.1 p.2) := by
      simp only [loadLine, setting_line hl, rcOf_value hv, bind, Except.bind, pure, Except.pure]
    rw [List.foldlM_cons, this, List.foldl_cons]
    exact ih _

/-- The property for files of which every line is a setting (missing: files with blank lines or comments): after
`style --file f --set p1 --set p2 …` a parameter has the value of its last setting, file before options, and every other
parameter is unchanged. -/
theorem C107_style_partial {α : Type} (ev : List Char → Except Err α) (lines : List (List Char))
    (file : List (List Char × Rc α)) (opts : List (List Char)) (sets : List (List Char × List Char)) (rc : Params α)
    {text : List Char} (htext : TextOf lines text)
    (hfile : List.Forall₂ (fun line p => ∃ v, StyleLine line p.1 v ∧ C107_value ev v p.2) lines file)
    (hsets : List.Forall₂ (fun o p => StyleLine o p.1 p.2) opts sets) :
    ∃ rc', styleCmd ev (some text) opts rc = .ok rc' ∧
      ∀ k, rc'.get? k = (lastSetting (file ++ sets.map fun p => (p.1, .text p.2)) k).or (rc.get? k) := by
  have hnl : ∀ l ∈ lines, '\n' ∉ l ∧ l ≠ [] := by
    intro l hl
    clear hsets htext
    induction hfile with
    | nil => simp at hl
    | cons h _ ih =>
      rcases List.mem_cons.1 hl with rfl | hl
      · obtain ⟨v, h, _⟩ := h; exact ⟨line_nl h, line_ne h⟩
      · exact ih hl
  have hopt : ∀ rc : Params α, opts.foldl (fun rc p => rc.set (setting p).1 (.text (setting p).2)) rc =
      (sets.map fun p => (p.1, Rc.text p.2)).foldl (fun rc p => rc.set p.1 p.2) rc := by
    induction hsets with
    | nil => intro rc; rfl
    | @cons o p os ps h _ ih =>
      intro rc
      rw [List.foldl_cons, setting_line h, ih]; rfl
  refine ⟨_, ?_, fun k => foldl_set (file ++ sets.map fun p => (p.1, Rc.text p.2)) rc k⟩
  simp only [styleCmd, loadStyle, readlines_textOf (fun l hl => (hnl l hl).1) (fun l hl => (hnl l hl).2) htext, loadStyle_lines ev lines file rc hfile, bind, Except.bind, pure,
    Except.pure]
  rw [hopt, List.foldl_append]

/-- A blank line, which style files of Matplotlib may contain, is not skipped: it sets the parameter with the empty name. -/
theorem C107_blank_fails {α : Type} (ev : List Char → Except Err α) (rc : Params α) (blank : List Char) (hb : Blanks blank) :
    ∃ rc', styleCmd ev (some (blank ++ ['\n'])) [] rc = .ok rc' ∧ rc'.get? [] = some (.text []) := by
  have h := readlines_lines [blank] (by simpa using blanks_nl hb)
  simp only [List.flatMap_singleton] at h
  have hset : setting blank = ([], []) := by
    have h1 : blank.takeWhile (· ≠ ':') = blank := by
      rw [List.takeWhile_eq_self_iff]
      intro c hc
      simp only [ne_eq, decide_eq_true_eq]
      rintro rfl
      exact blanks_colon hb hc
    have h2 : strip blank = [] := by
      have := strip_word (a := blank) (s := []) (b := []) (blanks_blank hb) (by simp) (by simp) (by simp)
      simpa using this
    simp only [setting, h1, h2]
    rw [List.drop_eq_nil_of_le (by omega)]; rfl
  refine ⟨rc.set [] (.text []), ?_, by simp [params_get_set]⟩
  simp only [styleCmd, loadStyle, h, List.foldlM_cons, List.foldlM_nil, loadLine, hset, bind, Except.bind, pure, Except.pure,
    List.foldl_nil]
  rfl

/-- A comment sets a parameter named after it. -/
theorem C107_comment_fails {α : Type} (ev : List Char → Except Err α) (rc : Params α) (c : List Char)
    (hc : Word' c) (hcol : ':' ∉ c) :
    ∃ rc', styleCmd ev (some (('#' :: c) ++ ['\n'])) [] rc = .ok rc' ∧ rc'.get? ('#' :: c) = some (.text []) := by
  have hnl : '\n' ∉ '#' :: c := by simp only [List.mem_cons, not_or]; exact ⟨by decide, hc.1⟩
  have h := readlines_lines ['#' :: c] (by simpa using hnl)
  simp only [List.flatMap_singleton] at h
  have hset : setting ('#' :: c) = ('#' :: c, []) := by
    have h1 : ('#' :: c).takeWhile (· ≠ ':') = '#' :: c := by
      rw [List.takeWhile_eq_self_iff]
      intro x hx
      simp only [ne_eq, decide_eq_true_eq]
      rintro rfl
      simp only [List.mem_cons] at hx
      rcases hx with hx | hx
      · simp at hx
      · exact hcol hx
    have h2 : strip ('#' :: c) = '#' :: c := by
      have := strip_word (a := []) (s := '#' :: c) (b := []) (by simp) (by simp)
        (by intro x hx; simp only [List.head?_cons, Option.some.injEq] at hx; subst hx; decide)
        (by
          intro x hx
          cases c with
          | nil => simp at hx; subst hx; decide
          | cons y c => exact hc.2.2 x (by simpa using hx))
      simpa using this
    simp only [setting, h1, h2]
    rw [List.drop_eq_nil_of_le (by omega)]; rfl
  refine ⟨rc.set ('#' :: c) (.text []), ?_, by simp [params_get_set]⟩
  simp only [styleCmd, loadStyle, h, List.foldlM_cons, List.foldlM_nil, loadLine, hset, bind, Except.bind, pure, Except.pure,
    List.foldl_nil]
  rfl

/-- C107: not vacuous: a value that is itself a colon, and one with blanks and a later option. -/
example : StyleLine "grid.linestyle : :".toList "grid.linestyle".toList ":".toList := by
  refine ⟨⟨by decide, by decide, by decide⟩, by decide, ⟨by decide, by decide, by decide⟩, [], [' '], [' '], [], ?_, ?_, ?_, ?_, by
    decide⟩ <;> simp [Blanks]

example : TextOf ["a : b".toList, "c : d".toList] "a : b\nc : d".toList := Or.inr (by decide)

example : C107_value (α := List Char) .ok "cycler('color', [(0, 1, 0)])".toList (.cycle "[(0, 1, 0)]".toList) :=
  Or.inr ⟨"[(0, 1, 0)]".toList, _, by decide, rfl, rfl⟩

/-! ### C108: `listoutputs` -/

/-- For each extension, in the order given: a header if there is any file, and then the stems of the files, each once, in
alphabetical order. -/
theorem C108_stems (glob : List Char → List (List Char)) (extensions : List Char)
    (hglob : ∀ ext, ∀ fn ∈ glob ext, ∃ t, fn = t ++ '.' :: ext) :
    ∃ stems : List Char → List (List Char),
      (∀ ext, (stems ext).Pairwise (· < ·)) ∧
      (∀ ext s, s ∈ stems ext ↔ ∃ fn ∈ glob ext, StemOf ext s fn) ∧
      listOutputs glob extensions = (splitOn ',' extensions).flatMap fun ext =>
        (if glob ext = [] then [] else [ext ++ [':']]) ++ (stems ext).map fun s => "- ".toList ++ s := by
  refine ⟨fun ext => (uniqueStems ext (glob ext)).mergeSort fun a b => decide (a ≤ b), ?_, ?_, ?_⟩
  · intro ext
    exact (sort_spec _ (uniqueStems_spec ext _).1).1
  · intro ext s
    rw [(sort_spec _ (uniqueStems_spec ext _).1).2, (uniqueStems_spec ext _).2]
    constructor
    · rintro ⟨fn, hf, h⟩; exact ⟨fn, hf, (stem_iff ext s fn (hglob ext fn hf)).1 h⟩
    · rintro ⟨fn, hf, h⟩; exact ⟨fn, hf, (stem_iff ext s fn (hglob ext fn hf)).2 h⟩
  · unfold listOutputs
    congr 1
    funext ext
    have : uniqueStems ext (glob ext) = [] ↔ glob ext = [] := by
      constructor
      · intro h
        cases hg : glob ext with
        | nil => rfl
        | cons fn l =>
          have := ((uniqueStems_spec ext (glob ext)).2 (stem ext fn)).2 ⟨fn, by simp [hg], rfl⟩
          rw [h] at this; simp at this
      · intro h; rw [h]; rfl
    simp only [this]
    rfl

/-- What is printed does not depend on the order in which the directory is listed. -/
theorem C108_order (glob glob' : List Char → List (List Char)) (extensions : List Char)
    (h : ∀ ext, (glob ext).Perm (glob' ext)) : listOutputs glob extensions = listOutputs glob' extensions := by
  unfold listOutputs
  congr 1
  funext ext
  have hmem : ∀ s, s ∈ uniqueStems ext (glob ext) ↔ s ∈ uniqueStems ext (glob' ext) := by
    intro s
    rw [(uniqueStems_spec ext _).2, (uniqueStems_spec ext _).2]
    constructor
    · rintro ⟨f, hf, e⟩; exact ⟨f, (h ext).mem_iff.1 hf, e⟩
    · rintro ⟨f, hf, e⟩; exact ⟨f, (h ext).mem_iff.2 hf, e⟩
  have hperm := (List.perm_ext_iff_of_nodup (uniqueStems_spec ext (glob ext)).1 (uniqueStems_spec ext (glob' ext)).1).2 hmem
  have h1 : uniqueStems ext (glob ext) = [] ↔ uniqueStems ext (glob' ext) = [] := by
    constructor
    · intro e; rw [e] at hperm; exact hperm.symm.eq_nil
    · intro e; rw [e] at hperm; exact hperm.eq_nil
  have h2 : ((uniqueStems ext (glob ext)).mergeSort fun a b => decide (a ≤ b)) =
      (uniqueStems ext (glob' ext)).mergeSort fun a b => decide (a ≤ b) := by
    have s1 := (sort_spec _ (uniqueStems_spec ext (glob ext)).1)
    have s2 := (sort_spec _ (uniqueStems_spec ext (glob' ext)).1)
    refine List.Perm.eq_of_pairwise (le := (· < ·)) ?_ s1.1 s2.1
      ((List.mergeSort_perm _ _).trans (hperm.trans (List.mergeSort_perm _ _).symm))
    intro a b _ _ h1 h2
    exact absurd h2 (List.not_lt.2 (List.le_of_lt h1))
  simp only [h1, h2]

/-- C108: not vacuous: a numbered frame and a restart file have the same stem. -/
example : StemOf "gkyl".toList "sim-elc".toList "sim-elc_12.gkyl".toList ∧
    StemOf "gkyl".toList "sim-elc".toList "sim-elc_restart.gkyl".toList := by
  constructor
  · rw [← stem_iff _ _ _ ⟨"sim-elc_12".toList, by decide⟩]; decide +kernel
  · rw [← stem_iff _ _ _ ⟨"sim-elc_restart".toList, by decide⟩]; decide +kernel

/-! ### C109: `info` -/

/-- The lines of `info`: the datasets that iteration visits, in that order, each with its label, its tag and its position in
the list of its tag. -/
theorem C109_info {F : Type} {s : Space F} (hr : Reachable s) {use : Option Tag} {ts : List Tag} (hts : Requests s use ts)
    (ls : Tag → List Nat) (hl : ∀ t ∈ ts, s.lookup t = some (ls t)) (all : Bool) :
    ∃ ds : List (Nat × GData F), infoCmd use all s = .ok (ds.map fun p =>
        p.2.getLabel ++ (if p.2.getLabel = [] then [] else " ".toList) ++ "(".toList ++ p.2.tag ++ "#".toList ++ pyStr p.1 ++
          ")".toList) ∧
      ds.map (fun p => (p.1, some p.2)) = (ts.flatMap fun t => visit s.active (!all) (ls t)).map fun p => (p.1, s.heap[p.2]?) := by
  have hi := Space.reachable_inv hr
  have hto := C16_iterate_all hts ls hl true (!all)
  have hlt := Space.toList_none_lt hi hto
  have hit := Space.iterate_ok (σ := List (List Char)) (fun _ => s) use true (!all) .none
    (fun out i id => match s.heap[id]? with
      | some d => .ok (out ++ [infoLine d i])
      | none => .error .fail) [] hi (fun _ => True) trivial (fun _ _ _ _ _ _ => trivial) (fun _ _ _ _ _ => rfl)
    (fun _ _ _ _ => rfl) hto
  generalize (ts.flatMap fun t => visit s.active (!all) (ls t)) = items at hlt hit
  have key : ∀ (items : List (Nat × Nat)) (out : List (List Char)), (∀ e ∈ items, e.2 < s.heap.length) →
      ∃ ds : List (Nat × GData F), items.foldlM (fun out e => match s.heap[e.2]? with
          | some d => .ok (out ++ [infoLine d e.1])
          | none => .error .fail) out = Except.ok (ε := Err) (out ++ ds.map fun p => infoLine p.2 p.1) ∧
        ds.map (fun p => (p.1, some p.2)) = items.map fun p => (p.1, s.heap[p.2]?) := by
    intro items
    induction items with
    | nil => intro out _; exact ⟨[], by simp; rfl, rfl⟩
    | cons e items ih =>
      intro out hlt
      have he := hlt e (by simp)
      obtain ⟨ds, h1, h2⟩ := ih (out ++ [infoLine s.heap[e.2] e.1]) fun e h => hlt e (by simp [h])
      refine ⟨(e.1, s.heap[e.2]) :: ds, ?_, ?_⟩
      · rw [List.foldlM_cons, List.getElem?_eq_getElem he]
        simp only [bind, Except.bind]
        rw [h1]; simp
      · simp only [List.map_cons, h2, List.getElem?_eq_getElem he]
  obtain ⟨ds, h1, h2⟩ := key items [] hlt
  refine ⟨ds, ?_, h2⟩
  unfold infoCmd
  refine (hit.trans h1).trans ?_
  congr 1
  apply List.map_congr_left
  intro p _
  simp only [infoLine, List.append_assoc]
  congr 1

/-- The number that `info` prints for a dataset is the index that selects it: with the tag and this index, iteration visits
this dataset and no other. -/
theorem C109_number {F : Type} {s : Space F} {t : Tag} (ht : t ≠ []) (hc : ',' ∉ t) (l : List Nat)
    (hl : s.lookup t = some l) (all : Bool) (i id : Nat) (h : (i, id) ∈ visit s.active (!all) l) :
    s.toList (some t) false false (.str (pyStr i)) = .ok [(0, id)] := by
  have hv := (Space.mem_visit.1 h).1
  have := C16_iterate_list (Space.requests_one s hc ht) false [(i : Int)] (by simp) (fun _ => l) (fun _ => [id])
    (by simpa using hl) (by
      intro _ _
      refine .cons ⟨?_, ?_⟩ .nil
      · rw [fromEnd, if_neg (by omega)]; omega
      · rw [fromEnd, if_neg (by omega)]; exact hv)
  have e : listText [(i : Int)] = pyStr i := rfl
  rw [e] at this
  rw [this]
  simp [visit]

/-- The tag that `info` prints is the one under which the dataset is listed. -/
theorem C109_tag {F : Type} (ops : List (StoreOp F)) {t : Tag} {l : List Nat} (hl : (perform ops).lookup t = some l) :
    ∀ id ∈ l, ∃ d, (perform ops).heap[id]? = some d ∧ d.tag = t := by
  suffices h : ∀ (ops : List (StoreOp F)) (s : Space F),
      (∀ t l, s.lookup t = some l → ∀ id ∈ l, ∃ d, s.heap[id]? = some d ∧ d.tag = t) →
      ∀ t l, (ops.foldl (fun s op => match op with
        | .add g => s.addNew g
        | .clean => s.clean) s).lookup t = some l → ∀ id ∈ l, ∃ d, (ops.foldl (fun s op => match op with
        | .add g => s.addNew g
        | .clean => s.clean) s).heap[id]? = some d ∧ d.tag = t by
    exact h ops {} (by intro t l h; simp [Space.lookup] at h) t l hl
  intro ops
  induction ops with
  | nil => intro s h; exact h
  | cons op ops ih =>
    intro s h
    rw [List.foldl_cons]
    apply ih
    cases op with
    | clean => intro t l h; simp [Space.clean, Space.lookup] at h
    | add g =>
      intro t l hl id hid
      simp only at hl ⊢
      rw [Space.addNew_lookup] at hl
      rw [Space.addNew_heap]
      by_cases e : g.tag = t
      · rw [if_pos e] at hl
        simp only [Option.some.injEq] at hl
        subst hl
        rcases List.mem_append.1 hid with hid | hid
        · cases hs : s.lookup t with
          | none => rw [hs] at hid; simp at hid
          | some l =>
            rw [hs] at hid
            obtain ⟨d, h1, h2⟩ := h t l hs id hid
            exact ⟨d, by rw [List.getElem?_append_left (List.getElem?_eq_some_iff.1 h1).1]; exact h1, h2⟩
        · simp only [List.mem_singleton] at hid
          subst hid
          exact ⟨g, by simp, e⟩
      · rw [if_neg e] at hl
        obtain ⟨d, h1, h2⟩ := h t l hl id hid
        exact ⟨d, by rw [List.getElem?_append_left (List.getElem?_eq_some_iff.1 h1).1]; exact h1, h2⟩

/-- C109: not vacuous: with the first of two datasets switched off, the second keeps its number. -/
example : infoCmd none false (((({} : Space Int).addNew (GData.new "a".toList "one".toList {})).addNew
      (GData.new "a".toList "two".toList {})).update 0 GData.deactivate) = .ok ["two (a#1)".toList] := by
  decide +kernel

end Pgkyl
