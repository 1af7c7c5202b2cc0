import Verif.Model.LineLoads
import Verif.Props.Limits
import Verif.Props.Cli
/-! # C170: every file on the command line is loaded once, in order, with its own options -/

namespace Pgkyl
open Spec Options

namespace Spec

/-- The files on a line, with the options written behind each: commands other than `load` with their options, and files. -/
inductive FilesOn (glob : Text → List Text) : List Text → List (Text × List (Text × Text)) → Prop where
  | nil : FilesOn glob [] []
  | call {c : Command} {w : Text} {ws as rest : List Text} {es : List (Text × Text)} {files : List (Text × List (Text × Text))} : c ∈ commands →
      Clear c → c ≠ cmd_load → CalledBy commands w c → as.length = c.args.length → Line c ws es (as ++ rest) → FilesOn glob rest files →
      FilesOn glob (w :: ws) files
  | file {f : Text} {ws rest : List Text} {es : List (Text × Text)} {files : List (Text × List (Text × Text))} :
      (∀ d ∈ commands, ¬ f <+: d.name) → glob f ≠ [] → Line cmd_load ws es rest → FilesOn glob rest files →
      FilesOn glob (f :: ws) ((f, es) :: files)

/-- The value of an option that the file and `pgkyl` can both have: that of the file, otherwise that of `pgkyl`. -/
def OwnFirst (own main : List (Text × Text)) (key : Text) (used : Option Text) : Prop :=
  (∀ v, v ≠ [] → LastGiven own key v → used = some v) ∧
  (∀ v, v ≠ [] → NotGiven own key → LastGiven main key v → used = some v) ∧
  (NotGiven own key → NotGiven main key → used = none)

/-- The value of an option of the file alone. -/
def Own (own : List (Text × Text)) (key : Text) (used : Option Text) : Prop :=
  (∀ v, LastGiven own key v → used = some v) ∧ (NotGiven own key → used = none)

/-- The variables asked for: the option repeated, once for every name, or once with all names and commas in between. -/
inductive VarsAsked (es : List (Text × Text)) : List Text → Prop where
  | repeated {a b : Text} {l : List Text} : (es.filterMap fun e => if e.1 = "varname".toList then some e.2 else none) = a :: b :: l →
      VarsAsked es (a :: b :: l)
  | list {ns : List Text} : ns ≠ [] → (∀ n ∈ ns, ',' ∉ n) →
      (es.filterMap fun e => if e.1 = "varname".toList then some e.2 else none) = [joinWith ',' ns] → VarsAsked es ns

/-- A file is loaded as it is asked for on the line.  (`compgrid` can be asked for only before the files: C170_compgrid_fails.) -/
structure LoadedAs (main : List (Text × Text)) (q : Text × List (Text × Text)) (l : Loading) : Prop where
  file : l.file = q.1
  z0 : OwnFirst q.2 main "z0".toList (l.used.cuts 0)
  z1 : OwnFirst q.2 main "z1".toList (l.used.cuts 1)
  z2 : OwnFirst q.2 main "z2".toList (l.used.cuts 2)
  z3 : OwnFirst q.2 main "z3".toList (l.used.cuts 3)
  z4 : OwnFirst q.2 main "z4".toList (l.used.cuts 4)
  z5 : OwnFirst q.2 main "z5".toList (l.used.cuts 5)
  component : OwnFirst q.2 main "component".toList (l.used.cuts 6)
  tag : (∀ v, LastGiven q.2 "tag".toList v → l.tag = v) ∧ (NotGiven q.2 "tag".toList → l.tag = "default".toList)
  label : Own q.2 "label".toList l.label
  reader : Own q.2 "reader".toList l.reader
  fv : l.fv = true ↔ ∃ v, LastGiven q.2 "fv".toList v
  load : l.load = false ↔ LastGiven q.2 "load".toList "False".toList
  compgrid : l.compgrid = true ↔ ∃ v, LastGiven main "compgrid".toList v
  varname : ∀ ns, VarsAsked q.2 ns → l.used.varNames = ns
  varname_main : ∀ ns, NotGiven q.2 "varname".toList → VarsAsked main ns → l.used.varNames = ns
  default : NotGiven q.2 "varname".toList → NotGiven main "varname".toList → l.used.varNames = ["CartGridField".toList]
  c2p : NotGiven q.2 "c2p_vel".toList ∨ NotGiven main "c2p_vel".toList → OwnFirst q.2 main "c2p".toList l.used.c2p
  c2p_vel : NotGiven q.2 "c2p_vel".toList ∨ NotGiven main "c2p_vel".toList → OwnFirst q.2 main "c2p_vel".toList l.used.c2pVel

end Spec

namespace Options
open Limits (valueOf_last valueOf_not valueOf_some)

theorem pickCut_own (own main : List (Text × Text)) (key : Text) :
    OwnFirst own main key (Cli.pickCut (valueOf own key) (valueOf main key)) := by
  refine ⟨?_, ?_, ?_⟩
  · intro v hv h
    obtain ⟨c, t, rfl⟩ := List.exists_cons_of_ne_nil hv
    rw [valueOf_last h]
    simp [Cli.pickCut, Cli.truthy]
  · intro v hv h h'
    obtain ⟨c, t, rfl⟩ := List.exists_cons_of_ne_nil hv
    rw [valueOf_not h, valueOf_last h']
    simp [Cli.pickCut, Cli.truthy]
  · intro h h'
    rw [valueOf_not h, valueOf_not h']
    simp [Cli.pickCut, Cli.truthy]

theorem pickVel_none (c2p v : Option Text) : (Cli.pickVel c2p none v).1 = c2p ∧ (Cli.pickVel c2p none v).2 = Cli.pickCut none v ∧
    (Cli.pickVel c2p v none).1 = c2p ∧ (Cli.pickVel c2p v none).2 = Cli.pickCut v none := by
  rcases v with _ | _ | ⟨_, _⟩ <;> simp [Cli.pickVel, Cli.pickCut, Cli.truthy]

theorem valueOf_skip {k k' v : Text} (h : k' ≠ k) (es : List (Text × Text)) : valueOf ((k', v) :: es) k = valueOf es k := by
  unfold valueOf
  rw [List.filter_cons_of_neg (by simpa using h)]

theorem valuesOf_skip {k k' v : Text} (h : k' ≠ k) (es : List (Text × Text)) : valuesOf ((k', v) :: es) k = valuesOf es k := by
  unfold valuesOf
  rw [List.filter_cons_of_neg (by simpa using h)]

theorem own_valueOf (own : List (Text × Text)) (key : Text) : Own own key (valueOf own key) :=
  ⟨fun _ h => valueOf_last h, fun h => valueOf_not h⟩

theorem valuesOf_not {es : List (Text × Text)} {key : Text} (h : NotGiven es key) : valuesOf es key = [] := by
  have : es.filter (fun e => e.1 = key) = [] := by
    rw [List.filter_eq_nil_iff]
    intro e he
    simpa using h e he
  simp [valuesOf, this]

theorem valuesOf_filterMap (es : List (Text × Text)) (key : Text) :
    valuesOf es key = es.filterMap fun e => if e.1 = key then some e.2 else none := by
  unfold valuesOf
  induction es with
  | nil => rfl
  | cons e es ih =>
    by_cases h : e.1 = key
    · rw [List.filter_cons_of_pos (by simpa using h), List.map_cons, ih, List.filterMap_cons]
      simp [h]
    · rw [List.filter_cons_of_neg (by simpa using h), ih, List.filterMap_cons]
      simp [h]

theorem varNames_asked {es : List (Text × Text)} {ns : List Text} (h : VarsAsked es ns) :
    (∀ main, Cli.varNames (valuesOf es "varname".toList) main = ns) ∧ Cli.varNames [] (valuesOf es "varname".toList) = ns := by
  rw [valuesOf_filterMap]
  cases h with
  | repeated h => rw [h]; simp [Cli.varNames]
  | list h1 h2 h => rw [h]; simp [Cli.varNames, splitOn_joinWith _ h1 h2]

theorem loadingOf_spec (main : List (Text × Text)) (q : Text × List (Text × Text)) : LoadedAs main q (loadingOf main q.1 q.2) where
  file := rfl
  z0 := pickCut_own _ _ _
  z1 := pickCut_own _ _ _
  z2 := pickCut_own _ _ _
  z3 := pickCut_own _ _ _
  z4 := pickCut_own _ _ _
  z5 := pickCut_own _ _ _
  component := pickCut_own _ _ _
  tag := ⟨fun v h => by simp only [loadingOf, valueOf_last h, Option.getD_some],
    fun h => by simp only [loadingOf, valueOf_not h, Option.getD_none]⟩
  label := own_valueOf _ _
  reader := own_valueOf _ _
  fv := by
    simp only [loadingOf, Option.isSome_iff_exists]
    exact ⟨fun ⟨v, h⟩ => ⟨v, valueOf_some h⟩, fun ⟨v, h⟩ => ⟨v, valueOf_last h⟩⟩
  load := by
    simp only [loadingOf, decide_eq_false_iff_not, not_not]
    exact ⟨fun h => valueOf_some h, fun h => valueOf_last h⟩
  compgrid := by
    simp only [loadingOf, Option.isSome_iff_exists]
    exact ⟨fun ⟨v, h⟩ => ⟨v, valueOf_some h⟩, fun ⟨v, h⟩ => ⟨v, valueOf_last h⟩⟩
  varname := fun ns h => (varNames_asked h).1 _
  varname_main := by
    intro ns h h'
    have := (varNames_asked h').2
    simp only [loadingOf, Cli.resolveOpts, givenOf, valuesOf_not h]
    exact this
  default := by
    intro h h'
    simp only [loadingOf, Cli.resolveOpts, Cli.varNames, givenOf, valuesOf_not h, valuesOf_not h']
    decide +kernel
  c2p := by
    intro h
    have hp : ∀ c2p, (Cli.pickVel c2p (valueOf q.2 "c2p_vel".toList) (valueOf main "c2p_vel".toList)).1 = c2p := by
      intro c2p
      rcases h with h | h <;> rw [valueOf_not h]
      · exact (pickVel_none c2p _).1
      · exact (pickVel_none c2p _).2.2.1
    show OwnFirst q.2 main "c2p".toList (Cli.pickVel _ _ _).1
    simp only [givenOf]
    rw [hp]
    exact pickCut_own _ _ _
  c2p_vel := by
    intro h
    have hp : ∀ c2p, (Cli.pickVel c2p (valueOf q.2 "c2p_vel".toList) (valueOf main "c2p_vel".toList)).2 =
        Cli.pickCut (valueOf q.2 "c2p_vel".toList) (valueOf main "c2p_vel".toList) := by
      intro c2p
      rcases h with h | h <;> rw [valueOf_not h]
      · exact (pickVel_none c2p _).2.1
      · exact (pickVel_none c2p _).2.2.2
    show OwnFirst q.2 main "c2p_vel".toList (Cli.pickVel _ _ _).2
    simp only [givenOf]
    rw [hp]
    exact pickCut_own _ _ _

theorem load_clear : cmd_load ∈ commands ∧ Clear cmd_load ∧ cmd_load.name = "load".toList ∧ cmd_load.args = [] ∧
    ∀ c ∈ commands, c.name = "load".toList → c = cmd_load := by
  decide +kernel

theorem filesOn_chained {glob : Text → List Text} {ws : List Text} {files : List (Text × List (Text × Text))} (h : FilesOn glob ws files) :
    ∃ calls, Chained commands glob ws calls (files.map (·.1)) ∧
      (calls.filter fun c => c.name = "load".toList).map Call.given = files.map (·.2) := by
  obtain ⟨l1, l2, l3, l4, l5⟩ := load_clear
  induction h with
  | nil => exact ⟨[], .nil, rfl⟩
  | @call c w ws as rest es files hm hcl hne hw hlen hl _ ih =>
    obtain ⟨calls, h1, h2⟩ := ih
    have hn : c.name ≠ "load".toList := fun he => hne (l5 c hm he)
    refine ⟨_, .call hm hcl hw hlen hl h1, ?_⟩
    rw [List.filter_cons_of_neg (by simpa using hn)]
    exact h2
  | @file f ws rest es files hno hg hl _ ih =>
    obtain ⟨calls, h1, h2⟩ := ih
    refine ⟨_, .file l1 l2 l3 l4 hno hg hl h1, ?_⟩
    rw [List.filter_cons_of_pos (by simp [l3]), List.map_cons, h2]
    rfl

theorem loadings_zip (main : List (Text × Text)) : ∀ (calls : List Call) (files : List (Text × List (Text × Text))) (before : List Text),
    (calls.filter fun c => c.name = "load".toList).map Call.given = files.map (·.2) →
    loadings main (before ++ files.map (·.1)) calls before.length = .ok (files.map fun q => loadingOf main q.1 q.2)
  | [], files, before, h => by
    have : files = [] := by simpa using h.symm
    subst this
    rfl
  | c :: cs, files, before, h => by
    by_cases hc : c.name = "load".toList
    · rw [List.filter_cons_of_pos (by simpa using hc), List.map_cons] at h
      cases files with
      | nil => simp at h
      | cons q files =>
        rw [List.map_cons, List.cons.injEq] at h
        have hget : (before ++ (q :: files).map (·.1))[before.length]? = some q.1 := by simp
        have ih := loadings_zip main cs files (before ++ [q.1]) h.2
        rw [List.length_append, List.length_singleton, List.append_assoc, List.singleton_append] at ih
        simp only [loadings, if_pos hc, hget]
        rw [List.map_cons, ih, h.1]
        rfl
    · rw [List.filter_cons_of_neg (by simpa using hc)] at h
      rw [loadings, if_neg hc]
      exact loadings_zip main cs files before h

end Options

/-- **C170**: every file on the line is loaded once, in the order of the line, and each with the options written behind it, or those of
`pgkyl` where it has none, whatever other commands stand before, between and behind. -/
theorem C170_files_partial {glob : Text → List Text} {ws ws' : List Text} {files : List (Text × List (Text × Text))}
    (h : FilesOn glob ws files) {main : List (Text × Text)} (hl : Line cmd_cli ws' main ws) :
    ∃ ls, lineLoads glob ws' = .ok ls ∧ List.Forall₂ (LoadedAs main) files ls := by
  obtain ⟨calls, h1, h2⟩ := filesOn_chained h
  refine ⟨files.map fun q => loadingOf main q.1 q.2, ?_, ?_⟩
  · unfold lineLoads
    rw [C168_pgkyl_partial h1 hl]
    exact loadings_zip main calls files [] h2
  · rw [List.forall₂_map_right_iff]
    exact List.forall₂_same.2 fun q _ => loadingOf_spec main q

/-- **C170** fails for `--compgrid` behind a file: it is accepted and changes nothing. -/
theorem C170_compgrid_fails {main : List (Text × Text)} (f : Text) (es : List (Text × Text)) :
    loadingOf main f (("compgrid".toList, "True".toList) :: es) = loadingOf main f es ∧
    (NotGiven main "compgrid".toList → (loadingOf main f (("compgrid".toList, "True".toList) :: es)).compgrid = false) := by
  have key : ∀ k : Text, k ≠ "compgrid".toList → valueOf (("compgrid".toList, "True".toList) :: es) k = valueOf es k := by
    intro k hk
    exact valueOf_skip (Ne.symm hk) es
  have keys : ∀ k : Text, k ≠ "compgrid".toList → valuesOf (("compgrid".toList, "True".toList) :: es) k = valuesOf es k := by
    intro k hk
    exact valuesOf_skip (Ne.symm hk) es
  have hcut : ∀ k, cutKey k ≠ "compgrid".toList := by
    intro k h
    unfold cutKey at h
    split at h
    · revert h; decide
    · have : 'z' = 'c' := (List.cons.inj h).1
      revert this; decide
  constructor
  · unfold loadingOf
    have hg : givenOf (("compgrid".toList, "True".toList) :: es) = givenOf es := by
      unfold givenOf
      rw [keys _ (by decide), key _ (by decide), key _ (by decide)]
      congr 1
      funext k
      exact key _ (hcut k)
    rw [hg, key _ (by decide), key _ (by decide), key _ (by decide), key _ (by decide), key _ (by decide)]
  · intro h
    simp only [loadingOf, Limits.valueOf_not h, Option.isSome_none]

/-- **C170** fails for the word `load` itself, which is a registered command: it takes the next file of the line, and without one it is
an `IndexError`. -/
theorem C170_load_fails {glob : Text → List Text} : lineLoads glob ["load".toList] = .error .indexError := by
  have hc : Chained commands glob ["load".toList] [⟨"load".toList, [] ++ [].zip []⟩] [] :=
    Chained.call (c := cmd_load) (as := []) (by decide +kernel) (by decide +kernel) (Or.inl rfl) rfl Line.nil Chained.nil
  have hl : Line cmd_cli ["load".toList] [] ["load".toList] := Line.stop (by decide)
  unfold lineLoads
  rw [C168_pgkyl_partial hc hl]
  rfl

/-! ## The hypotheses are met: `pgkyl -c 0 a.gkyl -t one b.gkyl -c 1 plot` -/

namespace LineLoadsEx

theorem files : FilesOn (fun w => [w]) (["a.gkyl", "-t", "one", "b.gkyl", "-c", "1", "plot"].map String.toList)
    [("a.gkyl".toList, [("tag".toList, "one".toList)]), ("b.gkyl".toList, [("component".toList, "1".toList)])] :=
  FilesOn.file (by decide +kernel) (by simp)
    (Line.cons (Written.value (o := ⟨"tag".toList, .value, ["--tag".toList, "-t".toList], []⟩) (n := "-t".toList) (w := "one".toList)
      (by decide +kernel) (Or.inl rfl) (by decide)) (Line.stop (by decide)))
    (FilesOn.file (by decide +kernel) (by simp)
      (Line.cons (Written.value (o := ⟨"component".toList, .value, ["--component".toList, "-c".toList], []⟩) (n := "-c".toList)
        (w := "1".toList) (by decide +kernel) (Or.inl rfl) (by decide)) (Line.stop (by decide)))
      (FilesOn.call (c := cmd_plot) (as := []) (by decide +kernel) (by decide +kernel) (by decide +kernel) (Or.inl rfl) rfl Line.nil FilesOn.nil))

example : ∃ ls, lineLoads (fun w => [w]) (["-c", "0", "a.gkyl", "-t", "one", "b.gkyl", "-c", "1", "plot"].map String.toList) = .ok ls ∧
    ls.map (·.file) = ["a.gkyl".toList, "b.gkyl".toList] ∧ ls.map (·.used.cuts 6) = [some "0".toList, some "1".toList] := by
  have hl : Line cmd_cli (["-c", "0", "a.gkyl", "-t", "one", "b.gkyl", "-c", "1", "plot"].map String.toList)
      [("component".toList, "0".toList)] _ :=
    Line.cons (Written.value (o := OptionsEx.component) (n := "-c".toList) (w := "0".toList) (by decide +kernel) (Or.inl rfl) (by decide))
      (Line.stop (w := "a.gkyl".toList) (by decide))
  obtain ⟨ls, h1, h2⟩ := C170_files_partial files hl
  refine ⟨ls, h1, ?_⟩
  rcases h2 with _ | ⟨ha, _ | ⟨hb, ⟨⟩⟩⟩
  refine ⟨by simp [ha.file, hb.file], ?_⟩
  have h3 := ha.component.2.1 "0".toList (by decide) (by unfold NotGiven; decide) ⟨[], [], rfl, by simp⟩
  have h4 := hb.component.1 "1".toList (by decide) ⟨[], [], rfl, by simp⟩
  simp [h3, h4]

/-- `-d e,b` and `-d e -d b` -/
example : VarsAsked [("tag".toList, "one".toList), ("varname".toList, "e,b".toList)] ["e".toList, "b".toList] ∧
    VarsAsked [("varname".toList, "e".toList), ("varname".toList, "b".toList)] ["e".toList, "b".toList] :=
  ⟨.list (by simp) (by decide) (by decide), .repeated (by decide)⟩

end LineLoadsEx

end Pgkyl
