import Verif.Lemmas.Cli
/-! # C34, C35, C48, C51, C59: the command line -/

namespace Pgkyl
open Spec Cli

/-! ## C34 -/

/-- C34: a word that is a command, or abbreviates exactly one, runs that command, and nothing is loaded for it. -/
theorem C34_command {table : List Str} (hn : table.Nodup) (glob : Str → List Str) (strs : List Str) {w c : Str}
    (h : NamesCommand table w c) : getCommand table glob strs w = .ok (c, strs) :=
  getCommand_command hn glob strs h

/-- C34: a word that is no command and abbreviates two or more is rejected. -/
theorem C34_ambiguous {table : List Str} (glob : Str → List Str) (strs : List Str) {w c c' : Str} (hw : w ∉ table)
    (hc : c ∈ table) (hc' : c' ∈ table) (hne : c ≠ c') (ha : Abbrev w c) (ha' : Abbrev w c') :
    getCommand table glob strs w = .error .fail :=
  getCommand_ambiguous glob strs hw hc hc' hne ha ha'

/-- C34: a word that abbreviates no command and matches files is handed to `load`. -/
theorem C34_file {table : List Str} (glob : Str → List Str) (strs : List Str) {w : Str} (h : NamesFiles table glob w) :
    getCommand table glob strs w = .ok ("load".toList, strs ++ [w]) :=
  getCommand_file glob strs h

/-- C34: any other word is rejected. -/
theorem C34_nothing {table : List Str} (glob : Str → List Str) (strs : List Str) {w : Str}
    (h : ∀ c ∈ table, ¬ Abbrev w c) (hg : glob w = []) : getCommand table glob strs w = .error .fail :=
  getCommand_nothing glob strs h hg

/-- C34: the four cases are exhaustive, and a word has one meaning only. -/
theorem C34_exhaustive {table : List Str} (glob : Str → List Str) (w : Str) :
    (∃ c, NamesCommand table w c ∧ ∀ c', NamesCommand table w c' → c' = c) ∨
      (w ∉ table ∧ ∃ c ∈ table, ∃ c' ∈ table, c ≠ c' ∧ Abbrev w c ∧ Abbrev w c') ∨ NamesFiles table glob w ∨
      ((∀ c ∈ table, ¬ Abbrev w c) ∧ glob w = []) := by
  by_cases hw : w ∈ table
  · refine Or.inl ⟨w, ⟨hw, Or.inl rfl⟩, ?_⟩
    rintro c' ⟨_, h | ⟨h, _⟩⟩
    · exact h.symm
    · exact absurd hw h
  · by_cases hex : ∃ c ∈ table, Abbrev w c
    · obtain ⟨c, hc, ha⟩ := hex
      by_cases h2 : ∃ c' ∈ table, c ≠ c' ∧ Abbrev w c'
      · obtain ⟨c', hc', hne, ha'⟩ := h2
        exact Or.inr (Or.inl ⟨hw, c, hc, c', hc', hne, ha, ha'⟩)
      · refine Or.inl ⟨c, ⟨hc, Or.inr ⟨hw, fun c' hc' => ⟨fun h => ?_, fun h => h ▸ ha⟩⟩⟩, ?_⟩
        · by_contra hne
          exact h2 ⟨c', hc', fun x => hne x.symm, h⟩
        · rintro c' ⟨hc', h | ⟨_, h⟩⟩
          · exact absurd (h ▸ hc') hw
          · exact ((h c hc).1 ha).symm
    · have hno : ∀ c ∈ table, ¬ Abbrev w c := fun c hc ha => hex ⟨c, hc, ha⟩
      by_cases hg : glob w = []
      · exact Or.inr (Or.inr (Or.inr ⟨hno, hg⟩))
      · exact Or.inr (Or.inr (Or.inl ⟨hno, hg⟩))

/-! ## C59 -/

/-- C59: on a command line of files and commands other than `load`, exactly the words that name files are loaded, each
once, in the order in which they are written. -/
theorem C59_files_in_order {table : List Str} (hn : table.Nodup) {glob : Str → List Str} {words : List Str}
    (h : ∀ w ∈ words, NamesFiles table glob w ∨ ∃ c, c ≠ "load".toList ∧ NamesCommand table w c) :
    ∃ l, loaded table glob words = .ok l ∧ l.Sublist words ∧ (∀ w ∈ words, NamesFiles table glob w → w ∈ l) ∧
      (∀ w ∈ l, NamesFiles table glob w) ∧ ∀ w, NamesFiles table glob w → l.count w = words.count w := by
  obtain ⟨cmds, h1, h2⟩ := resolveAll_ok hn h []
  refine ⟨words.filter (isFile table glob), ?_, List.filter_sublist, ?_, ?_, ?_⟩
  · unfold loaded
    rw [h1]
    simp only [bind, Except.bind, List.nil_append]
    exact h2 _ 0 ⟨[], by simp⟩
  · intro w hw hf
    exact List.mem_filter.2 ⟨hw, by simp [isFile, getCommand_file _ _ hf]⟩
  · intro w hw
    rw [List.mem_filter] at hw
    rcases h w hw.1 with hf | ⟨c, hc, hcmd⟩
    · exact hf
    · have := hw.2
      rw [isFile, getCommand_command hn _ _ hcmd] at this
      exact absurd (by simpa using this) hc
  · intro w hf
    exact List.count_filter (by simp [isFile, getCommand_file _ _ hf])

/-- C59: an explicit `load` takes the string of the next file word, so that the load of the last file word fails. -/
theorem C59_explicit_load_fails {table : List Str} (hl : "load".toList ∈ table) {glob : Str → List Str} {f : Str}
    (hf : NamesFiles table glob f) : loaded table glob ["load".toList, f] = .error .indexError := by
  have h1 : resolveAll table glob ["load".toList, f] [] = .ok (["load".toList, "load".toList], [f]) := by
    have e1 : getCommand table glob [] "load".toList = .ok ("load".toList, []) := by simp only [getCommand, if_pos hl]
    simp only [resolveAll, e1, getCommand_file _ _ hf, bind, Except.bind, pure, Except.pure, List.nil_append]
  unfold loaded
  rw [h1]
  simp [bind, Except.bind, runLoads]

/-! ## C35 -/

/-- C35: z0 … z5 and the component: the local option if given, else the global one, else nothing. -/
theorem C35_cuts (loc glob : Given) (k : Nat) : LocalFirst (loc.cuts k) (glob.cuts k) ((resolveOpts loc glob).cuts k) :=
  pickCut_localFirst _ _

/-- C35: the variable names: the local ones if given, else the global ones, else "CartGridField"; a single option may
hold several names separated by commas. -/
theorem C35_varname (loc glob : Given) {chosen : List Str}
    (hch : chosen = if loc.varname ≠ [] then loc.varname else if glob.varname ≠ [] then glob.varname
      else ["CartGridField".toList]) :
    (∀ v, chosen = [v] → (resolveOpts loc glob).varNames = splitOn ',' v) ∧
      (chosen.length ≠ 1 → (resolveOpts loc glob).varNames = chosen) := by
  simp only [resolveOpts, varNames]
  rw [← hch]
  match chosen with
  | [] => simp
  | [v] => simp
  | _ :: _ :: _ => simp

/-- C35: the names separated by commas in a single local option. -/
theorem C35_varname_list (loc glob : Given) {ps : List Str} (hne : ps ≠ []) (hp : ∀ p ∈ ps, ',' ∉ p)
    (h : loc.varname = [joinWith ',' ps]) : (resolveOpts loc glob).varNames = ps := by
  simp only [resolveOpts, varNames, h]
  exact splitOn_joinWith ps hne hp

/-- C35: `c2p` follows the rule, and so does `c2p-vel`, unless `c2p-vel` is given both locally and globally.

Missing: that case, in which both are wrong (`C35_c2p_vel_fails`). -/
theorem C35_c2p_partial (loc glob : Given) (h : ¬ (IsGiven loc.c2pVel ∧ IsGiven glob.c2pVel)) :
    LocalFirst loc.c2p glob.c2p (resolveOpts loc glob).c2p ∧
      LocalFirst loc.c2pVel glob.c2pVel (resolveOpts loc glob).c2pVel := by
  have hc := pickCut_localFirst loc.c2p glob.c2p
  simp only [resolveOpts, pickVel]
  cases hl : truthy loc.c2pVel <;> cases hg : truthy glob.c2pVel <;> simp only [Bool.and_true, Bool.and_false,
    Bool.false_eq_true, if_true, if_false]
  · exact ⟨hc, .none (by rw [← truthy_iff, hl]; simp) (by rw [← truthy_iff, hg]; simp)⟩
  · exact ⟨hc, .glob (by rw [← truthy_iff, hl]; simp) (truthy_iff.1 hg)⟩
  · exact ⟨hc, .loc (truthy_iff.1 hl)⟩
  · exact absurd ⟨truthy_iff.1 hl, truthy_iff.1 hg⟩ h

/-- C35 is false for `c2p-vel` given both locally and globally: no velocity mapping is used, and the local `c2p-vel` file
replaces the `c2p` file. -/
theorem C35_c2p_vel_fails (loc glob : Given) (hl : IsGiven loc.c2pVel) (hg : IsGiven glob.c2pVel) :
    (resolveOpts loc glob).c2pVel = none ∧ (resolveOpts loc glob).c2p = loc.c2pVel := by
  simp [resolveOpts, pickVel, truthy_iff.2 hl, truthy_iff.2 hg]

/-! ## C51 -/

/-- C51: a wildcard pattern loads the matching files whose name does not contain "restart", each once, and those which
differ only in the frame number in increasing order of the frame number, provided all of them are usual output names
with equally many parts.

Missing: files of which some have more parts than others, which are not sorted. -/
theorem C51_numeric_order_partial {glob : Str → List Str} {s : Str} (hs : '*' ∈ s ∨ '?' ∈ s ∨ '!' ∈ s) {k : Nat}
    {fs : List Output} {keep : Str → Bool} (hk : ∀ f, keep f = true ↔ ¬ Occurs "restart".toList f)
    (hg : (glob s).filter keep = fs.map Output.name)
    (hf : ∀ f ∈ fs, f.Usual k) :
    ∃ gs : List Output, filesOf glob s = gs.map Output.name ∧ gs.Perm fs ∧
      gs.Pairwise fun a b => a.parts = b.parts → a.frame ≤ b.frame := by
  obtain ⟨gs, h1, h2, h3⟩ := sortFiles_names hf
  refine ⟨gs, ?_, h2, h3.imp lexKey_frame⟩
  unfold filesOf
  rw [if_pos hs, ← h1, ← hg]
  congr 1
  refine List.filter_congr fun f _ => ?_
  rw [Bool.eq_iff_iff, hk, ← contains_iff]
  simp

/-- C51: a string without wildcards is loaded as it is. -/
theorem C51_single {glob : Str → List Str} {s : Str} (h1 : '*' ∉ s) (h2 : '?' ∉ s) (h3 : '!' ∉ s) :
    filesOf glob s = [s] := by
  unfold filesOf
  rw [if_neg (by simp [h1, h2, h3])]

/-- C51 is false when some files have more parts than others: `a_10.gkyl`, `a_9.gkyl`, `a_b_1.gkyl` stay in the order in
which the file system lists them. -/
theorem C51_mixed_fails : sortFiles ["a_10.gkyl".toList, "a_9.gkyl".toList, "a_b_1.gkyl".toList] =
    ["a_10.gkyl".toList, "a_9.gkyl".toList, "a_b_1.gkyl".toList] := by
  decide +kernel

/-! ## C48 -/

/-- C48: the label of a file is made of those of its name parts at whose position some file that has a part there differs
from the longest name. -/
theorem C48_labels {names : List (List Str)} (h : names ≠ []) :
    ∃ ref ∈ names, (∀ n ∈ names, n.length ≤ ref.length) ∧
      uniqueLabels names = .ok (names.map fun nm => labelOf (distinctive names ref nm)) :=
  uniqueLabels_ok h

/-- C48: if all names have equally many parts, the label is made of exactly the parts that are not common to all. -/
theorem C48_labels_uniform {names : List (List Str)} (h : names ≠ []) {k : Nat} (hk : ∀ n ∈ names, n.length = k) :
    uniqueLabels names = .ok (names.map fun nm => labelOf
      (((List.range k).filter fun i => ∃ n ∈ names, ∃ n' ∈ names, n[i]? ≠ n'[i]?).map fun i => nm.getD i [])) := by
  obtain ⟨ref, h1, _, h3⟩ := uniqueLabels_ok h
  rw [h3]
  congr 1
  refine List.map_congr_left fun nm hnm => ?_
  unfold distinctive
  rw [hk nm hnm]
  congr 2
  refine List.filter_congr fun i hi => ?_
  rw [Bool.eq_iff_iff, decide_eq_true_eq, decide_eq_true_eq]
  constructor
  · rintro ⟨n, hn, _, hne⟩
    exact ⟨n, hn, ref, h1, hne⟩
  · rintro ⟨n, hn, n', hn', hne⟩
    by_cases hr : n[i]? = ref[i]?
    · exact ⟨n', hn', by rw [hk n' hn']; exact List.mem_range.1 hi, fun x => hne (hr.trans x.symm)⟩
    · exact ⟨n, hn, by rw [hk n hn]; exact List.mem_range.1 hi, hr⟩

/-- C48: two different names with equally many parts get different labels. -/
theorem C48_distinct_partial {names : List (List Str)} {labels : List Str} (hu : uniqueLabels names = .ok labels)
    {i j : Nat} {a b : List Str} (hi : names[i]? = some a) (hj : names[j]? = some b) (hl : a.length = b.length)
    (hne : a ≠ b) (ha : ∀ p ∈ a, '_' ∉ p) (hb : ∀ p ∈ b, '_' ∉ p) : labels[i]? ≠ labels[j]? := by
  have h : names ≠ [] := by rintro rfl; simp at hi
  obtain ⟨ref, h1, _, h3⟩ := uniqueLabels_ok h
  rw [h3] at hu
  simp only [Except.ok.injEq] at hu
  subst hu
  simp only [List.getElem?_map, hi, hj, Option.map_some, ne_eq, Option.some.injEq]
  intro he
  exact distinctive_ne (List.mem_of_getElem? hi) (List.mem_of_getElem? hj) hl hne
    (labelOf_inj (distinctive_length names ref hl) (fun p hp => ha p (distinctive_mem hp))
      (fun p hp => hb p (distinctive_mem hp)) he)

/-- C48 is false for names with different numbers of parts: if one name is the other with further parts, both get the
empty label. -/
theorem C48_prefix_fails (a rest : List Str) (hr : rest ≠ []) : uniqueLabels [a, a ++ rest] = .ok [[], []] := by
  have hlen : a.length < (a ++ rest).length := by
    have := List.length_pos_iff.2 hr
    simp; omega
  have hinc : ∀ i, included [a, a ++ rest] (a ++ rest) i = false := by
    intro i
    rw [included_eq, decide_eq_false_iff_not]
    rintro ⟨n, hn, hi, hne⟩
    simp only [List.mem_cons, List.not_mem_nil, or_false] at hn
    rcases hn with rfl | rfl
    · exact hne (List.getElem?_append_left hi).symm
    · exact hne rfl
  have hfold : ∀ (l : List Nat) (nm : List Str),
      l.foldl (fun l i => if included [a, a ++ rest] (a ++ rest) i then appendPart l nm i else l) [] = [] := by
    intro l nm
    induction l with
    | nil => rfl
    | cons x l ih => rw [List.foldl_cons, hinc, if_neg (by simp)]; exact ih
  unfold uniqueLabels longestOf
  simp only [bind, Except.bind, pure, Except.pure, List.foldl_cons, List.foldl_nil, hlen, if_true, List.map_cons,
    List.map_nil, hfold]

/-- C48: `set_unique_labels` stores the labels of the names of the active datasets with these datasets, and changes
nothing else. -/
theorem C48_stored {F : Type} {s : Space F} (hs : Reachable s) {items : List (Nat × Nat)}
    (hi : s.toList none false true .none = .ok items) (hne : items ≠ []) :
    ∃ s' labels, setUniqueLabels s = .ok s' ∧
      uniqueLabels (items.map fun e => nameParts (((s.heap[e.2]?).map GData.fileName).getD [])) = .ok labels ∧
      s'.dict = s.dict ∧
      (∀ (k : Nat) (e : Nat × Nat) (l : Str), items[k]? = some e → labels[k]? = some l →
        s'.heap[e.2]? = (s.heap[e.2]?).map fun d => { d with label := l }) ∧
      ∀ j, j ∉ items.map Prod.snd → s'.heap[j]? = s.heap[j]? := by
  obtain ⟨ref, _, _, h3⟩ := uniqueLabels_ok
    (names := items.map fun e => nameParts (((s.heap[e.2]?).map GData.fileName).getD [])) (by simpa using hne)
  have hnd : (items.map Prod.snd).Nodup := by
    have hI := Space.reachable_inv hs
    have := Space.toList_none (Space.tagsOf_none_lookup s) false true
    rw [this] at hi
    simp only [Except.ok.injEq] at hi
    rw [← hi, List.map_flatMap]
    simp only [Space.visit_map_snd]
    have hk := Space.keys_flatMap hI.keys_nodup
    have hsub : ((s.tagsOf none).flatMap fun t => ((s.lookup t).getD []).filter fun i => !true || s.active i).Sublist
        ((s.tagsOf none).flatMap fun t => (s.lookup t).getD []) := by
      rw [← List.filter_flatMap]
      exact List.filter_sublist
    refine List.Nodup.sublist hsub ?_
    have : s.tagsOf none = s.keys := rfl
    rw [this, hk]
    exact hI.ids_nodup
  obtain ⟨g1, g2, g3⟩ := foldl_setLabel items ((items.map fun e => nameParts (((s.heap[e.2]?).map GData.fileName).getD [])).map
    fun nm => labelOf (distinctive (items.map fun e => nameParts (((s.heap[e.2]?).map GData.fileName).getD [])) ref nm)) s hnd
    (by simp)
  refine ⟨_, _, ?_, h3, g1, g2, g3⟩
  unfold setUniqueLabels
  rw [hi]
  simp only [bind, Except.bind, h3]
  rfl

/-- C48: the name parts of a file are what stands between underscores, without the extension. -/
theorem C48_name_parts {parts : List Str} (hne : parts ≠ []) (hp : ∀ p ∈ parts, '_' ∉ p) {ext : Str} (he : '.' ∉ ext) :
    nameParts (fileName parts ext) = parts :=
  nameParts_fileName hne hp he

/-! ### The hypotheses are met -/

namespace CliEx

def table : List Str := ["activate".toList, "animate".toList, "integrate".toList, "interpolate".toList, "load".toList,
  "plot".toList, "pr".toList]

def glob (w : Str) : List Str :=
  if w = "sim_*.gkyl".toList then ["sim_10.gkyl".toList, "sim_2.gkyl".toList, "sim_restart_0.gkyl".toList] else []

theorem nodup : table.Nodup := by decide

theorem plot : NamesCommand table "pl".toList "plot".toList := by
  refine ⟨by decide, Or.inr ⟨by decide, ?_⟩⟩
  intro c' hc'
  rw [← startsWith_iff]
  revert c'
  decide

theorem simFiles : NamesFiles table glob "sim_*.gkyl".toList := by
  refine ⟨?_, by decide⟩
  intro c hc
  rw [← startsWith_iff]
  revert c
  decide

/-- "pl" runs `plot`. -/
example : getCommand table glob [] "pl".toList = .ok ("plot".toList, []) := C34_command nodup _ _ plot

/-- "int" is ambiguous. -/
example : getCommand table glob [] "int".toList = .error .fail :=
  C34_ambiguous _ _ (c := "integrate".toList) (c' := "interpolate".toList) (by decide) (by decide) (by decide) (by decide)
    ⟨_, rfl⟩ ⟨_, rfl⟩

example : getCommand table glob ["x".toList] "sim_*.gkyl".toList = .ok ("load".toList, ["x".toList, "sim_*.gkyl".toList]) :=
  C34_file _ _ simFiles

example : getCommand table glob [] "spam".toList = .error .fail :=
  C34_nothing _ _ (by intro c hc; rw [← startsWith_iff]; revert c; decide) (by decide)

/-- A command line with one file word and one command. -/
example : ∃ l, loaded table glob ["sim_*.gkyl".toList, "pl".toList] = .ok l ∧
    l.Sublist ["sim_*.gkyl".toList, "pl".toList] ∧
    (∀ w ∈ ["sim_*.gkyl".toList, "pl".toList], NamesFiles table glob w → w ∈ l) ∧
    (∀ w ∈ l, NamesFiles table glob w) ∧
    ∀ w, NamesFiles table glob w → l.count w = ["sim_*.gkyl".toList, "pl".toList].count w :=
  C59_files_in_order nodup (by
    intro w hw
    simp only [List.mem_cons, List.not_mem_nil, or_false] at hw
    rcases hw with rfl | rfl
    · exact Or.inl simFiles
    · exact Or.inr ⟨_, by decide, plot⟩)

example : loaded table glob ["load".toList, "sim_*.gkyl".toList] = .error .indexError :=
  C59_explicit_load_fails (by decide) simFiles

/-- The frames 10 and 2 are loaded in the order 2, 10. -/
def frames : List Output := [⟨["sim".toList], 10, "gkyl".toList⟩, ⟨["sim".toList], 2, "gkyl".toList⟩]

example : ∃ gs : List Output, filesOf glob "sim_*.gkyl".toList = gs.map Output.name ∧ gs.Perm frames ∧
    gs.Pairwise fun a b => a.parts = b.parts → a.frame ≤ b.frame :=
  C51_numeric_order_partial (k := 1) (by decide) (fs := frames)
    (keep := fun f => !contains "restart".toList f) (fun f => by rw [← contains_iff]; simp) (by decide +kernel) (by
    intro f hf
    simp only [frames, List.mem_cons, List.not_mem_nil, or_false] at hf
    rcases hf with rfl | rfl
    · exact ⟨rfl, by decide, by decide, by decide⟩
    · exact ⟨rfl, by decide, by decide, by decide⟩)

/-- The velocity mapping given on both levels. -/
example : (resolveOpts { c2pVel := some "a".toList } { c2pVel := some "b".toList, c2p := some "c".toList }).c2p =
    some "a".toList := (C35_c2p_vel_fails _ _ ⟨_, _, rfl⟩ ⟨_, _, rfl⟩).2

example : ¬ (IsGiven ({ c2p := some "x".toList } : Given).c2pVel ∧ IsGiven ({} : Given).c2pVel) := by
  rintro ⟨⟨_, _, h⟩, _⟩
  cases h

/-- Labels of three files. -/
example : uniqueLabels [["sim".toList, "elc".toList, "1".toList], ["sim".toList, "ion".toList, "1".toList],
    ["sim".toList, "ion".toList, "2".toList]] = .ok ["elc_1".toList, "ion_1".toList, "ion_2".toList] := by decide +kernel

end CliEx

end Pgkyl
