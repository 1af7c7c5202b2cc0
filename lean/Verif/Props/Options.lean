import Verif.Lemmas.Options
import Verif.Model.OptionTable
import Verif.Model.Registered
/-! # C168: the options on the command line reach the command they are written for -/

namespace Pgkyl
open Spec Options

/-! ## Lemmas on what can come out of the parser -/

namespace Options

theorem find_mem {c : Command} {n k : Text} {a : Act} (h : find c n = some (k, a)) : (n, k, a) ∈ c.decls := by
  unfold find at h
  rw [Option.map_eq_some_iff] at h
  obtain ⟨d, hd, he⟩ := h
  have hm := List.mem_reverse.1 (List.mem_of_find?_eq_some hd)
  have hp := List.find?_some hd
  simp only [decide_eq_true_eq] at hp
  obtain ⟨d1, d2⟩ := d
  simp only at hp he
  subst hp he
  exact hm

/-- What the words of a command can give: the value of a flag, `False` for a name that switches it off, the value that may be left out,
or the end of a word. -/
def Origin (c : Command) (ws : List Text) (e : Text × Text) : Prop :=
  ∃ o ∈ c.opts ++ [helpOpt], o.key = e.1 ∧
    (o.kind = .flag e.2 ∨ (o.off ≠ [] ∧ e.2 = "False".toList) ∨ o.kind = .optional e.2 ∨
      ((∀ v, o.kind ≠ .flag v) ∧ ∃ w ∈ ws, e.2 <:+ w))

theorem decl_opt {c : Command} {n k : Text} {a : Act} (h : (n, k, a) ∈ c.decls) :
    ∃ o ∈ c.opts ++ [helpOpt], o.key = k ∧ ((n ∈ o.names ∧ o.kind.act = a) ∨ (n ∈ o.off ∧ a = .const "False".toList)) := by
  obtain ⟨o, ho, hd⟩ := List.mem_flatMap.1 h
  refine ⟨o, ho, ?_⟩
  rcases List.mem_append.1 hd with h | h
  · obtain ⟨m, hm, he⟩ := List.mem_map.1 h
    cases he
    exact ⟨rfl, Or.inl ⟨hm, rfl⟩⟩
  · obtain ⟨m, hm, he⟩ := List.mem_map.1 h
    cases he
    exact ⟨rfl, Or.inr ⟨hm, rfl⟩⟩

/-- The words left are ends of the words given. -/
def Ends (ws ws' : List Text) : Prop := ∀ w ∈ ws, ∃ w' ∈ ws', w <:+ w'

theorem Ends.refl (ws : List Text) : Ends ws ws := fun w hw => ⟨w, hw, List.suffix_refl _⟩

theorem Ends.trans {a b d : List Text} (h : Ends a b) (h' : Ends b d) : Ends a d := by
  intro w hw
  obtain ⟨x, hx, h1⟩ := h w hw
  obtain ⟨y, hy, h2⟩ := h' x hx
  exact ⟨y, hy, h1.trans h2⟩

theorem Ends.tail (w : Text) (ws : List Text) : Ends ws (w :: ws) := fun x hx => ⟨x, List.mem_cons_of_mem _ hx, List.suffix_refl _⟩

theorem Origin.mono {c : Command} {ws ws' : List Text} (h : Ends ws ws') {e : Text × Text} (he : Origin c ws e) : Origin c ws' e := by
  obtain ⟨o, ho, hk, h1 | h1 | h1 | ⟨h1, w, hw, h2⟩⟩ := he
  · exact ⟨o, ho, hk, Or.inl h1⟩
  · exact ⟨o, ho, hk, Or.inr (Or.inl h1)⟩
  · exact ⟨o, ho, hk, Or.inr (Or.inr (Or.inl h1))⟩
  · obtain ⟨x, hx, h3⟩ := h w hw
    exact ⟨o, ho, hk, Or.inr (Or.inr (Or.inr ⟨h1, x, hx, h2.trans h3⟩))⟩

theorem valueFrom_origin {c : Command} {n k : Text} {a : Act} (hd : (n, k, a) ∈ c.decls) {ws : List Text} {r : Text × List Text}
    (h : valueFrom a ws = .ok r) : Origin c ws (k, r.1) ∧ Ends r.2 ws := by
  obtain ⟨o, ho, hk, hor⟩ := decl_opt hd
  cases a with
  | const v =>
    cases h
    refine ⟨⟨o, ho, hk, ?_⟩, Ends.refl _⟩
    rcases hor with ⟨_, ha⟩ | ⟨hn, ha⟩
    · left
      cases hkind : o.kind <;> rw [hkind] at ha <;> cases ha
      rfl
    · cases ha
      exact Or.inr (Or.inl ⟨List.ne_nil_of_mem hn, rfl⟩)
  | takes =>
    have hnf : ∀ v, o.kind ≠ .flag v := by
      intro v hv
      rcases hor with ⟨_, ha⟩ | ⟨_, ha⟩
      · rw [hv] at ha; cases ha
      · cases ha
    cases ws with
    | nil => cases h
    | cons w ws =>
      cases h
      exact ⟨⟨o, ho, hk, Or.inr (Or.inr (Or.inr ⟨hnf, w, List.mem_cons_self, List.suffix_refl _⟩))⟩, Ends.tail _ _⟩
  | optional v =>
    have hop : o.kind = .optional v := by
      rcases hor with ⟨_, ha⟩ | ⟨_, ha⟩
      · cases hkind : o.kind <;> rw [hkind] at ha <;> cases ha
        rfl
      · cases ha
    have hnf : ∀ v, o.kind ≠ .flag v := by
      intro v hv
      rw [hop] at hv
      cases hv
    cases ws with
    | nil =>
      cases h
      exact ⟨⟨o, ho, hk, Or.inr (Or.inr (Or.inl hop))⟩, Ends.refl _⟩
    | cons w ws =>
      simp only [valueFrom] at h
      by_cases hw : looksOption w = true
      · rw [if_pos hw] at h
        cases h
        exact ⟨⟨o, ho, hk, Or.inr (Or.inr (Or.inl hop))⟩, Ends.refl _⟩
      · rw [if_neg hw] at h
        cases h
        exact ⟨⟨o, ho, hk, Or.inr (Or.inr (Or.inr ⟨hnf, w, List.mem_cons_self, List.suffix_refl _⟩))⟩, Ends.tail _ _⟩

theorem shorts_origin {c : Command} : ∀ {cs : Text} {ws : List Text} {r : List (Text × Text) × List Text},
    shorts c cs ws = .ok r → (∀ e ∈ r.1, Origin c (cs :: ws) e) ∧ Ends r.2 (cs :: ws)
  | [], ws, r, h => by
    cases h
    exact ⟨by simp, Ends.tail _ _⟩
  | ch :: cs, ws, r, h => by
    have hstep : Ends (cs :: ws) ((ch :: cs) :: ws) := by
      intro w hw
      rcases List.mem_cons.1 hw with rfl | hw
      · exact ⟨_, List.mem_cons_self, List.suffix_cons _ _⟩
      · exact ⟨w, List.mem_cons_of_mem _ hw, List.suffix_refl _⟩
    unfold shorts at h
    split at h
    · cases h
    · rename_i key v hf
      cases hs : shorts c cs ws with
      | error e => rw [hs] at h; cases h
      | ok q =>
        rw [hs] at h
        cases h
        obtain ⟨h1, h2⟩ := shorts_origin hs
        refine ⟨?_, h2.trans hstep⟩
        intro e he
        rcases List.mem_cons.1 he with rfl | he
        · exact (valueFrom_origin (find_mem hf) (ws := (ch :: cs) :: ws) (r := (v, (ch :: cs) :: ws)) rfl).1
        · exact (h1 e he).mono hstep
    · rename_i key act _ hf
      cases hv : valueFrom act (if cs = [] then ws else cs :: ws) with
      | error e => rw [hv] at h; cases h
      | ok q =>
        rw [hv] at h
        cases h
        obtain ⟨h1, h2⟩ := valueFrom_origin (find_mem hf) hv
        have hstep' : Ends (if cs = [] then ws else cs :: ws) ((ch :: cs) :: ws) := by
          split
          · exact Ends.tail _ _
          · exact hstep
        refine ⟨?_, h2.trans hstep'⟩
        intro e he
        rw [List.mem_singleton] at he
        subst he
        exact h1.mono hstep'

theorem processOpt_origin {c : Command} {w : Text} {ws : List Text} {r : List (Text × Text) × List Text}
    (h : processOpt c w ws = .ok r) : (∀ e ∈ r.1, Origin c (w :: ws) e) ∧ Ends r.2 (w :: ws) := by
  unfold processOpt at h
  split at h
  · rename_i key act hf
    have hd : ((splitEq w).1, key, act) ∈ c.decls := by
      unfold findLong at hf
      split at hf
      · cases hf
      · exact find_mem hf
    have hends : Ends ((splitEq w).2.toList ++ ws) (w :: ws) := by
      intro x hx
      rcases List.mem_append.1 hx with hx | hx
      · refine ⟨w, List.mem_cons_self, ?_⟩
        unfold splitEq at hx
        split at hx
        · simp only [Option.toList_some, List.mem_singleton] at hx
          subst hx
          exact (List.tail_suffix _).trans (List.dropWhile_suffix _)
        · simp at hx
      · exact ⟨x, List.mem_cons_of_mem _ hx, List.suffix_refl _⟩
    unfold long at h
    split at h
    · cases h
    · rename_i a _ _ _
      cases hv : valueFrom a ((splitEq w).2.toList ++ ws) with
      | error e => rw [hv] at h; cases h
      | ok q =>
        rw [hv] at h
        cases h
        obtain ⟨h1, h2⟩ := valueFrom_origin hd hv
        refine ⟨?_, h2.trans hends⟩
        intro e he
        rw [List.mem_singleton] at he
        subst he
        exact h1.mono hends
  · split at h
    · cases h
    · obtain ⟨h1, h2⟩ := shorts_origin h
      have hends : Ends (w.tail :: ws) (w :: ws) := by
        intro x hx
        rcases List.mem_cons.1 hx with rfl | hx
        · exact ⟨w, List.mem_cons_self, List.tail_suffix _⟩
        · exact ⟨x, List.mem_cons_of_mem _ hx, List.suffix_refl _⟩
      exact ⟨fun e he => (h1 e he).mono hends, h2.trans hends⟩

theorem parseOpts_origin (c : Command) : ∀ (n : Nat) (ws : List Text), size ws ≤ n → ∀ r, parseOpts c ws = .ok r →
    (∀ e ∈ r.1, Origin c ws e) ∧ Ends r.2 ws := by
  intro n
  induction n with
  | zero =>
    intro ws hn r h
    cases ws with
    | nil => rw [parseOpts] at h; cases h; exact ⟨by simp, Ends.refl _⟩
    | cons w ws => rw [size_cons] at hn; omega
  | succ n ih =>
    intro ws hn r h
    cases ws with
    | nil => rw [parseOpts] at h; cases h; exact ⟨by simp, Ends.refl _⟩
    | cons w ws =>
      by_cases h1 : w = "--".toList
      · rw [parseOpts, if_pos h1] at h
        cases h
        exact ⟨by simp, Ends.tail _ _⟩
      · by_cases h2 : looksOption w = true
        · rw [parseOpts_step h1 h2] at h
          cases hp : processOpt c w ws with
          | error e => rw [hp] at h; cases h
          | ok q =>
            rw [hp] at h
            have hsz := processOpt_size hp
            obtain ⟨g1, g2⟩ := processOpt_origin hp
            cases ht : parseOpts c q.2 with
            | error e => simp only [ht, Except.map] at h; cases h
            | ok t =>
              simp only [ht, Except.map] at h
              cases h
              obtain ⟨g3, g4⟩ := ih q.2 (by omega) _ ht
              refine ⟨?_, g4.trans g2⟩
              intro e he
              rcases List.mem_append.1 he with he | he
              · exact g1 e he
              · exact (g3 e he).mono g2
        · rw [parseOpts, if_neg h1, if_neg h2] at h
          cases h
          exact ⟨by simp, Ends.refl _⟩

end Options

/-! ## The properties -/

/-- **C168**: what is written in one of the ways of the specification is what the command is given, in the order of writing, and the
words behind the options are left for the next command. -/
theorem C168_options {c : Command} (hc : Clear c) {ws rest : List Text} {es : List (Text × Text)} (h : Line c ws es rest) :
    parseOpts c ws = .ok (es, rest) := line_parse hc h

/-- **C168**: nothing is invented: whatever the words, a command is only given options that it declares; the value of a flag is that of
its declaration, and a value is the end of one of the words. -/
theorem C168_only {c : Command} {ws rest : List Text} {es : List (Text × Text)} (h : parseOpts c ws = .ok (es, rest)) :
    ∀ e ∈ es, ∃ o ∈ c.opts ++ [helpOpt], o.key = e.1 ∧
      (o.kind = .flag e.2 ∨ (o.off ≠ [] ∧ e.2 = "False".toList) ∨ o.kind = .optional e.2 ∨
        ((∀ v, o.kind ≠ .flag v) ∧ ∃ w ∈ ws, e.2 <:+ w)) := by
  intro e he
  exact (parseOpts_origin c _ ws (Nat.le_refl _) _ h).1 e he

/-- **C168**: a word with two dashes that is not the name of an option, not even up to a `=`, stops the whole command line; an
abbreviation of a name is no name. -/
theorem C168_unknown {c : Command} {w : Text} {rest : List Text} (h2 : w.take 2 = "--".toList) (hne : w ≠ "--".toList)
    (h : w.takeWhile (· ≠ '=') ∉ optionNames c) : parseOpts c (w :: rest) = .error .noSuchOption := by
  have hl : looksOption w = true := by
    rcases w with _ | ⟨a, _ | ⟨b, w⟩⟩
    · cases h2
    · exact absurd (show [a] = ['-', '-'] from h2) (by simp)
    · have : [a, b] = ['-', '-'] := h2
      cases this
      rfl
  have hp : processOpt c w rest = .error .noSuchOption := by
    unfold processOpt
    have hf : findLong c (splitEq w).1 = none := by
      unfold findLong
      split
      · rfl
      · exact find_eq_none h
    rw [hf]
    simp only [h2, if_true]
  rw [parseOpts_step hne hl, hp]

/-- **C168**: a whole line of commands, in any number: every command of the line is called once, in order, with its own options and
arguments, and the files are those of the line. -/
theorem C168_chain {table : List Command} {glob : Text → List Text} (h : (table.map Command.name).Nodup) {ws files : List Text}
    {calls : List Call} (hc : Chained table glob ws calls files) {main : Command} (hm : Clear main) {ws' : List Text}
    {es : List (Text × Text)} (hl : Line main ws' es ws) : parseLine main table glob ws' = .ok (es, calls, files) := by
  unfold parseLine
  simp only [bind, Except.bind, line_parse hm hl, chain_parse h hc [], List.nil_append]
  rfl

/-- **C168**: the table of options belongs to the registered commands, whose names are distinct; the names of the options of `pgkyl`
and of every command can be told apart, except for `animate` and `mask`. -/
theorem C168_table : commands.map Command.name = Cli.registered ∧ (commands.map Command.name).Nodup ∧ Clear cmd_cli ∧
    (∀ c ∈ commands, c.name ≠ "animate".toList → c.name ≠ "mask".toList → Clear c) ∧ ¬ Clear cmd_animate ∧ ¬ Clear cmd_mask := by
  decide +kernel

/-- **C168** for the program as it is: any line of calls of the registered commands, other than `animate` and `mask`, is read as it is
written. -/
theorem C168_pgkyl_partial {glob : Text → List Text} {ws files : List Text} {calls : List Call} (hc : Chained commands glob ws calls files)
    {ws' : List Text} {es : List (Text × Text)} (hl : Line cmd_cli ws' es ws) :
    parseLine cmd_cli commands glob ws' = .ok (es, calls, files) :=
  C168_chain C168_table.2.1 hc C168_table.2.2.1 hl

/-- **C168**: what is written can be meant in one way only: two readings of the same words, by the grammar of the specification, are
equal; so are two readings of a whole line. -/
theorem C168_one_reading {c : Command} (hc : Clear c) {ws rest rest' : List Text} {es es' : List (Text × Text)} (h : Line c ws es rest)
    (h' : Line c ws es' rest') : es = es' ∧ rest = rest' := by
  have := (line_parse hc h).symm.trans (line_parse hc h')
  cases this
  exact ⟨rfl, rfl⟩

theorem C168_one_line {glob : Text → List Text} {ws files files' : List Text} {calls calls' : List Call}
    (h : Chained commands glob ws calls files) (h' : Chained commands glob ws calls' files') : calls = calls' ∧ files = files' := by
  have := (chain_parse C168_table.2.1 h []).symm.trans (chain_parse C168_table.2.1 h' [])
  cases this
  exact ⟨rfl, rfl⟩

/-- For `mask` there are two readings of `-u WORD`, the second of which is that of the program (C168_fails_twice). -/
theorem C168_two_readings_fails (w : Text) : Line cmd_mask ["-u".toList, w] [("use".toList, w)] [] ∧
    Line cmd_mask ["-u".toList, w] [("upper".toList, w)] [] :=
  ⟨Line.cons (Written.value (o := ⟨"use".toList, .value, ["--use".toList, "-u".toList], []⟩) (by decide +kernel) (Or.inl rfl)
      (by decide)) Line.nil,
    Line.cons (Written.value (o := ⟨"upper".toList, .value, ["--upper".toList, "-u".toList], []⟩) (by decide +kernel) (Or.inl rfl)
      (by decide)) Line.nil⟩

/-! ## What is left of the words -/

namespace Options

theorem decl_not_optional {c : Command} (hc : ∀ o ∈ c.opts, ∀ v, o.kind ≠ .optional v) {n k : Text} {a : Act} (h : (n, k, a) ∈ c.decls) :
    ∀ v, a ≠ .optional v := by
  obtain ⟨o, ho, -, ⟨-, ha⟩ | ⟨-, ha⟩⟩ := decl_opt h
  · intro v hv
    rw [hv] at ha
    have hk : o.kind = .optional v := by
      cases hk : o.kind <;> rw [hk] at ha <;> cases ha
      rfl
    rcases List.mem_append.1 ho with ho | ho
    · exact hc o ho v hk
    · rw [List.mem_singleton] at ho
      rw [ho] at hk
      cases hk
  · intro v hv
    rw [hv] at ha
    cases ha

theorem shorts_rest {c : Command} (hc : ∀ o ∈ c.opts, ∀ v, o.kind ≠ .optional v) : ∀ {cs : Text} {ws : List Text}
    {r : List (Text × Text) × List Text}, shorts c cs ws = .ok r → r.2 <:+ ws
  | [], ws, r, h => by cases h; exact List.suffix_refl _
  | ch :: cs, ws, r, h => by
    unfold shorts at h
    split at h
    · cases h
    · cases hs : shorts c cs ws with
      | error e => rw [hs] at h; cases h
      | ok q =>
        rw [hs] at h
        cases h
        exact show q.2 <:+ ws from shorts_rest hc hs
    · rename_i key act hnc hf
      have hno := decl_not_optional hc (find_mem hf)
      cases act with
      | const v => exact absurd rfl (hnc v)
      | optional v => exact absurd rfl (hno v)
      | takes =>
        by_cases hcs : cs = []
        · rw [if_pos hcs] at h
          cases ws with
          | nil => cases h
          | cons w ws => cases h; exact List.suffix_cons _ _
        · rw [if_neg hcs] at h
          cases h
          exact List.suffix_refl _

theorem processOpt_rest {c : Command} (hc : ∀ o ∈ c.opts, ∀ v, o.kind ≠ .optional v) {w : Text} {ws : List Text}
    {r : List (Text × Text) × List Text} (h : processOpt c w ws = .ok r) : r.2 <:+ ws := by
  unfold processOpt at h
  split at h
  · rename_i key act hf
    have hno : ∀ v, act ≠ .optional v := by
      unfold findLong at hf
      split at hf
      · cases hf
      · exact decl_not_optional hc (find_mem hf)
    cases act with
    | optional v => exact absurd rfl (hno v)
    | const v =>
      cases he : (splitEq w).2 with
      | some e => rw [he] at h; cases h
      | none => rw [he] at h; cases h; exact List.suffix_refl _
    | takes =>
      cases he : (splitEq w).2 with
      | some e => rw [he] at h; cases h; exact List.suffix_refl _
      | none =>
        rw [he] at h
        cases ws with
        | nil => cases h
        | cons x ws => cases h; exact List.suffix_cons _ _
  · split at h
    · cases h
    · exact shorts_rest hc h

end Options

/-- **C168**: for a command without options whose value may be left out, the words behind the options are left as they are: whatever
the line, what is left is an end of it. -/
theorem C168_rest {c : Command} (hc : ∀ o ∈ c.opts, ∀ v, o.kind ≠ .optional v) : ∀ {ws rest : List Text} {es : List (Text × Text)},
    parseOpts c ws = .ok (es, rest) → rest <:+ ws := by
  have key : ∀ (n : Nat) (ws : List Text), size ws ≤ n → ∀ r, parseOpts c ws = .ok r → r.2 <:+ ws := by
    intro n
    induction n with
    | zero =>
      intro ws hn r h
      cases ws with
      | nil => rw [parseOpts] at h; cases h; exact List.suffix_refl _
      | cons w ws => rw [size_cons] at hn; omega
    | succ n ih =>
      intro ws hn r h
      cases ws with
      | nil => rw [parseOpts] at h; cases h; exact List.suffix_refl _
      | cons w ws =>
        by_cases h1 : w = "--".toList
        · rw [parseOpts, if_pos h1] at h
          cases h
          exact List.suffix_cons _ _
        · by_cases h2 : looksOption w = true
          · rw [parseOpts_step h1 h2] at h
            cases hp : processOpt c w ws with
            | error e => rw [hp] at h; cases h
            | ok q =>
              rw [hp] at h
              have hsz := processOpt_size hp
              cases ht : parseOpts c q.2 with
              | error e => simp only [ht, Except.map] at h; cases h
              | ok t =>
                simp only [ht, Except.map] at h
                cases h
                exact ((ih q.2 (by omega) _ ht).trans (processOpt_rest hc hp)).trans (List.suffix_cons _ _)
          · rw [parseOpts, if_neg h1, if_neg h2] at h
            cases h
            exact List.suffix_refl _
  intro ws rest es h
  exact key _ ws (Nat.le_refl _) _ h

/-- **C168**: that holds for `pgkyl` and all commands but the three with `--multib`. -/
theorem C168_rest_table : (∀ o ∈ cmd_cli.opts, ∀ v, o.kind ≠ .optional v) ∧ ∀ c ∈ commands,
    c.name ∉ ["gk-nodes".toList, "gk-particle-balance".toList, "gk-energy-balance".toList] →
    ∀ o ∈ c.opts, ∀ v, o.kind ≠ .optional v := by
  have h : ∀ o : Opt, ((match o.kind with | .optional _ => true | _ => false) = false) → ∀ v, o.kind ≠ .optional v := by
    intro o ho v hv
    rw [hv] at ho
    cases ho
  have h1 : (∀ o ∈ cmd_cli.opts, (match o.kind with | .optional _ => true | _ => false) = false) ∧ ∀ c ∈ commands,
      c.name ∉ ["gk-nodes".toList, "gk-particle-balance".toList, "gk-energy-balance".toList] →
      ∀ o ∈ c.opts, (match o.kind with | .optional _ => true | _ => false) = false := by
    decide +kernel
  exact ⟨fun o ho => h o (h1.1 o ho), fun c hc hn o ho => h o (h1.2 c hc hn o ho)⟩

/-- A short name with the value of its option, in front of any words. -/
theorem parse_short {c : Command} {ch : Char} {k : Text} {ws : List Text} {w : Text} (h1 : ch ≠ '-') (h2 : ch ≠ '=')
    (hf : find c ['-', ch] = some (k, .takes)) :
    parseOpts c (['-', ch] :: w :: ws) = (parseOpts c ws).map fun q => ((k, w) :: q.1, q.2) := by
  have hne : ['-', ch] ≠ "--".toList := by
    intro he
    have : ['-', ch] = ['-', '-'] := he
    simp only [List.cons.injEq, and_true, true_and] at this
    exact h1 this
  have hp : processOpt c ['-', ch] (w :: ws) = .ok ([(k, w)], ws) := by
    unfold processOpt
    have hs : splitEq ['-', ch] = (['-', ch], none) := splitEq_name (by simp [Ne.symm h2])
    have ht : ¬ (List.take 2 ['-', ch] = "--".toList) := hne
    simp only [hs, findLong, isShort_iff hne, List.isEmpty_nil, if_true, if_neg ht, List.tail_cons, shorts, hf]
    rfl
  rw [parseOpts_step hne rfl, hp]
  rfl

/-- A short name of a flag, in front of any words. -/
theorem parse_short_flag {c : Command} {ch : Char} {k v : Text} {ws : List Text} (h1 : ch ≠ '-') (h2 : ch ≠ '=')
    (hf : find c ['-', ch] = some (k, .const v)) :
    parseOpts c (['-', ch] :: ws) = (parseOpts c ws).map fun q => ((k, v) :: q.1, q.2) := by
  have hne : ['-', ch] ≠ "--".toList := by
    intro he
    have : ['-', ch] = ['-', '-'] := he
    simp only [List.cons.injEq, and_true, true_and] at this
    exact h1 this
  have hp : processOpt c ['-', ch] ws = .ok ([(k, v)], ws) := by
    unfold processOpt
    have hs : splitEq ['-', ch] = (['-', ch], none) := splitEq_name (by simp [Ne.symm h2])
    have ht : ¬ (List.take 2 ['-', ch] = "--".toList) := hne
    simp only [hs, findLong, isShort_iff hne, List.isEmpty_nil, if_true, if_neg ht, List.tail_cons, shorts, hf]
    rfl
  rw [parseOpts_step hne rfl, hp]
  rfl

/-- **C168** fails for the two commands in which a short name is declared twice: `mask -u TAG` gives the upper bound, never the tag to
use, and `animate -s` asks for a scatter plot, never for squeezed plots, whatever comes behind. -/
theorem C168_fails_twice (w : Text) (ws : List Text) :
    (⟨"use".toList, .value, ["--use".toList, "-u".toList], []⟩ : Opt) ∈ cmd_mask.opts ∧
    (⟨"squeeze".toList, .flag "True".toList, ["--squeeze".toList, "-s".toList], []⟩ : Opt) ∈ cmd_animate.opts ∧
    parseOpts cmd_mask ("-u".toList :: w :: ws) = (parseOpts cmd_mask ws).map (fun q => (("upper".toList, w) :: q.1, q.2)) ∧
    parseOpts cmd_animate ("-s".toList :: ws) =
      (parseOpts cmd_animate ws).map (fun q => (("scatter".toList, "True".toList) :: q.1, q.2)) :=
  ⟨by decide +kernel, by decide +kernel, parse_short (by decide) (by decide) (by decide +kernel),
    parse_short_flag (by decide) (by decide) (by decide +kernel)⟩

/-- **C168** fails for the files of `gk-distf`: `--c2p-vel FILE`, `--mc2nu FILE` and `--mapc2p FILE` are flags, and the file, which does
not begin with a dash, is left over as the word of the next command. -/
theorem C168_fails_files (n : Text) (hn : n ∈ ["--c2p-vel".toList, "-v".toList, "--mc2nu".toList, "-m".toList, "--mapc2p".toList, "-p".toList])
    (f : Text) (hf : plainWord f = true) (ws : List Text) : ∃ k, parseOpts cmd_gk_distf (n :: f :: ws) = .ok ([(k, [])], f :: ws) := by
  have hc : Clear cmd_gk_distf := C168_table.2.2.2.1 _ (by decide +kernel) (by decide +kernel) (by decide +kernel)
  have key : ∃ o ∈ cmd_gk_distf.opts, o.kind = .flag [] ∧ n ∈ o.names := by
    revert n
    decide +kernel
  obtain ⟨o, ho, hk, hno⟩ := key
  exact ⟨o.key, line_parse hc (Line.cons (Written.flag ho hk hno) (Line.stop hf))⟩

/-- **C168** fails for `-m` of `gk-nodes` and of the two balances, whose value may be left out: before another command it takes the
name of that command as its value, and with `-1`, or with `=-1`, the value itself is refused as an unknown option. -/
theorem C168_fails_optional {c : Command}
    (hmem : c ∈ commands) (hn : c.name ∈ ["gk-nodes".toList, "gk-particle-balance".toList, "gk-energy-balance".toList]) (ws : List Text) :
    parseOpts c ("-m".toList :: "plot".toList :: ws) = (parseOpts c ws).map (fun q => (("multib".toList, "plot".toList) :: q.1, q.2)) ∧
    parseOpts c ("-m".toList :: "-1".toList :: ws) = .error .noSuchOption ∧
    parseOpts c ("--multib=-1".toList :: ws) = .error .noSuchOption := by
  have hfacts : ∀ d ∈ commands, d.name ∈ ["gk-nodes".toList, "gk-particle-balance".toList, "gk-energy-balance".toList] →
      d.name ≠ "animate".toList ∧ d.name ≠ "mask".toList ∧ find d "-1".toList = none ∧
      (⟨"multib".toList, .optional "-1".toList, ["--multib".toList, "-m".toList], []⟩ : Opt) ∈ d.opts := by
    decide +kernel
  obtain ⟨h1, h2, h3, ho⟩ := hfacts c hmem hn
  have hc := C168_table.2.2.2.1 c hmem h1 h2
  have hd1 := mem_decls ho (n := "-m".toList) (by decide)
  have hd2 := mem_decls ho (n := "--multib".toList) (by decide)
  have hone : parseOpts c ("-1".toList :: ws) = .error .noSuchOption := by
    have hp : processOpt c "-1".toList ws = .error .noSuchOption := by
      have h3' : find c ['-', '1'] = none := h3
      unfold processOpt
      have hs : splitEq "-1".toList = ("-1".toList, none) := splitEq_name (by decide)
      have hsh : isShort "-1".toList = true := by decide
      have ht : ¬ (List.take 2 "-1".toList = "--".toList) := by decide
      have htl : List.tail "-1".toList = ['1'] := by decide
      simp only [hs, findLong, hsh, if_true, if_neg ht, htl, shorts, h3']
    rw [parseOpts_step (by decide) (by decide), hp]
  refine ⟨?_, ?_, ?_⟩
  · exact written_parse hc (Written.optional ho rfl (by decide) (by decide)) ws
  · rw [parseOpts_step (by decide) (by decide), process_name hc hd1]
    have hv : valueFrom (Kind.optional "-1".toList).act ("-1".toList :: ws) = .ok ("-1".toList, "-1".toList :: ws) := by
      have : looksOption "-1".toList = true := by decide
      simp only [Kind.act, valueFrom, this, if_true]
    simp only [hv, Except.map, hone]
  · have hp : processOpt c "--multib=-1".toList ws = .ok ([("multib".toList, "-1".toList)], "-1".toList :: ws) := by
      unfold processOpt
      have hs : splitEq "--multib=-1".toList = ("--multib".toList, some "-1".toList) := by decide
      have hsh : isShort "--multib".toList = false := by decide
      have hl : looksOption "-1".toList = true := by decide
      simp only [hs, findLong, hsh, Bool.false_eq_true, if_false, find_of_mem hc hd2, long, Kind.act, Option.toList_some,
        List.singleton_append, valueFrom, hl, if_true]
      rfl
    rw [parseOpts_step (by decide) (by decide), hp]
    simp only [hone, Except.map]

/-- **C168** fails for expressions of `ev` that begin with a minus sign and a digit: they are taken for options, and refused. -/
theorem C168_fails_minus (d : Char) (hd : d.isDigit = true) (e : Text) (ws : List Text) :
    parseCommand cmd_ev (('-' :: d :: e) :: ws) = .error .noSuchOption := by
  have hd1 : d ≠ '-' := by rintro rfl; revert hd; decide
  have hd2 : d ≠ '=' := by rintro rfl; revert hd; decide
  have hnot : ∀ n ∈ optionNames cmd_ev, n.take 2 = ['-', d] → False := by
    intro n hn he
    have : ∀ n ∈ optionNames cmd_ev, ((n.take 2)[1]?.map Char.isDigit) ≠ some true := by decide +kernel
    apply this n hn
    rw [he]
    simp [hd]
  have hp : processOpt cmd_ev ('-' :: d :: e) ws = .error .noSuchOption := by
    unfold processOpt
    rw [notLong_find hd1 hd2 (by
      intro n hn _ he
      apply hnot n hn
      rw [he]
      simp [hd2])]
    have ht : ¬ (List.take 2 ('-' :: d :: e) = "--".toList) := by
      intro he
      have : ['-', d] = ['-', '-'] := he
      simp only [List.cons.injEq, and_true, true_and] at this
      exact hd1 this
    simp only [if_neg ht, List.tail_cons, shorts, find_eq_none (c := cmd_ev) (n := ['-', d]) (fun hm => hnot _ hm rfl)]
  have hne : ('-' :: d :: e) ≠ "--".toList := by
    intro he
    have : ('-' :: d :: e) = ['-', '-'] := he
    simp only [List.cons.injEq, true_and] at this
    exact hd1 this.1
  unfold parseCommand
  rw [parseOpts_step hne rfl, hp]
  rfl

/-! ## The hypotheses are met -/

namespace OptionsEx

/-- `pgkyl -c 0 two.gkyl interp -bms --poly_order=1 ev -a 'f[0] 2 *' pl -sa --title -1` -/
def line : List Text :=
  ["-c", "0", "two.gkyl", "interp", "-bms", "--poly_order=1", "ev", "-a", "f[0] 2 *", "pl", "-sa", "--title", "-1"].map
    String.toList

def basis : Opt := ⟨"basis_type".toList, .value, ["--basis_type".toList, "-b".toList], []⟩
def order : Opt := ⟨"poly_order".toList, .value, ["--poly_order".toList, "-p".toList], []⟩
def all : Opt := ⟨"all".toList, .flag "True".toList, ["--all".toList, "-a".toList], []⟩
def scatter : Opt := ⟨"scatter".toList, .flag "True".toList, ["-s".toList, "--scatter".toList], []⟩
def aspect : Opt := ⟨"fixaspect".toList, .flag "True".toList, ["--fix-aspect".toList, "-a".toList], []⟩
def title : Opt := ⟨"title".toList, .value, ["--title".toList], []⟩
def component : Opt := ⟨"component".toList, .value, ["--component".toList, "-c".toList], []⟩

theorem clear {c : Command} (h : c ∈ commands) (h1 : c.name ≠ "animate".toList) (h2 : c.name ≠ "mask".toList) : Clear c :=
  C168_table.2.2.2.1 c h h1 h2

/-- The calls of the line. -/
def calls : List Call :=
  [⟨"load".toList, []⟩,
   ⟨"interpolate".toList, [("basis_type".toList, "ms".toList), ("poly_order".toList, "1".toList)]⟩,
   ⟨"ev".toList, [("all".toList, "True".toList), ("chain".toList, "f[0] 2 *".toList)]⟩,
   ⟨"plot".toList, [("scatter".toList, "True".toList), ("fixaspect".toList, "True".toList), ("title".toList, "-1".toList)]⟩]

theorem plotLine : Line cmd_plot ["-sa".toList, "--title".toList, "-1".toList]
    [("scatter".toList, "True".toList), ("fixaspect".toList, "True".toList), ("title".toList, "-1".toList)] [] :=
  Line.cons (Written.flags (fs := [('s', scatter, "True".toList), ('a', aspect, "True".toList)]) (by simp)
    (by decide +kernel) (by unfold NotLong; decide +kernel))
    (Line.cons (Written.value (o := title) (n := "--title".toList) (w := "-1".toList) (by decide +kernel) (Or.inl rfl) (by decide))
      Line.nil)

theorem evLine (rest : List Text) : Line cmd_ev ("-a".toList :: "f[0] 2 *".toList :: rest) [("all".toList, "True".toList)]
    ("f[0] 2 *".toList :: rest) :=
  Line.cons (Written.flag (o := all) (by decide +kernel) rfl (by decide)) (Line.stop (by decide))

theorem interpLine (rest : List Text) : Line cmd_interpolate ("-bms".toList :: "--poly_order=1".toList :: "ev".toList :: rest)
    [("basis_type".toList, "ms".toList), ("poly_order".toList, "1".toList)] ("ev".toList :: rest) :=
  Line.cons (Written.attached (o := basis) (n := "-b".toList) (w := "ms".toList) (by decide +kernel) (Or.inl rfl) (by decide) (by decide)
    (by decide) (by unfold NotLong; decide +kernel))
    (Line.cons (Written.equals (o := order) (n := "--poly_order".toList) (w := "1".toList) (by decide +kernel) (Or.inl rfl) (by decide)
      (by decide)) (Line.stop (by decide)))

theorem chained : Chained commands (fun w => [w]) (line.drop 2) calls ["two.gkyl".toList] :=
  Chained.file (c := cmd_load) (by decide +kernel) (clear (by decide +kernel) (by decide) (by decide)) rfl rfl (by decide +kernel)
    (by simp) (Line.stop (by decide))
    (Chained.call (c := cmd_interpolate) (as := []) (by decide +kernel) (clear (by decide +kernel) (by decide) (by decide)) (Or.inr (by decide +kernel)) rfl
      (interpLine _)
      (Chained.call (c := cmd_ev) (as := ["f[0] 2 *".toList]) (by decide +kernel)
        (clear (by decide +kernel) (by decide) (by decide)) (Or.inl rfl) rfl (evLine _)
        (Chained.call (c := cmd_plot) (as := []) (by decide +kernel) (clear (by decide +kernel) (by decide) (by decide)) (Or.inr (by decide +kernel)) rfl
          plotLine Chained.nil)))

example : parseLine cmd_cli commands (fun w => [w]) line =
    .ok ([("component".toList, "0".toList)], calls, ["two.gkyl".toList]) :=
  C168_pgkyl_partial chained (Line.cons (Written.value (o := component) (n := "-c".toList) (w := "0".toList) (by decide +kernel)
    (Or.inl rfl) (by decide)) (Line.stop (by decide)))

/-- An abbreviation is refused. -/
example : parseOpts cmd_plot ["--scat".toList] = .error .noSuchOption :=
  C168_unknown (by decide) (by decide) (by decide +kernel)

example : ∃ es rest, parseOpts cmd_plot ["-sa".toList, "--title".toList, "-1".toList] = .ok (es, rest) ∧ es.length = 3 :=
  ⟨_, _, C168_options (clear (by decide +kernel) (by decide) (by decide)) plotLine, rfl⟩

example : ([] : List Text) <:+ ["-sa".toList, "--title".toList, "-1".toList] :=
  C168_rest (C168_rest_table.2 cmd_plot (by decide +kernel) (by decide))
    (C168_options (clear (by decide +kernel) (by decide) (by decide)) plotLine)

/-- `-u=elc` gives the tag `=elc`. -/
example : Line cmd_plot ["-u=elc".toList] [("use".toList, "=elc".toList)] [] :=
  Line.cons (Written.attached (o := ⟨"use".toList, .value, ["--use".toList, "-u".toList], []⟩) (n := "-u".toList) (w := "=elc".toList)
    (by decide +kernel) (Or.inl rfl) (by decide) (by decide) (by decide) (by unfold NotLong; decide +kernel)) Line.nil

end OptionsEx

end Pgkyl
