import Verif.Model.Cli
/-!
# Model of how the words of a command line become options

The declarations are those of `src/postgkyl/commands/*.py` and `src/postgkyl/pgkyl.py` (see `Verif.Model.OptionTable`); the parser is
that of the Click library (`click/parser.py`, version 8), for commands of a chained group, where options end at the first word that is
not one (`allow_interspersed_args=False`).  Values stay texts here: their conversion to numbers and the check of choices, defaults and
prompts for options not given, and the actions of `--help` and `--version`, are left out.
-/

namespace Pgkyl
namespace Options

abbrev Text := List Char

/-- What Click makes of the arguments of `click.option`: a flag with the value it stands for (`is_flag=True`, a pair of names for on and off, or
`flag_value=...` alone, which makes an option a flag), an option with a value, one that may be repeated (`multiple=True`), and one
whose value may be left out (`is_flag=False, flag_value=...`). -/
inductive Kind where
  | flag (on : Text)
  | value
  | many
  | optional (dflt : Text)
deriving DecidableEq

/-- An option: the name of the parameter of the command, the kind, the names, and the names that switch it off. -/
structure Opt where
  key : Text
  kind : Kind
  names : List Text
  off : List Text
deriving DecidableEq

/-- A command: its name, its options, and the names of its arguments (one word each). -/
structure Command where
  name : Text
  opts : List Opt
  args : List Text := []
deriving DecidableEq

/-- What a word stands for. -/
inductive Act where
  | const (v : Text)
  | takes
  | optional (dflt : Text)
deriving DecidableEq

/-- Why Click refuses a command line. -/
inductive Usage where
  | noSuchOption
  | needsValue
  | takesNoValue
  | missingArgument
  | noSuchCommand
deriving DecidableEq

/-- click/parser.py `_Option`: what the names of an option stand for. -/
def Kind.act : Kind → Act
  | .flag v => .const v
  | .value => .takes
  | .many => .takes
  | .optional v => .optional v

/-- pgkyl.py:67 `help_option_names`, for all commands. -/
def helpOpt : Opt := ⟨"help".toList, .flag "True".toList, ["-h".toList, "--help".toList], []⟩

/-- The names of an option, and what they stand for (click/core.py `Option.add_to_parser`). -/
def Opt.decls (o : Opt) : List (Text × Text × Act) :=
  (o.names.map fun n => (n, o.key, o.kind.act)) ++ o.off.map fun n => (n, o.key, .const "False".toList)

/-- All names of a command, in the order of the declarations; the help option comes last. -/
def Command.decls (c : Command) : List (Text × Text × Act) := (c.opts ++ [helpOpt]).flatMap Opt.decls

/-- click/parser.py `add_option`: a dictionary, in which a later declaration replaces an earlier one. -/
def find (c : Command) (n : Text) : Option (Text × Act) := (c.decls.reverse.find? fun d => d.1 = n).map (·.2)

/-- A dash and one letter (click/parser.py `_Option.__init__`). -/
def isShort (n : Text) : Bool :=
  match n with
  | [a, b] => a == '-' && b != '-'
  | _ => false

/-- click/parser.py `_match_long_opt`: the names that are not short. -/
def findLong (c : Command) (n : Text) : Option (Text × Act) := if isShort n then none else find c n

/-- `arg[:1] in self._opt_prefixes and len(arg) > 1` -/
def looksOption (w : Text) : Bool :=
  match w with
  | '-' :: _ :: _ => true
  | _ => false

/-- click/parser.py `_get_value_from_state`: the value of an option, and the words left. -/
def valueFrom : Act → List Text → Except Usage (Text × List Text)
  | .const v, ws => .ok (v, ws)
  | .takes, [] => .error .needsValue
  | .takes, w :: ws => .ok (w, ws)
  | .optional v, [] => .ok (v, [])
  | .optional v, w :: ws => if looksOption w then .ok (v, w :: ws) else .ok (w, ws)

/-- click/parser.py `_match_short_opt`: the letters behind a dash. -/
def shorts (c : Command) : Text → List Text → Except Usage (List (Text × Text) × List Text)
  | [], ws => .ok ([], ws)
  | ch :: cs, ws =>
    match find c ['-', ch] with
    | none => .error .noSuchOption
    | some (key, .const v) => do
      let r ← shorts c cs ws
      return ((key, v) :: r.1, r.2)
    | some (key, act) => do
      let r ← valueFrom act (if cs = [] then ws else cs :: ws)
      return ([(key, r.1)], r.2)

/-- `arg.split("=", 1)`, if there is a `=`. -/
def splitEq (w : Text) : Text × Option Text :=
  (w.takeWhile (· ≠ '='), if '=' ∈ w then some (w.dropWhile (· ≠ '=')).tail else none)

/-- click/parser.py `_match_long_opt`, for an option that was found. -/
def long (key : Text) (act : Act) (explicit : Option Text) (ws : List Text) : Except Usage (List (Text × Text) × List Text) :=
  match act, explicit with
  | .const _, some _ => .error .takesNoValue
  | act, e => do
    let r ← valueFrom act (e.toList ++ ws)
    return ([(key, r.1)], r.2)

/-- click/parser.py `_process_opts`: one word that looks like an option. -/
def processOpt (c : Command) (w : Text) (ws : List Text) : Except Usage (List (Text × Text) × List Text) :=
  match findLong c (splitEq w).1 with
  | some (key, act) => long key act (splitEq w).2 ws
  | none => if w.take 2 = "--".toList then .error .noSuchOption else shorts c w.tail ws

/-- The size of the words that are left. -/
def size (ws : List Text) : Nat := (ws.map fun w => w.length + 1).sum

theorem size_cons (w : Text) (ws : List Text) : size (w :: ws) = w.length + 1 + size ws := by simp [size]

theorem valueFrom_size {a : Act} {ws : List Text} {r : Text × List Text} (h : valueFrom a ws = .ok r) : size r.2 ≤ size ws := by
  cases a with
  | const v => cases h; exact Nat.le_refl _
  | takes =>
    cases ws with
    | nil => cases h
    | cons w ws => cases h; simp only [size_cons]; omega
  | optional v =>
    cases ws with
    | nil => cases h; exact Nat.le_refl _
    | cons w ws =>
      simp only [valueFrom] at h
      by_cases hw : looksOption w = true
      · rw [if_pos hw] at h; cases h; exact Nat.le_refl _
      · rw [if_neg hw] at h; cases h; simp only [size_cons]; omega

theorem shorts_size {c : Command} : ∀ {cs : Text} {ws : List Text} {r : List (Text × Text) × List Text},
    shorts c cs ws = .ok r → size r.2 ≤ cs.length + size ws
  | [], ws, r, h => by cases h; simp
  | ch :: cs, ws, r, h => by
    unfold shorts at h
    split at h
    · cases h
    · cases hs : shorts c cs ws with
      | error e => rw [hs] at h; cases h
      | ok q =>
        rw [hs] at h
        cases h
        have := shorts_size hs
        simp only [List.length_cons]
        omega
    · rename_i act _ _
      cases hv : valueFrom act (if cs = [] then ws else cs :: ws) with
      | error e => rw [hv] at h; cases h
      | ok q =>
        rw [hv] at h
        cases h
        have := valueFrom_size hv
        split at this
        · simp only [List.length_cons]; omega
        · rw [size_cons] at this
          simp only [List.length_cons]; omega

theorem processOpt_size {c : Command} {w : Text} {ws : List Text} {r : List (Text × Text) × List Text}
    (h : processOpt c w ws = .ok r) : size r.2 < size (w :: ws) := by
  rw [size_cons]
  unfold processOpt at h
  split at h
  · rename_i key act _
    have key : size ((splitEq w).2.toList ++ ws) ≤ w.length + size ws := by
      unfold splitEq
      split
      · rename_i he
        have h1 : (w.dropWhile (· ≠ '=')).tail.length < w.length := by
          have h2 : (w.dropWhile (· ≠ '=')).length ≤ w.length := (List.dropWhile_suffix _).length_le
          have h3 : w ≠ [] := by rintro rfl; simp at he
          have h4 := List.length_pos_of_ne_nil h3
          rw [List.length_tail]
          omega
        simp only [Option.toList_some, List.cons_append, List.nil_append, size_cons]
        omega
      · simp
    unfold long at h
    split at h
    · cases h
    · rename_i a _ _ _ _
      cases hv : valueFrom a ((splitEq w).2.toList ++ ws) with
      | error e => rw [hv] at h; cases h
      | ok q =>
        rw [hv] at h
        cases h
        have := valueFrom_size hv
        simp only
        omega
  · split at h
    · cases h
    · have := shorts_size h
      rw [List.length_tail] at this
      omega

/-- click/parser.py `_process_args_for_options`: the options at the beginning of the words, in order, and the words left. -/
def parseOpts (c : Command) (ws : List Text) : Except Usage (List (Text × Text) × List Text) :=
  match ws with
  | [] => .ok ([], [])
  | w :: rest =>
    if w = "--".toList then .ok ([], rest)
    else if looksOption w then
      match h : processOpt c w rest with
      | .error e => .error e
      | .ok r =>
        match parseOpts c r.2 with
        | .error e => .error e
        | .ok q => .ok (r.1 ++ q.1, q.2)
    else .ok ([], w :: rest)
termination_by size ws
decreasing_by exact processOpt_size h

/-- click/parser.py `_process_args_for_args`: one word for every argument. -/
def takeArgs : List Text → List Text → Except Usage (List (Text × Text) × List Text)
  | [], ws => .ok ([], ws)
  | _ :: _, [] => .error .missingArgument
  | a :: as, w :: ws => do
    let r ← takeArgs as ws
    return ((a, w) :: r.1, r.2)

/-- click/core.py `Command.parse_args`: what a command is given, and the words left for the next command. -/
def parseCommand (c : Command) (ws : List Text) : Except Usage (List (Text × Text) × List Text) := do
  let r ← parseOpts c ws
  let a ← takeArgs c.args r.2
  return (r.1 ++ a.1, a.2)

theorem parseOpts_size (c : Command) : ∀ (n : Nat) (ws : List Text), size ws ≤ n → ∀ r, parseOpts c ws = .ok r → size r.2 ≤ size ws := by
  intro n
  induction n with
  | zero =>
    intro ws hn r h
    cases ws with
    | nil => rw [parseOpts] at h; cases h; exact Nat.le_refl _
    | cons w ws => rw [size_cons] at hn; omega
  | succ n ih =>
    intro ws hn r h
    cases ws with
    | nil => rw [parseOpts] at h; cases h; exact Nat.le_refl _
    | cons w ws =>
      rw [parseOpts] at h
      split at h
      · cases h; simp only [size_cons]; omega
      · split at h
        · split at h
          · cases h
          · rename_i q hq
            have h1 := processOpt_size hq
            split at h
            · cases h
            · rename_i t ht
              cases h
              have := ih q.2 (by omega) _ ht
              simp only
              omega
        · cases h; exact Nat.le_refl _

theorem takeArgs_size : ∀ {as ws : List Text} {r : List (Text × Text) × List Text}, takeArgs as ws = .ok r → size r.2 ≤ size ws
  | [], ws, r, h => by cases h; exact Nat.le_refl _
  | _ :: _, [], r, h => by cases h
  | a :: as, w :: ws, r, h => by
    unfold takeArgs at h
    cases hq : takeArgs as ws with
    | error e => rw [hq] at h; cases h
    | ok q =>
      rw [hq] at h
      cases h
      have := takeArgs_size hq
      simp only [size_cons]
      omega

theorem parseCommand_size {c : Command} {ws : List Text} {r : List (Text × Text) × List Text} (h : parseCommand c ws = .ok r) :
    size r.2 ≤ size ws := by
  unfold parseCommand at h
  cases hq : parseOpts c ws with
  | error e => rw [hq] at h; cases h
  | ok q =>
    rw [hq] at h
    cases ht : takeArgs c.args q.2 with
    | error e => simp only [bind, Except.bind, ht] at h; cases h
    | ok t =>
      simp only [bind, Except.bind, ht] at h
      cases h
      exact Nat.le_trans (show size t.2 ≤ size q.2 from takeArgs_size ht) (parseOpts_size c _ _ (Nat.le_refl _) _ hq)

/-- A command to run, with what it is given. -/
structure Call where
  name : Text
  given : List (Text × Text)
deriving DecidableEq

/-- click/core.py `MultiCommand.invoke` with `chain=True`: the calls of a line; `strs` are the files found so far (pgkyl.py:41-62).
Every word is looked up and every option read before a command runs. -/
def parseChain (table : List Command) (glob : Text → List Text) (strs : List Text) (ws : List Text) :
    Except Usage (List Call × List Text) :=
  match ws with
  | [] => .ok ([], strs)
  | w :: rest =>
    match Cli.getCommand (table.map Command.name) glob strs w with
    | .error _ => .error .noSuchCommand
    | .ok (name, strs') =>
      match table.find? fun c => c.name = name with
      | none => .error .noSuchCommand
      | some c =>
        match h : parseCommand c rest with
        | .error e => .error e
        | .ok r =>
          match parseChain table glob strs' r.2 with
          | .error e => .error e
          | .ok q => .ok (⟨c.name, r.1⟩ :: q.1, q.2)
termination_by size ws
decreasing_by
  have := parseCommand_size h
  rw [size_cons]
  omega

/-- A whole command line: what `pgkyl` itself is given, the calls, and the files. -/
def parseLine (main : Command) (table : List Command) (glob : Text → List Text) (ws : List Text) :
    Except Usage (List (Text × Text) × List Call × List Text) := do
  let r ← parseOpts main ws
  let q ← parseChain table glob [] r.2
  return (r.1, q.1, q.2)

/-- The value of an option of a command, if it is given: the last one. -/
def valueOf (given : List (Text × Text)) (key : Text) : Option Text := ((given.filter fun e => e.1 = key).map (·.2)).getLast?

/-- The values of an option that may be repeated. -/
def valuesOf (given : List (Text × Text)) (key : Text) : List Text := (given.filter fun e => e.1 = key).map (·.2)

end Options
end Pgkyl
