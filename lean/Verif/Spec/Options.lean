import Verif.Model.Options
/-! # Specification: what the user writes for the options of a command, and what the command should be given -/

namespace Pgkyl
namespace Spec
open Options

/-- A usable name of an option: a dash and at least one more character, without `=`, and not `--` alone. -/
def usable : Text → Bool
  | '-' :: a :: m => !(('-' :: a :: m).contains '=') && !(a == '-' && m.isEmpty)
  | _ => false

/-- All names of the options of a command, with the two of the help option. -/
def optionNames (c : Command) : List Text := (c.opts ++ [helpOpt]).flatMap fun o => o.names ++ o.off

/-- A command whose options can be told apart: the names are usable, and no two are equal. -/
def Clear (c : Command) : Prop := (optionNames c).Nodup ∧ ∀ n ∈ optionNames c, usable n = true

instance (c : Command) : Decidable (Clear c) := by unfold Clear; infer_instance

/-- A word that cannot be taken for an option: the empty word, a dash alone, or one that does not begin with a dash. -/
def plainWord : Text → Bool
  | '-' :: _ :: _ => false
  | _ => true

/-- A name of two characters, like `-u`. -/
def two (n : Text) : Bool := n.length == 2

/-- No longer name of the command is `w`, or what stands in `w` before its first `=`. -/
def NotLong (c : Command) (w : Text) : Prop := ∀ n ∈ optionNames c, n.length ≠ 2 → n ≠ w.takeWhile (· ≠ '=')

/-- The ways of giving options that do not depend on what follows: the words, and what the command is to be given. -/
inductive Written (c : Command) : List Text → List (Text × Text) → Prop where
  /-- `--name`, for a flag -/
  | flag {o : Opt} {n v : Text} : o ∈ c.opts → o.kind = .flag v → n ∈ o.names → Written c [n] [(o.key, v)]
  /-- `--no-name` -/
  | off {o : Opt} {n : Text} : o ∈ c.opts → n ∈ o.off → Written c [n] [(o.key, "False".toList)]
  /-- `--name value`, `-n value` -/
  | value {o : Opt} {n w : Text} : o ∈ c.opts → o.kind = .value ∨ o.kind = .many → n ∈ o.names → Written c [n, w] [(o.key, w)]
  /-- `--name=value` -/
  | equals {o : Opt} {n w : Text} : o ∈ c.opts → o.kind = .value ∨ o.kind = .many → n ∈ o.names → two n = false →
      Written c [n ++ '=' :: w] [(o.key, w)]
  /-- `-nvalue` -/
  | attached {o : Opt} {n w : Text} : o ∈ c.opts → o.kind = .value ∨ o.kind = .many → n ∈ o.names → two n = true → w ≠ [] →
      NotLong c (n ++ w) → Written c [n ++ w] [(o.key, w)]
  /-- `-abc`, for the flags `-a`, `-b` and `-c` -/
  | flags {fs : List (Char × Opt × Text)} : fs ≠ [] →
      (∀ f ∈ fs, f.2.1 ∈ c.opts ∧ ['-', f.1] ∈ f.2.1.names ∧ f.2.1.kind = .flag f.2.2) → NotLong c ('-' :: fs.map (·.1)) →
      Written c ['-' :: fs.map (·.1)] (fs.map fun f => (f.2.1.key, f.2.2))
  /-- `-abn value`, for the flags `-a` and `-b` and an option `-n` -/
  | flagsValue {fs : List (Char × Opt × Text)} {o : Opt} {ch : Char} {w : Text} : fs ≠ [] →
      (∀ f ∈ fs, f.2.1 ∈ c.opts ∧ ['-', f.1] ∈ f.2.1.names ∧ f.2.1.kind = .flag f.2.2) → o ∈ c.opts →
      o.kind = .value ∨ o.kind = .many → ['-', ch] ∈ o.names → NotLong c ('-' :: (fs.map (·.1) ++ [ch])) →
      Written c ['-' :: (fs.map (·.1) ++ [ch]), w] ((fs.map fun f => (f.2.1.key, f.2.2)) ++ [(o.key, w)])
  /-- `-abnvalue` -/
  | flagsAttached {fs : List (Char × Opt × Text)} {o : Opt} {ch : Char} {w : Text} : fs ≠ [] →
      (∀ f ∈ fs, f.2.1 ∈ c.opts ∧ ['-', f.1] ∈ f.2.1.names ∧ f.2.1.kind = .flag f.2.2) → o ∈ c.opts →
      o.kind = .value ∨ o.kind = .many → ['-', ch] ∈ o.names → w ≠ [] → NotLong c ('-' :: (fs.map (·.1) ++ ch :: w)) →
      Written c ['-' :: (fs.map (·.1) ++ ch :: w)] ((fs.map fun f => (f.2.1.key, f.2.2)) ++ [(o.key, w)])
  /-- `--name value`, for an option whose value may be left out -/
  | optional {o : Opt} {n v w : Text} : o ∈ c.opts → o.kind = .optional v → n ∈ o.names → plainWord w = true →
      Written c [n, w] [(o.key, w)]

/-- The options at the beginning of the words, what the command is to be given, and the words that are left. -/
inductive Line (c : Command) : List Text → List (Text × Text) → List Text → Prop where
  /-- nothing is left -/
  | nil : Line c [] [] []
  /-- the first word that is not an option ends them -/
  | stop {w : Text} {rest : List Text} : plainWord w = true → Line c (w :: rest) [] (w :: rest)
  /-- and so does `--`, which is dropped -/
  | dashes {rest : List Text} : Line c ("--".toList :: rest) [] rest
  | cons {ws ws' rest : List Text} {es es' : List (Text × Text)} : Written c ws es → Line c ws' es' rest →
      Line c (ws ++ ws') (es ++ es') rest
  /-- an option whose value is left out: at the end, or before another word with a dash -/
  | left {o : Opt} {n v : Text} {ws rest : List Text} {es : List (Text × Text)} : o ∈ c.opts → o.kind = .optional v → n ∈ o.names →
      (∀ w ∈ ws.head?, plainWord w = false) → Line c ws es rest → Line c (n :: ws) ((o.key, v) :: es) rest

/-- A word stands for a command: its name, or a beginning of its name that no other command has, and that is no name itself. -/
def CalledBy (table : List Command) (w : Text) (c : Command) : Prop :=
  w = c.name ∨ ((∀ d ∈ table, d.name ≠ w) ∧ w <+: c.name ∧ ∀ d ∈ table, w <+: d.name → d = c)

/-- The calls on a line: a command by its name or an abbreviation, its options, one word for each argument, and then the next command; or a file. -/
inductive Chained (table : List Command) (glob : Text → List Text) : List Text → List Call → List Text → Prop where
  | nil : Chained table glob [] [] []
  | call {c : Command} {w : Text} {ws as rest files : List Text} {es : List (Text × Text)} {calls : List Call} : c ∈ table → Clear c →
      CalledBy table w c → as.length = c.args.length → Line c ws es (as ++ rest) → Chained table glob rest calls files →
      Chained table glob (w :: ws) (⟨c.name, es ++ c.args.zip as⟩ :: calls) files
  | file {c : Command} {f : Text} {ws rest files : List Text} {es : List (Text × Text)} {calls : List Call} : c ∈ table → Clear c →
      c.name = "load".toList → c.args = [] → (∀ d ∈ table, ¬ f <+: d.name) → glob f ≠ [] → Line c ws es rest →
      Chained table glob rest calls files → Chained table glob (f :: ws) (⟨c.name, es⟩ :: calls) (f :: files)

end Spec
end Pgkyl
