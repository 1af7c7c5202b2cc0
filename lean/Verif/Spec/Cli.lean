import Verif.Model.DataSpace
/-! # Specification of the command line -/

namespace Pgkyl.Spec

/-- `w` is an abbreviation of the command `c`. -/
def Abbrev (w c : List Char) : Prop := ∃ rest, c = w ++ rest

/-- `w` names data files: it is no command, abbreviates none, and matches files. -/
def NamesFiles (table : List (List Char)) (glob : List Char → List (List Char)) (w : List Char) : Prop :=
  (∀ c ∈ table, ¬ Abbrev w c) ∧ glob w ≠ []

/-- `w` names the command `c`: exactly, or as the only one it abbreviates. -/
def NamesCommand (table : List (List Char)) (w c : List Char) : Prop :=
  c ∈ table ∧ (w = c ∨ (w ∉ table ∧ ∀ c' ∈ table, Abbrev w c' ↔ c' = c))

/-- An option has been given a (non-empty) value. -/
def IsGiven (o : Option (List Char)) : Prop := ∃ c cs, o = some (c :: cs)

/-- The value of an option: the local one, else the global one, else none. -/
inductive LocalFirst : Option (List Char) → Option (List Char) → Option (List Char) → Prop where
  | loc {l g : Option (List Char)} (h : IsGiven l) : LocalFirst l g l
  | glob {l g : Option (List Char)} (h : ¬ IsGiven l) (hg : IsGiven g) : LocalFirst l g g
  | none {l g : Option (List Char)} (h : ¬ IsGiven l) (hg : ¬ IsGiven g) : LocalFirst l g none

/-- The name of an output file: name parts, frame number, extension. -/
structure Output where
  parts : List (List Char)
  frame : Nat
  ext : List Char

/-- parts_…_frame.ext -/
def Output.name (f : Output) : List Char := joinWith '_' (f.parts ++ [Nat.toDigits 10 f.frame ++ '.' :: f.ext])

/-- A usual output file name with `k` parts: no underscore in a part or in the extension, no dot in the extension. -/
def Output.Usual (k : Nat) (f : Output) : Prop :=
  f.parts.length = k ∧ (∀ p ∈ f.parts, '_' ∉ p) ∧ '_' ∉ f.ext ∧ '.' ∉ f.ext

/-- The text occurs in the string. -/
def Occurs (sub s : List Char) : Prop := ∃ a b, s = a ++ sub ++ b

/-- A file name as its parts, separated by '_', and its extension. -/
def fileName (parts : List (List Char)) (ext : List Char) : List Char := joinWith '_' parts ++ '.' :: ext

/-- The parts of `nm` that are not common: those at the positions where some name that has a part there differs from
the name `ref`. -/
def distinctive (names : List (List (List Char))) (ref nm : List (List Char)) : List (List Char) :=
  ((List.range nm.length).filter fun i => ∃ n ∈ names, i < n.length ∧ n[i]? ≠ ref[i]?).map fun i => nm.getD i []

/-- The label made of name parts: joined by '_', leading empty parts dropped. -/
def labelOf (parts : List (List Char)) : List Char := joinWith '_' (parts.dropWhile (· = []))

end Pgkyl.Spec
