import Verif.Spec.Text
/-! # Specification of legend labels and saved pictures -/

namespace Pgkyl.Spec

/-- `--legend` lists the names: separated by commas, with any blanks around them; without the option there are none. -/
def LegendNames (option : Option (List Char)) (names : List (List Char)) : Prop :=
  (option = none ∧ names = []) ∨ (names ≠ [] ∧ ∃ parts : List (List Char × List Char × List Char),
    option = some (joinWith ',' (parts.map fun p => p.1 ++ p.2.1 ++ p.2.2)) ∧ names = parts.map (·.2.1) ∧
    ∀ p ∈ parts, Blanks p.1 ∧ Blanks p.2.2 ∧ Word' p.2.1 ∧ p.2.1 ≠ [] ∧ ',' ∉ p.2.1)

/-- The legend label of dataset number `i` of its tag: the name given for `i`, or else its own label if labels are
shown. -/
def legendLabel (names : List (List Char)) (shown : Bool) (i : Nat) (own : List Char) : List Char :=
  names.getD i (if shown then own else [])

/-- `t` is the name of the file up to the first dot, and not empty. -/
def StemOfFile (file t : List Char) : Prop := t ≠ [] ∧ '.' ∉ t ∧ (file = t ∨ ∃ rest, file = t ++ '.' :: rest)

end Pgkyl.Spec
