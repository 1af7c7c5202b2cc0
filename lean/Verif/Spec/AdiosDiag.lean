import Verif.Model.NArr
import Verif.Spec.Idx
/-! # Specification of loading a history that was written in several pieces -/

namespace Pgkyl.Spec

/-- A piece of a history: its number (perhaps none), its times, and the values at each of them. -/
structure Piece (F : Type) where
  number : Option Nat
  times : List F
  rows : List (List F)

namespace Piece
variable {F : Type}

/-- The number as it stands in the names of the variables. -/
def numText (p : Piece F) : List Char := (p.number.map dec).getD []
/-- The name of the variable with the times. -/
def timeName (p : Piece F) : List Char := "TimeMesh".toList ++ p.numText
/-- The name of the variable with the values. -/
def dataName (p : Piece F) : List Char := "Data".toList ++ p.numText

/-- One row of `nc` values per time. -/
def OK (p : Piece F) (nc : Nat) : Prop := p.rows.length = p.times.length ∧ ∀ r ∈ p.rows, r.length = nc

/-- The times as they are stored: an array with one axis, or a bare number if there is one. -/
def TimesIn (p : Piece F) (a : NArr F) : Prop := a.data = p.times ∧ (a.shape = [p.times.length] ∨ a.shape = [] ∧ p.times.length = 1)

/-- The values as they are stored: rows and columns. -/
def RowsIn (p : Piece F) (nc : Nat) (a : NArr F) : Prop := a.data = p.rows.flatten ∧ a.shape = [p.rows.length, nc]

/-- Values with one column stored without it. -/
def FlatIn (p : Piece F) (nc : Nat) (a : NArr F) : Prop :=
  a.data = p.rows.flatten ∧ nc = 1 ∧ (a.shape = [p.rows.length] ∨ a.shape = [] ∧ p.rows.length = 1)

end Piece

/-- Pieces in the order of their numbers, one without a number first. -/
def InOrder {F : Type} (ps : List (Piece F)) : Prop :=
  ps.Pairwise fun p q => ∃ m, q.number = some m ∧ ∀ n, p.number = some n → n < m

/-- A file with a history: the variables of the pieces, in whatever order the library lists them, and others whose names
contain neither "TimeMesh" nor "Data". -/
def HasPieces {F : Type} (vars : List (List Char)) (ps : List (Piece F)) : Prop :=
  ∃ others : List (List Char), (∀ k ∈ others, ¬ "TimeMesh".toList <:+: k ∧ ¬ "Data".toList <:+: k) ∧
    vars.Perm (ps.map Piece.timeName ++ ps.map Piece.dataName ++ others)

/-- What a history is loaded as: time `i` is entry `i` of the grid, value `c` at that time is entry `[i, c]` of the values. -/
structure IsWholeHistory {F : Type} (ps : List (Piece F)) (nc : Nat) (grid values : NArr F) : Prop where
  times : grid.data = ps.flatMap Piece.times
  axis : (ps.flatMap Piece.times).length ≠ 1 → grid.shape = [(ps.flatMap Piece.times).length]
  shape : values.shape = [(ps.flatMap Piece.times).length, nc]
  rows : ∀ (i : Nat) (r : List F), (ps.flatMap Piece.rows)[i]? = some r →
    ∀ (c : Nat) (v : F), r[c]? = some v → values.get? [i, c] = some v

end Pgkyl.Spec
