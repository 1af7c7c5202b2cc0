import Verif.Model.SharedLists
/-! # Specification: datasets that do not depend on one another -/

namespace Pgkyl.Spec
open Lists

variable {F : Type}

/-- A dataset as the user thinks of it: its grid and its values. -/
abbrev Owned (F : Type) := List (NArr F) × NArr F

/-- What the user expects of a command: it adds a dataset, or changes the one it is applied to, and nothing else. -/
def expected (s : List (Owned F)) : Op F → List (Owned F)
  | .make g v => s ++ [(g, v)]
  | .share src v => s ++ [(((s[src]?).map Prod.fst).getD [], v)]
  | .replace src g v => s.set src (g, v)
  | .update src v => s.modify src fun d => (d.1, v)
  | .fft src new g v => if new then s ++ [(g, v)] else s.set src (g, v)
  | .text _ => s

/-- The expected result of a session. -/
def expectedRun (ops : List (Op F)) : List (Owned F) := ops.foldl expected []

/-- The datasets the user finds in the store. -/
def found (h : Heap F) : List (Owned F) := h.data.map fun d => (h.gridOf d, d.values)

/-- Families of datasets: a command that makes a new grid starts a new family, a dataset that takes over the grid of another one
belongs to its family.  The state is the number of families so far and the family of each dataset. -/
def family (s : Nat × List Nat) : Op F → Nat × List Nat
  | .make _ _ => (s.1 + 1, s.2 ++ [s.1])
  | .share src _ => (s.1, s.2 ++ [(s.2[src]?).getD 0])
  | .replace src _ _ => (s.1 + 1, s.2.set src s.1)
  | .update _ _ => s
  | .fft src new _ _ => if new then (s.1 + 1, s.2 ++ [s.1]) else (s.1 + 1, s.2.set src s.1)
  | .text _ => s

/-- The family of each dataset after a session. -/
def families (ops : List (Op F)) : List Nat := (ops.foldl family (0, [])).2

/-- The dataset a command is applied to, if it changes a list in place. -/
def touched : Op F → Option Nat
  | .fft src _ _ _ => some src
  | .text src => some src
  | _ => none

/-- The dataset that a command replaces. -/
def replaced : Op F → Option Nat
  | .replace src _ _ => some src
  | .update src _ => some src
  | .fft src false _ _ => some src
  | _ => none

/-- The command leaves lists alone: it does not write a text file, and fft is applied to data without collapsed directions (at
most two coordinates) only. -/
def Gentle (s : List (Owned F)) : Op F → Prop
  | .fft src _ _ _ => ∀ d, s[src]? = some d → ∀ a ∈ d.1, 2 < a.data.length
  | .text _ => False
  | _ => True

/-- Every command of the session is gentle where it is used. -/
def AllGentle (ops : List (Op F)) : Prop :=
  ∀ pre op post, ops = pre ++ op :: post → Gentle (expectedRun pre) op

end Pgkyl.Spec
