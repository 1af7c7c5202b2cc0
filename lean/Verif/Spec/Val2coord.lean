import Verif.Model.NArr
import Verif.Model.DataSpace
/-! # Specification: tables, and columns of tables -/

namespace Pgkyl.Spec

/-- The values are a table with these rows and `nc` columns. -/
def IsRows {F : Type} (v : NArr F) (rows : List (List F)) (nc : Nat) : Prop :=
  v.shape = [rows.length, nc] ∧ v.data = rows.flatten ∧ ∀ r ∈ rows, r.length = nc

/-- A column. -/
def colOf {F : Type} (rows : List (List F)) (c : Nat) : List F := rows.filterMap (·[c]?)

/-- The column number, negative ones counting from the end. -/
def colNo (nc : Nat) (c : Int) : Nat := (if c < 0 then c + nc else c).toNat

/-- With the first entry once more at the end if wanted. -/
def closed {F : Type} (periodic : Bool) (l : List F) : List F := if periodic then l ++ l.take 1 else l

/-- The integers from `lo` (included) to `hi` (excluded) in steps of `inc > 0`, in ascending order. -/
def IsProgression (lo hi inc : Int) (l : List Int) : Prop :=
  l.Pairwise (· < ·) ∧ ∀ i, i ∈ l ↔ lo ≤ i ∧ i < hi ∧ inc ∣ i - lo

/-- The tags with active datasets. -/
def activeTags {F : Type} (s : Space F) : List Tag :=
  (s.dict.map Prod.fst).filter fun t => ((s.lookup t).getD []).any s.active

/-- The only entry of a list, if there is just one. -/
def onlyOr {α : Type} : List α → α → α
  | [a], _ => a
  | _, b => b

/-- The number of frames wanted: as many as asked for (0 counts as not asked), or one per position. -/
def wantedFrames (numPos : Nat) : Option Nat → Nat
  | none => numPos
  | some 0 => numPos
  | some n => n

end Pgkyl.Spec
