import Verif.Model.DataSpace
/-! # Specification of the dataset store

Written in terms of the history of calls, not of the store's dictionary. -/

namespace Pgkyl.Spec
variable {F : Type}

/-- The calls that change which datasets are stored. -/
inductive StoreOp (F : Type) where
  | add (g : GData F)
  | clean

/-- Performing a sequence of such calls on a fresh store (every `add` of a new object). -/
def perform (ops : List (StoreOp F)) : Space F :=
  ops.foldl (fun s op => match op with
    | .add g => s.addNew g
    | .clean => s.clean) {}

/-- The stores a session can reach: by adding datasets, cleaning, changing activation flags,
running dataset-by-dataset commands and changing single datasets in place (labels, values, grids)
in whatever way, in any order. -/
inductive Reachable : Space F → Prop where
  | empty : Reachable {}
  | add {s : Space F} (h : Reachable s) (g : GData F) : Reachable (s.addNew g)
  | clean {s : Space F} (h : Reachable s) : Reachable s.clean
  | activate {s s' : Space F} (h : Reachable s) {tag : Option Tag} {index : Option (List Char)}
      {focused : Bool} (hs : s.activateCmd tag index focused = .ok s') : Reachable s'
  | deactivate {s s' : Space F} (h : Reachable s) {tag : Option Tag} {index : Option (List Char)}
      {focused : Bool} (hs : s.deactivateCmd tag index focused = .ok s') : Reachable s'
  | command {s s' : Space F} (h : Reachable s) {f : GData F → Except Err (GData F)}
      {use tag : Option Tag} (hs : Space.mapCmd f use tag s = .ok s') : Reachable s'
  | change {s : Space F} (h : Reachable s) (i : Nat) (f : GData F → GData F) :
      Reachable (s.update i f)

/-- The datasets added since the last `clean`, oldest first. -/
def sinceClean (ops : List (StoreOp F)) : List (GData F) :=
  ops.foldl (fun acc op => match op with
    | .add g => acc ++ [g]
    | .clean => []) []

/-- Those carrying the tag `t`. -/
def under (t : Tag) (l : List (GData F)) : List (GData F) := l.filter fun g => g.tag = t

/-- The distinct elements of a list, each at the place of its first occurrence. -/
def firstUse (ts : List Tag) : List Tag :=
  ts.foldl (fun acc t => if t ∈ acc then acc else acc ++ [t]) []

/-- Python's meaning of a slice bound: negative counts from the end. -/
def fromEnd (n : Nat) (i : Int) : Int := if i < 0 then n + i else i

/-- The positions `0 ≤ p < n` selected by a slice `lo:hi:step`, in the order of the step. -/
def slicePositions (n : Nat) (lo hi : Option Int) (step : Int) : List Nat :=
  if 0 < step then
    let a := max 0 (fromEnd n (lo.getD 0))
    (List.range n).filter fun p =>
      a ≤ p ∧ (∀ h ∈ hi, (p : Int) < fromEnd n h) ∧ step ∣ (p : Int) - a
  else
    let a := match lo with | none => (n : Int) - 1 | some i => min ((n : Int) - 1) (fromEnd n i)
    (List.range n).reverse.filter fun p =>
      (p : Int) ≤ a ∧ (∀ h ∈ hi, fromEnd n h < (p : Int)) ∧ step ∣ (p : Int) - a

/-- The (position, object) pairs of a tag's list that a plain iteration visits: all of them, or the
active ones. -/
def visit (isActive : Nat → Bool) (onlyActive : Bool) (l : List Nat) : List (Nat × Nat) :=
  (l.zipIdx.filter fun e => !onlyActive || isActive e.1).map fun e => (e.2, e.1)

/-- `str` of an optional bound. -/
def boundText : Option Int → List Char
  | none => []
  | some i => pyStr i

/-- The text `lo:hi` or `lo:hi:step`. -/
def sliceText (lo hi step : Option Int) : List Char :=
  match step with
  | none => boundText lo ++ ':' :: boundText hi
  | some st => boundText lo ++ ':' :: (boundText hi ++ ':' :: pyStr st)

/-- The text `i,j,...`. -/
def listText (is : List Int) : List Char := joinWith ',' (is.map pyStr)

end Pgkyl.Spec
