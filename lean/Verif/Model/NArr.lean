import Verif.Model.Py
/-!
# N-dimensional arrays

NumPy arrays in C order: a shape and the flat list of elements.  These definitions model NumPy
library behaviour (indexing, basic slicing), not lines of /repo.
-/

namespace Pgkyl

/-- A NumPy array: shape and elements in C (row-major) order. -/
structure NArr (α : Type) where
  shape : List Nat
  data : List α
  deriving DecidableEq, Repr

/-- All multi-indices of a shape, in C order (`np.ndindex`). -/
def indices : List Nat → List (List Nat)
  | [] => [[]]
  | n :: ns => (List.range n).flatMap fun i => (indices ns).map (i :: ·)

/-- Position of a multi-index in C order (`np.ravel_multi_index`). -/
def ravel : List Nat → List Nat → Nat
  | _ :: ns, i :: is => i * ns.prod + ravel ns is
  | _, _ => 0

/-- The multi-index lies in the shape. -/
def inRange : List Nat → List Nat → Bool
  | [], [] => true
  | n :: ns, i :: is => decide (i < n) && inRange ns is
  | _, _ => false

namespace NArr
variable {α : Type}

/-- Element access `a[i0, i1, ...]` with non-negative indices; `none` is `IndexError`. -/
def get? (a : NArr α) (idx : List Nat) : Option α :=
  if inRange a.shape idx then a.data[ravel a.shape idx]? else none

/-- The number of stored elements is the product of the shape. -/
def WF (a : NArr α) : Prop := a.data.length = a.shape.prod

/-- Array of the given shape whose element at `idx` is `f idx`. -/
def ofFn (shape : List Nat) (f : List Nat → Option α) : NArr α :=
  ⟨shape, (indices shape).filterMap f⟩

/-- One-dimensional array. -/
def ofList (l : List α) : NArr α := ⟨[l.length], l⟩

/-- Basic slicing `a[lo0:hi0, lo1:hi1, ...]` with already normalised bounds; axes without a slice
are kept whole. -/
def slice (a : NArr α) (sl : List (Nat × Nat)) : NArr α :=
  let full := sl ++ (a.shape.drop sl.length).map fun n => (0, n)
  ofFn (full.map fun p => p.2 - p.1) fun idx => a.get? (List.zipWith (· + ·) idx (full.map (·.1)))

/-- `len(a)`: first dimension; 0-d arrays have no length. -/
def len (a : NArr α) : Except Err Nat :=
  match a.shape with
  | [] => .error .typeError
  | n :: _ => .ok n

end NArr

end Pgkyl
