import Verif.Model.NArr
/-!
# NumPy arithmetic on arrays

Library semantics: broadcasting, transposition, reductions.  Not lines of /repo.
-/

namespace Pgkyl

/-- Broadcasting of two shapes given in reversed order (last axis first): axes must be equal or 1. -/
def bcastRev : List Nat → List Nat → Option (List Nat)
  | [], ys => some ys
  | xs, [] => some xs
  | x :: xs, y :: ys =>
    if x = y then (bcastRev xs ys).map (x :: ·)
    else if x = 1 then (bcastRev xs ys).map (y :: ·)
    else if y = 1 then (bcastRev xs ys).map (x :: ·)
    else none

/-- `np.broadcast_shapes(a, b)`; `none` is `ValueError`. -/
def bcastShape (a b : List Nat) : Option (List Nat) := (bcastRev a.reverse b.reverse).map List.reverse

/-- The index into an array of the given shape that broadcasting reads for the result index `idx`
(both reversed). -/
def bcastIdxRev : List Nat → List Nat → List Nat
  | n :: ns, i :: is => (if n = 1 then 0 else i) :: bcastIdxRev ns is
  | _, _ => []

/-- The index into an array of shape `shape` that broadcasting reads for the result index `idx`. -/
def bcastIdx (shape idx : List Nat) : List Nat := (bcastIdxRev shape.reverse idx.reverse).reverse

namespace NArr
variable {α : Type}

/-- Binary NumPy ufunc `f(a, b)` with broadcasting. -/
def zip2 {β γ : Type} (f : α → β → γ) (a : NArr α) (b : NArr β) : Except Err (NArr γ) :=
  match bcastShape a.shape b.shape with
  | none => .error .valueError
  | some s => .ok (ofFn s fun idx => do
      let x ← a.get? (bcastIdx a.shape idx)
      let y ← b.get? (bcastIdx b.shape idx)
      return f x y)

/-- `a.transpose()`: all axes reversed. -/
def transpose (a : NArr α) : NArr α := ofFn a.shape.reverse fun idx => a.get? idx.reverse

/-- A 0-d array. -/
def scalar (x : α) : NArr α := ⟨[], [x]⟩

/-- Unary NumPy ufunc. -/
def map1 {β : Type} (f : α → β) (a : NArr α) : NArr β := ⟨a.shape, a.data.map f⟩

/-- `np.sum(a, axis=-1)[..., np.newaxis]`: sums over the last axis, kept with length 1.  A 0-d array
has no axis. -/
def sumLast [Add α] [Zero α] (a : NArr α) : Except Err (NArr α) :=
  match a.shape.getLast? with
  | none => .error .indexError
  | some n => .ok (ofFn (a.shape.dropLast ++ [1]) fun idx =>
      some (((List.range n).filterMap fun c => a.get? (idx.dropLast ++ [c])).foldl (· + ·) 0))

end NArr

end Pgkyl
