import Verif.Model.NumOps
import Verif.Model.Py
/-!
# NumPy indexing of the last axis (the components)

Library semantics used by `src/postgkyl/tools`.  Not lines of /repo.
-/

namespace Pgkyl.NArr
variable {α : Type}

/-- `a[..., k, np.newaxis]` with `k ≥ 0`. -/
def comp (a : NArr α) (k : Nat) : Except Err (NArr α) :=
  match a.shape.getLast? with
  | none => .error .indexError
  | some n => if n ≤ k then .error .indexError
    else .ok (ofFn (a.shape.dropLast ++ [1]) fun idx => a.get? (idx.dropLast ++ [k]))

/-- `a[..., k]` with `k ≥ 0`. -/
def compFlat (a : NArr α) (k : Nat) : Except Err (NArr α) :=
  match a.shape.getLast? with
  | none => .error .indexError
  | some n => if n ≤ k then .error .indexError
    else .ok (ofFn a.shape.dropLast fun idx => a.get? (idx ++ [k]))

/-- `a[..., i:j]`. -/
def comps (a : NArr α) (i j : Int) : Except Err (NArr α) :=
  match a.shape.getLast? with
  | none => .error .indexError
  | some n =>
    let lo := sliceBound n i
    let hi := sliceBound n j
    .ok (ofFn (a.shape.dropLast ++ [hi - lo]) fun idx => a.get? (idx.dropLast ++ [lo + idx.getLastD 0]))

/-- `np.sum(a, axis=-1)`. -/
def sumFlat [Add α] [Zero α] (a : NArr α) : Except Err (NArr α) :=
  match a.shape.getLast? with
  | none => .error .indexError
  | some n => .ok (ofFn a.shape.dropLast fun idx =>
      some (((List.range n).filterMap fun c => a.get? (idx ++ [c])).foldl (· + ·) 0))

/-- `np.squeeze(a)`. -/
def squeeze (a : NArr α) : NArr α := ⟨a.shape.filter (· ≠ 1), a.data⟩

/-- `np.zeros(shape)`. -/
def zeros [Zero α] (shape : List Nat) : NArr α := ⟨shape, List.replicate shape.prod 0⟩

/-- `out[..., k] = val`: the value is broadcast to the shape of `out` without its last axis.
(Simplification: surplus leading axes of length 1 in the value are not accepted.) -/
def assignComp (out : NArr α) (k : Nat) (val : NArr α) : Except Err (NArr α) :=
  match out.shape.getLast? with
  | none => .error .indexError
  | some n =>
    if n ≤ k then .error .indexError
    else if bcastShape val.shape out.shape.dropLast ≠ some out.shape.dropLast then .error .valueError
    else .ok (ofFn out.shape fun idx =>
      if idx.getLast? = some k then val.get? (bcastIdx val.shape idx.dropLast) else out.get? idx)

end Pgkyl.NArr
