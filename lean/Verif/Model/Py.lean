import Mathlib.Data.List.Basic
/-!
# Python primitives used by the model

These definitions model the Python 3 / NumPy library behaviour the code in /repo relies on.
They model library semantics, not lines of /repo; each says which library function it stands for.
-/

namespace Pgkyl

/-- Python exceptions as values.  Only the class is kept, not the message. -/
inductive Err where
  | typeError
  | valueError
  | indexError
  | keyError
  | attributeError
  | unboundLocal
  | osError
  | fail          -- `ctx.fail` / `sys.exit` / `click` failure
  deriving DecidableEq, Repr

/-- `str.split(c)` for a one-character separator: always at least one part. -/
def splitOn (c : Char) : List Char → List (List Char)
  | [] => [[]]
  | x :: xs =>
    if x = c then [] :: splitOn c xs
    else match splitOn c xs with
      | [] => [[x]]
      | p :: ps => (x :: p) :: ps

/-- `c.join(parts)`. -/
def joinWith (c : Char) : List (List Char) → List Char
  | [] => []
  | [p] => p
  | p :: q :: ps => p ++ c :: joinWith c (q :: ps)

/-- ASCII decimal digit (Python's `isdigit` also accepts other Unicode digits: simplification). -/
def isDig (c : Char) : Bool := '0' ≤ c && c ≤ '9'

/-- `str.isdigit()`: non-empty and all digits. -/
def isDigitStr (s : List Char) : Bool := !s.isEmpty && s.all isDig

/-- value of a digit character -/
def digVal (c : Char) : Nat := c.toNat - '0'.toNat

/-- `int(s)` for a string of digits (most significant first). -/
def natOfDigits (s : List Char) : Nat := s.foldl (fun n c => 10 * n + digVal c) 0

/-- `int(s)`: optional sign and digits; `none` is `ValueError`.
(Simplification: surrounding blanks and digit-group underscores are not accepted.) -/
def pyInt : List Char → Option Int
  | '-' :: s => if isDigitStr s then some (-(natOfDigits s : Int)) else none
  | '+' :: s => if isDigitStr s then some (natOfDigits s : Int) else none
  | s => if isDigitStr s then some (natOfDigits s : Int) else none

/-- `str(n)` for an integer. -/
def pyStr (n : Int) : List Char :=
  if n < 0 then '-' :: Nat.toDigits 10 n.natAbs else Nat.toDigits 10 n.natAbs

/-- One bound of a Python slice with step 1 on a sequence of length `n`
(`slice.indices`): negative bounds count from the end, everything is clipped to `[0, n]`. -/
def sliceBound (n : Nat) (i : Int) : Nat :=
  if i < 0 then (n + i).toNat else min i.toNat n

/-- `seq[a:b]`: Python list / 1-D NumPy slicing with step 1. -/
def pySlice {α : Type} (l : List α) (a b : Int) : List α :=
  let lo := sliceBound l.length a
  let hi := sliceBound l.length b
  (l.drop lo).take (hi - lo)

/-- NumPy `searchsorted(a, v, side='left')` between `lo` and `hi`: the library's actual binary
search (`npy_binsearch`), which is defined for unsorted arrays too. -/
def bisectLeft {F : Type} [LT F] [DecidableLT F] (a : List F) (v : F) (lo hi : Nat) : Nat :=
  if lo < hi then
    let mid := lo + (hi - lo) / 2
    match a[mid]? with
    | some x => if x < v then bisectLeft a v (mid + 1) hi else bisectLeft a v lo mid
    | none => lo
  else lo
  termination_by hi - lo
  decreasing_by all_goals omega

/-- `np.searchsorted(a, v)`. -/
def searchsorted {F : Type} [LT F] [DecidableLT F] (a : List F) (v : F) : Nat :=
  bisectLeft a v 0 a.length

end Pgkyl
