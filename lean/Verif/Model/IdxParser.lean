import Verif.Model.NArr
/-! # Model of `src/postgkyl/data/idx_parser.py` -/

namespace Pgkyl

variable {F : Type} [LT F] [DecidableLT F]

/-- The argument `value` of `idx_parser` (idx_parser.py:41): a Python int, float or str, or
anything else (e.g. a NumPy integer), which the code leaves unhandled. -/
inductive IdxArg (F : Type) where
  | int (i : Int)
  | float (x : F)
  | str (s : List Char)
  | other

/-- The result of `idx_parser`: an int, a `slice(start, stop)`, a tuple of ints, or `None`. -/
inductive Idx where
  | int (i : Int)
  | slice (start stop : Int)
  | tuple (l : List Int)
  | none
  deriving DecidableEq, Repr

/-- `np.searchsorted(array, value)` with the array checks of lines 4-7 / 18-21: `None` raises
TypeError, an array that is not one-dimensional raises ValueError (NumPy: "object too deep"). -/
def searchArr (array : Option (NArr F)) (value : F) : Except Err Nat :=
  match array with
  | .none => .error .typeError
  | some a => if a.shape.length = 1 then .ok (searchsorted a.data value) else .error .valueError

/-- `len(array)`; `len(None)` raises TypeError. -/
def lenArr (array : Option (NArr F)) : Except Err Int :=
  match array with
  | .none => .error .typeError
  | some a => do return (← a.len : Nat)

/-- idx_parser.py:3-14 `_find_nearest_index`. -/
def findNearestIndex (array : Option (NArr F)) (value : F) : Except Err Int := do
  let idx ← searchArr array value
  let n ← lenArr array
  if (idx : Int) = n then return (idx : Int) - 2
  else if idx > 0 then return (idx : Int) - 1
  else return idx

/-- idx_parser.py:17-22 `_find_cell_index`. -/
def findCellIndex (array : Option (NArr F)) (value : F) : Except Err Int := do
  return (← searchArr array value : Nat)

/-- idx_parser.py:46-51: dispatch of a coordinate on `nodal` (the same choice is made at
lines 30-34). -/
def lookup (array : Option (NArr F)) (nodal : Bool) (value : F) : Except Err Int :=
  if nodal then findCellIndex array value else findNearestIndex array value

/-- idx_parser.py:25-38 `_string_to_index`.  `pf` stands for `float(str)`; `none` is its
`ValueError`. -/
def stringToIndex (pf : List Char → Option F) (value : List Char) (array : Option (NArr F))
    (nodal : Bool) : Except Err Int :=
  if isDigitStr value then .ok (natOfDigits value)
  else match pf value with
    | .none => .error .valueError
    | some x => lookup array nodal x

/-- idx_parser.py:54-56: all parts of a comma list, left to right, first error wins. -/
def stringsToIndices (pf : List Char → Option F) (array : Option (NArr F)) (nodal : Bool) :
    List (List Char) → Except Err (List Int)
  | [] => .ok []
  | p :: ps => do
    let i ← stringToIndex pf p array nodal
    let is ← stringsToIndices pf array nodal ps
    return i :: is

/-- idx_parser.py:59-70: the textual bounds of a two-part slice after defaults: an empty start
becomes `"0"`, an empty stop `str(len(array))`, a negative integer stop
`str(len(array) + stop + 1)`. -/
def sliceTexts (array : Option (NArr F)) (s0 s1 : List Char) :
    Except Err (List Char × List Char) := do
  let a := if s0 = [] then pyStr 0 else s0
  let b ← if s1 = [] then (do let n ← lenArr array; return pyStr n) else pure s1
  match pyInt b with
  | some k =>
    if k < 0 then do
      let n ← lenArr array
      return (a, pyStr (n + k + 1))
    else return (a, b)
  | .none => return (a, b)

/-- idx_parser.py:41-78 `idx_parser`. -/
def idxParser (pf : List Char → Option F) (value : IdxArg F) (array : Option (NArr F))
    (nodal : Bool) : Except Err Idx :=
  match value with
  | .int i => .ok (.int i)
  | .float x => do return .int (← lookup array nodal x)
  | .str s =>
    if (splitOn ',' s).length > 1 then do
      return .tuple (← stringsToIndices pf array nodal (splitOn ',' s))
    else match splitOn ':' s with
      | [s0, s1] => do
        let (a, b) ← sliceTexts array s0 s1
        let i ← stringToIndex pf a array nodal
        let j ← stringToIndex pf b array nodal
        return .slice i j
      | _ => do return .int (← stringToIndex pf s array nodal)
  | .other => .ok .none

end Pgkyl
