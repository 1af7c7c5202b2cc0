import Verif.Model.Py
import Verif.Model.CompOps
import Mathlib.Data.Sum.Order
import Mathlib.Data.List.Lex
import Mathlib.Data.Char
/-!
# Model of loading histories (diagnostics) in `src/postgkyl/data/gkyl_adios_reader.py`

The ADIOS library is a list of variable names and a function that reads a variable.
-/

namespace Pgkyl
namespace Adios

/-- A part of a sort key: a text or a number.  In the keys below texts and numbers alternate, so that Python never compares
one with the other; the order between them here is arbitrary. -/
abbrev KeyPart := Lex (List Char ⊕ Nat)

/-- gkyl_adios_reader.py:281-282: `re.split("([0-9]+)", key)` with the groups of digits as numbers and the rest in lower case;
`acc` is what has been read of the current part, `num` says if it is a number.  (Simplification: ASCII letters.) -/
def keyParts : List Char → Bool → List Char → List KeyPart
  | acc, false, [] => [toLex (.inl (acc.map Char.toLower))]
  | acc, true, [] => [toLex (.inr (natOfDigits acc)), toLex (.inl [])]
  | acc, false, c :: cs =>
    if isDig c then toLex (.inl (acc.map Char.toLower)) :: keyParts [c] true cs else keyParts (acc ++ [c]) false cs
  | acc, true, c :: cs =>
    if isDig c then keyParts (acc ++ [c]) true cs else toLex (.inr (natOfDigits acc)) :: keyParts [c] false cs

/-- gkyl_adios_reader.py:282 `alphanum_key`. -/
def naturalKey (name : List Char) : List KeyPart := keyParts [] false name

/-- gkyl_adios_reader.py:279-283 `natural_sort`. -/
def naturalSort (l : List (List Char)) : List (List Char) := l.mergeSort fun a b => decide (naturalKey a ≤ naturalKey b)

section
variable {F : Type}

/-- `np.atleast_1d`. -/
def atLeast1 (a : NArr F) : NArr F := if a.shape = [] then ⟨[1], a.data⟩ else a

/-- gkyl_adios_reader.py:299-301: an array with one axis gets a second one. -/
def twoAxes (a : NArr F) : NArr F :=
  match a.shape with
  | [n] => ⟨[n, 1], a.data⟩
  | _ => a

/-- `np.append(a, b, axis=0)`. -/
def appendRows (a b : NArr F) : Except Err (NArr F) :=
  match a.shape, b.shape with
  | n :: s, m :: t => if s = t then .ok ⟨(n + m) :: s, a.data ++ b.data⟩ else .error .valueError
  | _, _ => .error .valueError

/-- gkyl_adios_reader.py:291-292, 302-303: the first piece, or one more. -/
def joinPiece (st : Option (NArr F × NArr F)) (g d : NArr F) : Except Err (Option (NArr F × NArr F)) :=
  match st with
  | none => .ok (some (g, d))
  | some (g0, d0) => do
    let d' ← appendRows d0 (twoAxes d)
    let g' ← appendRows g0 g
    return some (g', d')

/-- One turn of gkyl_adios_reader.py:289-305; `st` is what has been read so far. -/
def diagStep (read : List Char → Except Err (NArr F)) (times : List (List Char)) (st : Option (NArr F × NArr F))
    (i : Nat × List Char) : Except Err (Option (NArr F × NArr F)) := do
  let d ← read i.2
  match times[i.1]? with
  | none => .error .indexError
  | some t => do
    let g ← read t
    joinPiece st (atLeast1 g) (atLeast1 d)

/-- gkyl_adios_reader.py:289-308: reading the variables with the given names.  Without any, the names `grid` and `data` are
unbound. -/
def loadPieces (read : List Char → Except Err (NArr F)) (times data : List (List Char)) : Except Err (NArr F × NArr F) := do
  let r ← (data.zipIdx.map Prod.swap).foldlM (diagStep read times) none
  match r with
  | none => .error .unboundLocal
  | some (g, d) => .ok (g.squeeze, d)

/-- gkyl_adios_reader.py:275-308 `_load_diagnostic`: the grid (one array) and the values. -/
def loadDiagnostic (vars : List (List Char)) (read : List Char → Except Err (NArr F)) : Except Err (NArr F × NArr F) :=
  loadPieces read (naturalSort (vars.filter fun k => decide ("TimeMesh".toList <:+: k)))
    (naturalSort (vars.filter fun k => decide ("Data".toList <:+: k)))

/-- gkyl_adios_reader.py:339: the number of components that is recorded. -/
def recordedComps (d : NArr F) : Except Err Nat :=
  match d.shape.getLast? with
  | some n => .ok n
  | none => .error .indexError

end
end Adios
end Pgkyl
