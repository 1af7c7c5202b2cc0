import Verif.Model.DataSpace
/-!
# Model of `commands/val2coord.py` and of the frames of `commands/trajectory.py`
-/

namespace Pgkyl.V2c

variable {F : Type}

/-- Library: `np.arange(s, e, inc)` of integers; an increment of 0 is a ZeroDivisionError (here `fail`). -/
def arange (s e inc : Int) : Except Err (List Int) :=
  if inc = 0 then .error .fail
  else if 0 < inc then .ok ((List.range ((e - s + inc - 1) / inc).toNat).map fun (k : Nat) => s + k * inc)
  else .ok ((List.range ((s - e - inc - 1) / (-inc)).toNat).map fun (k : Nat) => s + k * inc)

/-- val2coord.py:14-21 and 23-30: one bound of a range. -/
def bound (text : List Char) (dflt : Int) (length : Nat) : Except Err Int :=
  if text = [] then .ok dflt
  else do
    let i ← intOrErr text
    return if i < 0 then length + i else i

/-- val2coord.py:32-35: the increment. -/
def incOf (parts : List (List Char)) : Except Err Int :=
  match parts with
  | _ :: _ :: (c :: cs) :: _ => intOrErr (c :: cs)
  | _ => .ok 1

/-- val2coord.py:8-39 `_get_range`.  A comma list asks for `np.int`, which the required versions of NumPy (pyproject.toml
line 17) do not have. -/
def getRange (text : List Char) (length : Nat) : Except Err (List Int) :=
  if ',' ∈ text then .error .attributeError
  else if ':' ∈ text then do
    let parts := splitOn ':' text
    let s ← bound (parts.getD 0 []) 0 length
    let e ← bound (parts.getD 1 []) length length
    let inc ← incOf parts
    arange s e inc
  else do return [← intOrErr text]

/-- Library: `values[..., c]`; negative indices count from the end. -/
def column (v : NArr F) (c : Int) : Except Err (NArr F) :=
  match v.shape.getLast? with
  | none => .error .indexError
  | some n =>
    let i := if c < 0 then c + n else c
    if 0 ≤ i ∧ i < n then .ok (.ofFn v.shape.dropLast fun idx => v.get? (idx ++ [i.toNat])) else .error .indexError

/-- val2coord.py:96-97 `np.append(x, np.atleast_1d(x[0]), axis=0)`; more dimensions do not fit (`ValueError`). -/
def close (x : NArr F) : Except Err (NArr F) :=
  match x.shape, x.data with
  | [_], a :: l => .ok (.ofList (a :: l ++ [a]))
  | [_], [] => .error .indexError
  | _, _ => .error .valueError

/-- val2coord.py:95-98. -/
def closeIf (periodic : Bool) (x : NArr F) : Except Err (NArr F) := if periodic then close x else .ok x

/-- val2coord.py:77-90: which column goes with which. -/
def pairs (xs ys : List Int) : Except Err (List (Int × Int)) :=
  if 1 < xs.length ∧ xs.length ≠ ys.length then .error .fail
  else ys.zipIdx.mapM fun e =>
    match if 1 < xs.length then xs[e.2]? else xs[0]? with
    | some x => .ok (x, e.1)
    | none => .error .indexError

/-- The options of the command. -/
structure Opts where
  use : Option Tag := none
  tag : Option Tag := none
  label : List Char := []
  x : List Char := []
  y : List Char := []
  periodic : Bool := false

section
variable [Min F] [Max F]

/-- val2coord.py:92-105: one new dataset. -/
def make (o : Opts) (tag : Tag) (d : GData F) (v : NArr F) (xy : Int × Int) : Except Err (GData F) := do
  let x ← column v xy.1
  let y ← column v xy.2
  let x ← closeIf o.periodic x
  let y ← closeIf o.periodic y
  (GData.new tag o.label d.ctx).push [x] ⟨y.shape ++ [1], y.data⟩

/-- val2coord.py:74 `len(values[0, :])`: the length of the second axis. -/
def secondAxis (v : NArr F) : Except Err Nat :=
  match v.shape with
  | _ :: n :: _ => if v.shape.head? = some 0 then .error .indexError else .ok n
  | _ => .error .indexError

/-- val2coord.py:73-106: the new datasets for one dataset. -/
def results (o : Opts) (tag : Tag) (d : GData F) : Except Err (List (GData F)) :=
  match d.values with
  | none => .error .typeError
  | some v => do
    let n ← secondAxis v
    let xs ← getRange o.x n
    let ys ← getRange o.y n
    let ps ← pairs xs ys
    ps.mapM (make o tag d v)

/-- val2coord.py:72-109, one pass of the loop.  (An exception ends the command, so that it does not matter which datasets
were added before.) -/
def step (o : Opts) (tag : Tag) (s : Space F) (id : Nat) : Except Err (Space F) :=
  match s.heap[id]? with
  | none => .ok s
  | some d => do
    let rs ← results o tag d
    return (rs.foldl Space.addNew s).update id GData.deactivate

/-- val2coord.py:62-70: the tag of the results. -/
def outTag (o : Opts) (s : Space F) : Except Err Tag := do
  let tags ← s.tagIterator none true
  match o.tag, tags with
  | some t, _ => return t
  | none, [t] => return t
  | none, _ => return "val2coord".toList

/-- val2coord.py:52-110 `val2coord`. -/
def val2coord (o : Opts) (s : Space F) : Except Err (Space F) := do
  let t ← outTag o s
  Space.iterate (fun s => s) o.use true true .none (fun s _ i => step o t s i) s

end

/-! ## trajectory.py -/

/-- A drawn trajectory: the point marked and, if there is one, the velocity stroke from it. -/
structure Mark (F : Type) where
  point : List F
  stroke : Option (List F)
  deriving DecidableEq

variable [Add F] [Sub F] [Mul F]

/-- trajectory.py:111-114: number of frames and steps per frame.  Zero frames count as not given. -/
def frames (numPos : Nat) (numframes : Option Nat) : Nat × Nat :=
  match numframes with
  | some (n + 1) => (n + 1, numPos / (n + 1))
  | _ => (numPos, 1)

/-- trajectory.py:50-54: the time of the stroke. -/
def strokeTime (time : List F) (t leap : Nat) : Except Err F :=
  match time[t]?, (if time.length ≤ t + leap then time.getLast? else time[t + leap]?) with
  | some a, some b => .ok (b - a)
  | _, _ => .error .indexError

/-- trajectory.py:49-60: the stroke.  The velocity is that of row `i`, the point that of row `t`. -/
def stroke (time : List F) (coords : List (List F)) (i t leap : Nat) (p : List F) : Except Err (List F) := do
  let dt ← strokeTime time t leap
  match coords[i]? with
  | some r => return List.zipWith (fun x v => x + v * dt) p (r.drop 3)
  | none => .error .indexError

/-- trajectory.py:17-62 (without limits): what frame `i` marks on one trajectory; the rows of `coords` are the values
(three coordinates, or coordinates and velocities). -/
def mark (time : List F) (coords : List (List F)) (i leap : Nat) (vel : Bool) : Except Err (Mark F) :=
  match coords[i * leap]? with
  | none => .error .indexError
  | some r =>
    if vel && r.length = 6 then do
      return ⟨r.take 3, some (← stroke time coords i (i * leap) leap (r.take 3))⟩
    else .ok ⟨r.take 3, none⟩

end Pgkyl.V2c
