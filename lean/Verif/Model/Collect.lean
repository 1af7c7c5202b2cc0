import Verif.Model.DataSpace
import Verif.Model.CompOps
/-! # Model of the `collect` command, `src/postgkyl/commands/collect.py` -/

namespace Pgkyl

namespace NArr
variable {α : Type}

/-- `np.array([a, b, ...])` of arrays: the shapes must agree (NumPy library). -/
def stack (l : List (NArr α)) : Except Err (NArr α) :=
  match l with
  | [] => .ok ⟨[0], []⟩
  | a :: as =>
    if as.all fun b => b.shape = a.shape then
      .ok (ofFn (l.length :: a.shape) fun
        | k :: r => (l[k]?).bind fun b => b.get? r
        | [] => none)
    else .error .valueError

/-- `a[idx]` with a list of non-negative positions along the first axis (NumPy library). -/
def takeRows (a : NArr α) (idx : List Nat) : Except Err (NArr α) :=
  match a.shape with
  | [] => .error .indexError
  | n :: rest =>
    if idx.all fun j => j < n then
      .ok (ofFn (idx.length :: rest) fun
        | k :: r => (idx[k]?).bind fun j => a.get? (j :: r)
        | [] => none)
    else .error .indexError

/-- `np.nansum(a, axis=(0, ..., n-1))` (NumPy library).  (Simplification: no element is NaN.) -/
def sumAxes [Add α] [Zero α] (a : NArr α) (n : Nat) : Except Err (NArr α) :=
  if n ≤ a.shape.length then
    .ok (ofFn (a.shape.drop n) fun r =>
      some (((indices (a.shape.take n)).filterMap fun i => a.get? (i ++ r)).foldl (· + ·) 0))
  else .error .indexError

end NArr

namespace Collect
variable {F : Type}

/-- The options of the command (collect.py:9-20).  `None` and the empty string are not distinguished. -/
structure Opts (F : Type) where
  sumdata : Bool := false
  period : Option F := none
  offset : F
  chunk : Option Int := none
  use : Option Tag := none
  tag : Option (List Char) := none
  label : List Char := []

/-- One entry of the three parallel lists `time`, `values`, `grid` (collect.py:38-40). -/
structure Chunk (F : Type) where
  time : List F := []
  values : List (NArr F) := []
  grid : List (NArr F) := []

/-- The local variables of the loop over the datasets: the lists without their last entry, the last entry, `cnt`,
`label`. -/
structure St (F : Type) where
  done : List (Chunk F) := []
  cur : Chunk F := {}
  cnt : Int := 0
  label : List Char := []

variable [Zero F] [DecidableEq F] [IntCast F]

/-- collect.py:51-57: the number collected for a dataset at position `i`.  `timeOf`, `frameOf` read the keys "time" and
"frame" of the metadata (`none`: the key is absent, `KeyError`). -/
def stamp (timeOf : GData F → Option F) (frameOf : GData F → Option Int) (i : Nat) (d : GData F) : Except Err F :=
  match timeOf d with
  | none => .error .keyError
  | some t =>
    if t ≠ 0 then .ok t
    else match frameOf d with
      | none => .error .keyError
      | some f => if f ≠ 0 then .ok (f : F) else .ok ((i : Int) : F)

/-- collect.py:45-50: whether a new chunk begins with the dataset that `cnt` (already incremented) counts. -/
def newChunk (chunk : Option Int) (cnt : Int) : Bool :=
  match chunk with
  | none => false
  | some c => c ≠ 0 && c < cnt

variable [Add F]

/-- collect.py:58-65: what is appended to the values. -/
def summed (o : Opts F) (d : GData F) (v : NArr F) : Except Err (NArr F) :=
  if o.sumdata then v.sumAxes d.numDims else .ok v

/-- collect.py:66-68: the grid of the chunk is that of its first dataset (with a non-empty list of coordinates). -/
def chunkGrid (c : Chunk F) (d : GData F) : Except Err (List (NArr F)) :=
  match c.grid with
  | [] => match d.grid with
    | some g => .ok g
    | none => .error .attributeError
  | g :: gs => .ok (g :: gs)

/-- collect.py:44-70: the loop body. -/
def step (timeOf : GData F → Option F) (frameOf : GData F → Option Int) (o : Opts F) (st : St F) (i : Nat)
    (d : GData F) : Except Err (St F) := do
  let st := if newChunk o.chunk (st.cnt + 1) then { st with done := st.done ++ [st.cur], cur := {}, cnt := 1 }
    else { st with cnt := st.cnt + 1 }
  let t ← stamp timeOf frameOf i d
  match d.values with
  | none => .error .typeError
  | some v => do
    let w ← summed o d v
    let g ← chunkGrid st.cur d
    return { st with
      cur := { time := st.cur.time ++ [t], values := st.cur.values ++ [w], grid := g }
      label := d.customLabel }

/-- The loop body for the object with enumeration index `e.1` and name `e.2`. -/
def stepAt (timeOf : GData F → Option F) (frameOf : GData F → Option Int) (o : Opts F) (s : Space F) (st : St F)
    (e : Nat × Nat) : Except Err (St F) :=
  match s.heap[e.2]? with
  | none => .ok st
  | some d => step timeOf frameOf o st e.1 d

variable [Sub F] [Min F] [Max F]

/-- `l[idx]` of a one-dimensional array. -/
def take (l : List F) (idx : List Nat) : Except Err (List F) :=
  match idx.mapM fun j => l[j]? with
  | some r => .ok r
  | none => .error .indexError

/-- collect.py:95-97: the times are replaced by their remainders if a (non-zero) period is given. -/
def retime (fmod : F → F → F) (o : Opts F) (time : List F) : List F :=
  match o.period with
  | some p => if p ≠ 0 then time.map fun t => fmod (t - o.offset) p else time
  | none => time

/-- collect.py:93-112: sorting one chunk and creating the dataset.  `argsort` is `np.argsort`, `fmod` Python's `%`. -/
def finish (argsort : List F → List Nat) (fmod : F → F → F) (o : Opts F) (outTag label : List Char) (c : Chunk F) :
    Except Err (GData F) := do
  let values ← NArr.stack c.values
  let time := retime fmod o c.time
  let idx := argsort time
  let time ← take time idx
  let values ← values.takeRows idx
  let grid := if o.sumdata then [NArr.ofList time] else NArr.ofList time :: c.grid
  (GData.new outTag label {}).push grid values

/-- collect.py:77-83 the tag of the results. -/
def outTagOf (o : Opts F) (tag : Tag) (tagCnt : Nat) : Except Err Tag :=
  match o.tag with
  | none => .ok tag
  | some [] => .ok tag
  | some (c :: cs) =>
    match splitOn ',' (c :: cs) with
    | [t] => .ok t
    | ts => match ts[tagCnt]? with
      | some t => .ok t
      | none => .error .indexError

/-- collect.py:86-91 the label of the results. -/
def labelOf (o : Opts F) (label : List Char) : List Char :=
  if o.label ≠ [] then o.label else if label = [] then "collect".toList else label

/-- collect.py:37-113 the work for one tag. -/
def collectTag (timeOf : GData F → Option F) (frameOf : GData F → Option Int) (argsort : List F → List Nat)
    (fmod : F → F → F) (o : Opts F) (s : Space F) (tag : Tag) (tagCnt : Nat) : Except Err (Space F) := do
  let items ← s.toList (some tag) true true .none
  let st ← items.foldlM (init := ({} : St F)) (stepAt timeOf frameOf o s)
  let s ← s.deactivateAll (some tag)
  let outTag ← outTagOf o tag tagCnt
  (st.done ++ [st.cur]).foldlM (init := s) fun s c => do
    return s.addNew (← finish argsort fmod o outTag (labelOf o st.label) c)

/-- collect.py:22-115 the command. -/
def collectCmd (timeOf : GData F → Option F) (frameOf : GData F → Option Int) (argsort : List F → List Nat)
    (fmod : F → F → F) (o : Opts F) (s : Space F) : Except Err (Space F) := do
  let tags ← s.tagIterator o.use true
  tags.zipIdx.foldlM (init := s) fun s t => collectTag timeOf frameOf argsort fmod o s t.1 t.2

end Collect
end Pgkyl
