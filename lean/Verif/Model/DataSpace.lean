import Verif.Model.GData
/-! # Model of the dataset store, `src/postgkyl/commands/data_space.py`, and of the commands that
only change activation flags, `src/postgkyl/commands/status.py` -/

namespace Pgkyl

/-- Python `range(start, stop, step)` for `step ≠ 0` (empty for `step = 0`, which Python rejects
before this point). -/
def pyRange (start stop step : Int) : List Int :=
  if 0 < step then
    (List.range ((stop - start + step - 1) / step).toNat).map fun (k : Nat) => start + step * (k : Int)
  else if step < 0 then
    (List.range ((start - stop + (-step) - 1) / (-step)).toNat).map fun (k : Nat) => start + step * (k : Int)
  else []

/-- One bound of `slice.indices(n)` for a negative step: clipped to `[-1, n-1]`. -/
def sliceBoundNeg (n : Nat) (i : Int) : Int :=
  if i < 0 then max ((n : Int) + i) (-1) else min i ((n : Int) - 1)

/-- `range(*slice(lo, hi, step).indices(n))`: the positions `seq[lo:hi:step]` takes from a sequence
of length `n`, in order; a step of 0 is a `ValueError`. -/
def sliceIndices (n : Nat) (lo hi step : Option Int) : Except Err (List Nat) :=
  let st := step.getD 1
  if st = 0 then .error .valueError
  else if 0 < st then
    let a := match lo with | none => 0 | some i => sliceBound n i
    let b := match hi with | none => n | some i => sliceBound n i
    .ok ((pyRange a b st).map Int.toNat)
  else
    let a := match lo with | none => (n : Int) - 1 | some i => sliceBoundNeg n i
    let b := match hi with | none => -1 | some i => sliceBoundNeg n i
    .ok ((pyRange a b st).map Int.toNat)

/-- `seq[i]` on a list of length `n`: negative indices count from the end, otherwise `IndexError`. -/
def listIndex (n : Nat) (i : Int) : Except Err Nat :=
  if 0 ≤ i ∧ i < n then .ok i.toNat
  else if i < 0 ∧ 0 ≤ (n : Int) + i then .ok ((n : Int) + i).toNat
  else .error .indexError

abbrev Tag := List Char

/-- The dataset store (data_space.py:15-16) together with the Python objects it refers to.
`heap` holds every `GData` object created so far, an object being named by its position; `dict` is
`_dataset_dict`, an insertion-ordered dictionary from tags to lists of objects. -/
structure Space (F : Type) where
  heap : List (GData F) := []
  dict : List (Tag × List Nat) := []

/-- The `select` argument of `iterator` (data_space.py:19-20). -/
inductive Sel where
  | none
  | int (i : Int)
  | slice (lo hi step : Option Int)
  | str (s : List Char)
  deriving DecidableEq, Repr

/-- Python truth value of `select`: `None`, `0` and `""` are falsy, a `slice` never is. -/
def Sel.truthy : Sel → Bool
  | .none => false
  | .int i => i ≠ 0
  | .slice _ _ _ => true
  | .str s => s ≠ []

/-- data_space.py:26-49 the local `idx_sel`: a slice or a list of integers. -/
inductive IdxSel where
  | slice (lo hi step : Option Int)
  | list (is : List Int)
  deriving DecidableEq, Repr

/-- `int(s)`, with `ValueError` on a malformed string. -/
def intOrErr (s : List Char) : Except Err Int :=
  match pyInt s with
  | some i => .ok i
  | none => .error .valueError

/-- data_space.py:35-40 `if s[k]: x = int(s[k])`. -/
def optInt (s : List Char) : Except Err (Option Int) :=
  if s = [] then .ok none else do return some (← intOrErr s)

/-- data_space.py:26-49 processing of `select`.  A third part is converted even when it is empty
(`ValueError`); further parts are ignored. -/
def parseSel : Sel → Except Err IdxSel
  | .none => .ok (.slice none none none)
  | .int i => .ok (.list [i])
  | .slice lo hi st => .ok (.slice lo hi st)
  | .str s =>
    if ':' ∈ s then
      match splitOn ':' s with
      | p0 :: p1 :: rest => do
        let lo ← optInt p0
        let up ← optInt p1
        match rest with
        | [] => return .slice lo up none
        | p2 :: _ => return .slice lo up (some (← intOrErr p2))
      | _ => .error .indexError
    else do
      return .list (← (splitOn ',' s).mapM intOrErr)

namespace Space
variable {F : Type}

/-- `self._dataset_dict[t]` as an optional value. -/
def lookup (s : Space F) (t : Tag) : Option (List Nat) :=
  (s.dict.find? (fun e => e.1 = t)).map Prod.snd

/-- `self._dataset_dict[tag].append(data)` / `= [data]` on the insertion-ordered dictionary. -/
def dictAdd : List (Tag × List Nat) → Tag → Nat → List (Tag × List Nat)
  | [], t, i => [(t, [i])]
  | (t', l) :: d, t, i => if t' = t then (t', l ++ [i]) :: d else (t', l) :: dictAdd d t i

/-- data_space.py:146-152 `add`: the object goes to the end of the list of its current tag. -/
def add (s : Space F) (id : Nat) : Space F :=
  match s.heap[id]? with
  | none => s
  | some g => { s with dict := dictAdd s.dict g.tag id }

/-- Creating a new `GData` object (it gets the next free name). -/
def alloc (s : Space F) (g : GData F) : Space F := { s with heap := s.heap ++ [g] }

/-- Creating a new `GData` object and `add`ing it. -/
def addNew (s : Space F) (g : GData F) : Space F := (s.alloc g).add s.heap.length

/-- data_space.py:178-179 `clean` (the objects themselves live on). -/
def clean (s : Space F) : Space F := { s with dict := [] }

/-- An in-place change of one object. -/
def update (s : Space F) (id : Nat) (f : GData F → GData F) : Space F :=
  { s with heap := s.heap.modify id f }

/-- `dat.get_status()`, gdata.py:174-175. -/
def active (s : Space F) (id : Nat) : Bool :=
  match s.heap[id]? with
  | some g => g.status
  | none => false

/-- data_space.py:51-55 the list of tags to visit, fixed when the iteration starts: an explicit
non-empty `tag` is split at commas, otherwise all tags in dictionary order. -/
def tagsOf (s : Space F) (tag : Option Tag) : List Tag :=
  match tag with
  | none => s.dict.map Prod.fst
  | some t => if t = [] then s.dict.map Prod.fst else splitOn ',' t

/-- data_space.py:58-68 the positions visited in a tag's list of length `n`.  With a falsy `select`
that is not `None` (the integer 0) a list is indexed by a list: `TypeError`.  An index out of range
makes the program quit (`IndexError`, caught at line 76). -/
def positions (sel : Sel) (ix : IdxSel) (n : Nat) : Except Err (List Nat) :=
  match ix with
  | .slice lo hi st => sliceIndices n lo hi st
  | .list is =>
    if sel.truthy then
      match is.mapM (listIndex n) with
      | .ok ps => .ok ps
      | .error _ => .error .fail
    else .error .typeError

/-- data_space.py:57-81 the visit of one tag.  The tag's list is read when the tag is reached and
(being sliced) copied; each object's status is read when the object is reached.  `body` is the loop
body of the consumer, which receives the enumeration index and the object.  `sp` extracts the store
from the consumer's state.  (Simplification: a `quit()` in the middle discards the effects of the
body so far, which are those of a terminated process.) -/
def visitTag {σ : Type} (sp : σ → Space F) (onlyActive : Bool) (sel : Sel) (ix : IdxSel)
    (body : σ → Nat → Nat → Except Err σ) (st : σ) (t : Tag) : Except Err σ :=
  match (sp st).lookup t with
  | none => .error .fail
  | some l =>
    match positions sel ix l.length with
    | .error e => .error e
    | .ok ps =>
      ((ps.filterMap fun p => l[p]?).zipIdx).foldlM (init := st) fun st (id, i) =>
        if !onlyActive || (sp st).active id then body st i id else .ok st

/-- data_space.py:19-84 `for [i,] dat in data.iterator(tag, enum, only_active, select): body`. -/
def iterate {σ : Type} (sp : σ → Space F) (tag : Option Tag) (enum onlyActive : Bool) (sel : Sel)
    (body : σ → Nat → Nat → Except Err σ) (st : σ) : Except Err σ :=
  if enum && sel.truthy then .error .fail
  else match parseSel sel with
    | .error e => .error e
    | .ok ix => ((sp st).tagsOf tag).foldlM (visitTag sp onlyActive sel ix body) st

/-- `list(data.iterator(...))` with a consumer that changes nothing: the pairs
(enumeration index, object). -/
def toList (s : Space F) (tag : Option Tag) (enum onlyActive : Bool) (sel : Sel) :
    Except Err (List (Nat × Nat)) :=
  iterate (σ := List (Nat × Nat)) (fun _ => s) tag enum onlyActive sel
    (fun acc i id => .ok (acc ++ [(i, id)])) []

/-- data_space.py:86-99 `tag_iterator`.  (The inner `self.iterator(t)` splits `t` at commas.) -/
def tagIterator (s : Space F) (tag : Option Tag) (onlyActive : Bool) : Except Err (List Tag) :=
  match tag with
  | some (c :: cs) => .ok (splitOn ',' (c :: cs))
  | _ =>
    if onlyActive then
      (s.dict.map Prod.fst).filterM fun t =>
        match s.toList (some t) false true .none with
        | .ok l => .ok (!l.isEmpty)
        | .error e => .error e
    else .ok (s.dict.map Prod.fst)

/-- data_space.py:155-158 `activate_all`.  The body really is `dat.deactivate()`. -/
def activateAll (s : Space F) (tag : Option Tag) : Except Err (Space F) :=
  iterate id tag false false .none (fun s _ id => .ok (s.update id GData.deactivate)) s

/-- data_space.py:161-164 `deactivate_all`. -/
def deactivateAll (s : Space F) (tag : Option Tag) : Except Err (Space F) :=
  iterate id tag false false .none (fun s _ id => .ok (s.update id GData.deactivate)) s

/-- data_space.py:167-168 `get_dataset`. -/
def getDataset (s : Space F) (idx : Int) (tag : Tag) : Except Err Nat :=
  match s.lookup tag with
  | none => .error .keyError
  | some l => match listIndex l.length idx with
    | .error e => .error e
    | .ok p => match l[p]? with
      | some id => .ok id
      | none => .error .indexError

/-- data_space.py:171-176 `get_num_datasets`. -/
def getNumDatasets (s : Space F) (tag : Option Tag) (onlyActive : Bool) : Except Err Nat :=
  iterate (σ := Nat) (fun _ => s) tag false onlyActive .none (fun n _ _ => .ok (n + 1)) 0

/-- The `--index` option as a `select` argument (status.py:9, 42): a missing option is `None`. -/
def optSel : Option (List Char) → Sel
  | none => .none
  | some s => .str s

/-- status.py:13-37 the `activate` command. -/
def activateCmd (s : Space F) (tag : Option Tag) (index : Option (List Char)) (focused : Bool) :
    Except Err (Space F) := do
  let s ← if focused then .ok s else s.deactivateAll none
  iterate id tag false false (optSel index) (fun s _ id => .ok (s.update id GData.activate)) s

/-- status.py:47-72 the `deactivate` command.  Note the condition: `if kwargs["focused"]`. -/
def deactivateCmd (s : Space F) (tag : Option Tag) (index : Option (List Char)) (focused : Bool) :
    Except Err (Space F) := do
  let s ← if focused then s.activateAll none else .ok s
  iterate id tag false false (optSel index) (fun s _ id => .ok (s.update id GData.deactivate)) s

/-- The loop shared by the commands that compute one result per active dataset, e.g.
integrate.py:20-32, select.py:145-159, and others:

    for dat in data.iterator(kwargs["use"]):
      if kwargs["tag"]:
        out = GData(tag=kwargs["tag"], ctx=dat.ctx, ...); <compute>(dat, out); data.add(out)
      else:
        <compute>(dat, overwrite=True)

`f` is the computation; it receives the input dataset and returns the result dataset. -/
def mapCmd (f : GData F → Except Err (GData F)) (use tag : Option Tag) (s : Space F) :
    Except Err (Space F) :=
  iterate id use false true .none (fun s _ id =>
    match s.heap[id]? with
    | none => .ok s
    | some d =>
      match f d with
      | .error e => .error e
      | .ok r =>
        match tag with
        | some (c :: cs) => .ok (s.addNew { r with tag := c :: cs, status := true })
        | _ => .ok (s.update id fun d => { r with tag := d.tag, status := d.status })) s

end Space
end Pgkyl
