import Verif.Model.DataSpace
/-! # Model of the command line: `src/postgkyl/pgkyl.py` (command lookup), `src/postgkyl/commands/load.py`, and the
automatic labels of `src/postgkyl/commands/data_space.py` -/

namespace Pgkyl
namespace Cli

abbrev Str := List Char

/-- `x.startswith(w)`. -/
def startsWith (w x : Str) : Bool := w.isPrefixOf x

/-- pgkyl.py:41-62 `get_command`.  `table` is the list of command names, `glob` the file system, `strs` the list
`ctx.obj["in_data_strings"]`.  The result is the name of the command to run and the new list.  (Simplification: the
command `load` is assumed to be registered, as it is at pgkyl.py:165.) -/
def getCommand (table : List Str) (glob : Str → List Str) (strs : List Str) (w : Str) : Except Err (Str × List Str) :=
  if w ∈ table then .ok (w, strs)
  else match table.filter (startsWith w) with
    | [m] => .ok (m, strs)
    | _ :: _ :: _ => .error .fail
    | [] => if glob w ≠ [] then .ok ("load".toList, strs ++ [w]) else .error .fail

/-- Click resolves every word of a chained command line before running anything (click library, `MultiCommand.invoke`
with `chain=True`).  The words are the command words; options of the commands are not modelled. -/
def resolveAll (table : List Str) (glob : Str → List Str) : List Str → List Str → Except Err (List Str × List Str)
  | [], strs => .ok ([], strs)
  | w :: ws, strs => do
    let r ← getCommand table glob strs w
    let rs ← resolveAll table glob ws r.2
    return (r.1 :: rs.1, rs.2)

/-- load.py:60-64, 149: running the commands; each `load` takes the next entry of `in_data_strings`
(`in_data_strings_loaded` counts them; past the end: `IndexError`).  The result is the list of the strings loaded. -/
def runLoads (strs : List Str) : List Str → Nat → Except Err (List Str)
  | [], _ => .ok []
  | c :: cs, idx =>
    if c = "load".toList then
      match strs[idx]? with
      | none => .error .indexError
      | some f => do return f :: (← runLoads strs cs (idx + 1))
    else runLoads strs cs idx

/-- A whole command line: the strings that are loaded. -/
def loaded (table : List Str) (glob : Str → List Str) (words : List Str) : Except Err (List Str) := do
  let r ← resolveAll table glob words []
  runLoads r.2 r.1 0

/-! ### load.py -/

/-- Python truth value of an optional string. -/
def truthy (s : Option Str) : Bool :=
  match s with
  | none => false
  | some [] => false
  | some (_ :: _) => true

/-- load.py:9-25 `_pick_cut` (and, with the same branches, load.py:96-107 for `c2p`): the local value, else the global
one, else nothing. -/
def pickCut (loc glob : Option Str) : Option Str :=
  if truthy loc && truthy glob then loc
  else if truthy loc then loc
  else if truthy glob then glob
  else none

/-- The options that can be given both to `pgkyl` and to `load` (load.py:37-49, pgkyl.py:75-84); `cuts` are z0 … z5 and
the component. -/
structure Given where
  cuts : Nat → Option Str := fun _ => none
  varname : List Str := []
  c2p : Option Str := none
  c2pVel : Option Str := none

/-- What is passed to `GData` for every file (load.py:131-135). -/
structure Used where
  cuts : Nat → Option Str
  varNames : List Str
  c2p : Option Str
  c2pVel : Option Str

/-- load.py:83-94, 124-126 the variable names. -/
def varNames (loc glob : List Str) : List Str :=
  let vs := if loc ≠ [] then loc else if glob ≠ [] then glob else ["CartGridField".toList]
  match vs with
  | [v] => splitOn ',' v
  | vs => vs

/-- load.py:109-122 the velocity mapping: the pair (`mapc2p_name`, `mapc2p_vel_name`) after the branch.  With both options
given the local one is stored in `mapc2p_name`. -/
def pickVel (c2p loc glob : Option Str) : Option Str × Option Str :=
  if truthy loc && truthy glob then (loc, none)
  else if truthy loc then (c2p, loc)
  else if truthy glob then (c2p, glob)
  else (c2p, none)

/-- load.py:72-126. -/
def resolveOpts (loc glob : Given) : Used :=
  let v := pickVel (pickCut loc.c2p glob.c2p) loc.c2pVel glob.c2pVel
  { cuts := fun k => pickCut (loc.cuts k) (glob.cuts k)
    varNames := varNames loc.varname glob.varname
    c2p := v.1
    c2pVel := v.2 }

/-- An element of the sorting key: a string or an integer. -/
inductive Part where
  | str (s : Str)
  | num (n : Int)
  deriving DecidableEq

/-- `a < b`; `none` is the `TypeError` for a string and an integer. -/
def Part.lt? : Part → Part → Option Bool
  | .str a, .str b => some (decide (a < b))
  | .num a, .num b => some (decide (a < b))
  | _, _ => none

/-- `a < b` for tuples: the first position where they differ decides. -/
def keyLt : List Part → List Part → Option Bool
  | [], [] => some false
  | [], _ :: _ => some true
  | _ :: _, [] => some false
  | a :: as, b :: bs => if a = b then keyLt as bs else a.lt? b

/-- load.py:28-33 `_crush`; `none` is an exception. -/
def crush (s : Str) : Option (List Part) :=
  match (splitOn '_' s).getLast? with
  | none => none
  | some l =>
    match splitOn '.' l with
    | a :: b :: _ =>
      match pyInt a with
      | some n => some (((splitOn '_' s).dropLast.map Part.str) ++ [.num n, .str b])
      | none => none
    | _ => none

/-- Whether every comparison of two of the keys is defined. -/
def comparable (keys : List (List Part)) : Bool :=
  keys.all fun a => keys.all fun b => (keyLt a b).isSome

/-- The order by which the files are sorted. -/
def fileLe (a b : Str) : Bool :=
  match crush a, crush b with
  | some ka, some kb => keyLt kb ka != some true
  | _, _ => true

/-- load.py:70-77 sorting the files; an exception leaves them as they are.  (Simplification: an undefined comparison of
any two keys counts as an exception, although the sorting algorithm might never compare these two.) -/
def sortFiles (files : List Str) : List Str :=
  match files.mapM crush with
  | none => files
  | some keys => if comparable keys then files.mergeSort fileLe else files

/-- `f.find("restart") >= 0`. -/
def contains (sub : Str) : Str → Bool
  | [] => sub.isEmpty
  | c :: cs => sub.isPrefixOf (c :: cs) || contains sub cs

/-- load.py:66-81 the files of one string. -/
def filesOf (glob : Str → List Str) (s : Str) : List Str :=
  if '*' ∈ s ∨ '?' ∈ s ∨ '!' ∈ s then
    sortFiles ((glob s).filter fun f => !contains "restart".toList f)
  else [s]

/-- load.py:128-135 the datasets that are created, as (variable name, file name), in order. -/
def requests (glob : Str → List Str) (u : Used) (s : Str) : List (Str × Str) :=
  u.varNames.flatMap fun v => (filesOf glob s).map fun f => (v, f)

/-! ### Labels -/

/-- data_space.py:106-112 the parts of the name of a dataset. -/
def nameParts (fileName : Str) : List Str :=
  let ext := ((splitOn '.' fileName).getLastD []).length
  splitOn '_' (pySlice fileName 0 (-((ext : Int) + 1)))

/-- data_space.py:118-126: whether position `i` is used in the labels. -/
def included (names : List (List Str)) (longest : List Str) (i : Nat) : Bool :=
  names.any fun nm => match nm[i]? with
    | none => false
    | some p => longest[i]? != some p

/-- data_space.py:128-136 appending part `i` to a label. -/
def appendPart (label : Str) (nm : List Str) (i : Nat) : Str :=
  match nm[i]? with
  | none => label
  | some p => if label = [] then p else label ++ '_' :: p

/-- The longest of the names, the first one if there are several (data_space.py:116-117); `np.max([])` is a
`ValueError`. -/
def longestOf (names : List (List Str)) : Except Err (List Str) :=
  match names with
  | [] => .error .valueError
  | a :: as => .ok (as.foldl (fun m n => if m.length < n.length then n else m) a)

/-- data_space.py:116-138 the labels of all the names. -/
def uniqueLabels (names : List (List Str)) : Except Err (List Str) := do
  let longest ← longestOf names
  return names.map fun nm =>
    (List.range longest.length).foldl (fun l i => if included names longest i then appendPart l nm i else l) []

variable {F : Type}

/-- data_space.py:102-143 `set_unique_labels` on the active datasets of the store. -/
def setUniqueLabels (s : Space F) : Except Err (Space F) := do
  let items ← s.toList none false true .none
  let names := items.map fun e => nameParts (((s.heap[e.2]?).map GData.fileName).getD [])
  let labels ← uniqueLabels names
  return (items.zip labels).foldl (fun s e => s.update e.1.2 fun d => { d with label := e.2 }) s

end Cli
end Pgkyl
