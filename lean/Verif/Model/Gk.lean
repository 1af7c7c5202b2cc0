import Verif.Model.DataSpace
/-!
# Model of the gyrokinetic utilities

Block lists (`src/postgkyl/utils/gk_utils.py`), particle and energy balance
(`src/postgkyl/commands/gk_particle_balance.py`, `gk_energy_balance.py`), frames and node reconstruction of
`src/postgkyl/commands/gk_distf.py`.  Plotting and messages are not modelled.
-/

namespace Pgkyl
namespace Gk

abbrev Str := List Char

/-- gk_utils.py:12 `max_num_blocks`. -/
def maxNumBlocks : Nat := 10000

/-- gk_utils.py:75-87 `parse_slice_string`: the arguments given to `slice`; with a single part that is the stop.
More than three parts are a TypeError of `slice`. -/
def parseSliceString (value : Str) : Except Err (Option Int × Option Int × Option Int) := do
  let parts ← (splitOn ':' value).mapM optInt
  match parts with
  | [b] => return (none, b, none)
  | [a, b] => return (a, b, none)
  | [a, b, c] => return (a, b, c)
  | _ => .error .typeError

/-- gk_utils.py:123-124: `list(range(*slice_obj.indices(max_num_blocks)))`. -/
def sliceBlocks (value : Str) : Except Err (List Int) := do
  let (a, b, c) ← parseSliceString value
  return (← sliceIndices maxNumBlocks a b c).map Int.ofNat

/-- gk_utils.py:89-130 `get_block_indices`; `numFiles` is the number of files the pattern matches.  The
NameError is `Err.fail`. -/
def getBlockIndices (multib : Str) (numFiles : Nat) : Except Err (List Int) :=
  if multib = "-10".toList then .ok [0]
  else if multib = "-1".toList then .ok ((List.range numFiles).map Int.ofNat)
  else if ',' ∈ multib then (splitOn ',' multib).mapM intOrErr
  else if ':' ∈ multib then sliceBlocks multib
  else match pyInt multib with
    | some i => .ok [i]
    | none => .error .fail

/-- gk_particle_balance.py:172-204 and gk_energy_balance.py:183-217: the list of blocks in the balance commands.
A single number is rejected (NameError, `Err.fail`). -/
def balanceBlocks (multib : Str) (numFiles : Nat) : Except Err (List Int) :=
  if multib = "-10".toList then .ok [0]
  else if multib = "-1".toList then .ok ((List.range numFiles).map Int.ofNat)
  else if ',' ∈ multib then (splitOn ',' multib).mapM intOrErr
  else if ':' ∈ multib then sliceBlocks multib
  else .error .fail

/-! ## Balances -/

/-- What `GData` gives for a file of integrated moments: the times and one row of moments per time. -/
structure Series (F : Type) where
  time : List F
  rows : List (List F)
  deriving DecidableEq, Repr

section balance
variable {F : Type} [Add F] [Sub F] [Mul F] [Div F] [Neg F] [Zero F]

/-- `np.squeeze(val)[:, k]` (gk_particle_balance.py:122, 253-261): a table with a single row or a single column
loses that axis, and then has no second index. -/
def column (k : Nat) (s : Series F) : Except Err (List F) :=
  if s.rows.length = 1 ∨ (s.rows.headD []).length = 1 then .error .indexError
  else s.rows.mapM fun r =>
    match r[k]? with
    | some x => .ok x
    | none => .error .indexError

/-- `np.squeeze(val)` of a table with one column (gk_energy_balance.py:240-243).  Simplification: tables with
more columns, which would be broadcast, are a ValueError. -/
def onlyColumn (s : Series F) : Except Err (List F) :=
  s.rows.mapM fun r =>
    match r with
    | [x] => .ok x
    | _ => .error .valueError

/-- `a + b` of two arrays of one axis (NumPy library).  Simplification: no broadcasting of arrays of length 1
(they do not occur: `column` rejects them). -/
def addArr (a b : List F) : Except Err (List F) :=
  if a.length = b.length then .ok (List.zipWith (· + ·) a b) else .error .valueError

/-- `a - b` (NumPy library), as `addArr`. -/
def subArr (a b : List F) : Except Err (List F) :=
  if a.length = b.length then .ok (List.zipWith (· - ·) a b) else .error .valueError

/-- `a * b` (NumPy library), as `addArr`. -/
def mulArr (a b : List F) : Except Err (List F) :=
  if a.length = b.length then .ok (List.zipWith (· * ·) a b) else .error .valueError

/-- `a / b` (NumPy library), as `addArr`. -/
def divArr (a b : List F) : Except Err (List F) :=
  if a.length = b.length then .ok (List.zipWith (· / ·) a b) else .error .valueError

/-- gk_particle_balance.py:142-150 `accumulate_or_assign`. -/
def accumulate (target : Option (List F)) (x : List F) : Except Err (List F) :=
  match target with
  | none => .ok x
  | some t => addArr t x

/-- The files of the options of the command (gk_particle_balance.py:15-40, gk_energy_balance.py:15-44).  The options for files,
except `--dt_file`, may be given several times, so that their values are tuples of names. -/
structure Files where
  path : Str
  name : Str
  fdot : List Str := []
  source : List Str := []
  /-- The six boundary files, in the order x lower, x upper, y lower, ... -/
  bflux : List (List Str) := [[], [], [], [], [], []]
  fieldDot : List Str := []
  field : List Str := []
  f : List Str := []
  /-- An empty name is the same as none. -/
  dt : Str := []

/-- `s.replace("*", r)`. -/
def replaceStar (s r : Str) : Str := s.flatMap fun c => if c = '*' then r else [c]

/-- gk_particle_balance.py:172-180: the beginning of all default file names, with a star for the block. -/
def prefixStar (o : Files) (multib : Str) : Str :=
  if multib = "-10".toList then o.path ++ '/' :: o.name ++ "-".toList
  else o.path ++ '/' :: o.name ++ "_b*-".toList

/-- gk_particle_balance.py:211: the beginning of the default file names of block number `b`. -/
def blockPrefix (o : Files) (multib : Str) (b : Nat) : Str :=
  replaceStar (prefixStar o multib) (pyStr b)

/-- gk_particle_balance.py:216-219, gk_energy_balance.py:247-250 and the like: the name of a file.  A value of the option is a tuple
of names, which has no method `replace` (AttributeError); without one the default is taken. -/
def optFile (over : List Str) (dflt : Str) : Except Err Str :=
  match over with
  | [] => .ok dflt
  | _ :: _ => .error .attributeError

/-- gk_particle_balance.py:336-339, gk_energy_balance.py:383-386: the file of the time steps. -/
def dtFileOf (o : Files) : Str :=
  if o.dt ≠ [] then o.path ++ '/' :: o.dt else o.path ++ '/' :: o.name ++ "-dt.gkyl".toList

/-- The labels of the six boundaries (gk_particle_balance.py:92-93, 234-235). -/
def boundaries : List Str :=
  ["xlower", "xupper", "ylower", "yupper", "zlower", "zupper"].map String.toList

/-- What one species contributes in one block. -/
structure Term (F : Type) where
  timeFdot : List F
  fdot : List F
  /-- The times of the source, if there is one. -/
  timeSrc : Option (List F)
  src : List F
  /-- The times of the boundary fluxes there are. -/
  timeBflux : List (List F)
  bflux : List F

/-- gk_particle_balance.py:254-276, gk_energy_balance.py:297-320: the moments selected and the boundaries
added. -/
def termOf (k : Nat) (fdot : Series F) (src : Option (Series F)) (bfl : List (Series F)) : Except Err (Term F) := do
  let fd ← column k fdot
  let sr ← match src with
    | some s => column k s
    | none => pure (fd.map fun x => 0 * x)
  let bs ← bfl.mapM (column k)
  let bf ← match bs with
    | [] => pure (fd.map fun x => 0 * x)
    | b :: bs => bs.foldlM addArr b
  return { timeFdot := fdot.time, fdot := fd, timeSrc := src.map (·.time), src := sr,
           timeBflux := bfl.map (·.time), bflux := bf }

/-- The sums over blocks (and species). -/
structure Sums (F : Type) where
  fdot : Option (List F) := none
  src : Option (List F) := none
  bflux : Option (List F) := none
  fieldDot : Option (List F) := none
  /-- The last term loaded: its times are used for the output. -/
  last : Option (Term F) := none
  /-- The times of the field energy loaded last. -/
  timeField : List F := []

/-- gk_particle_balance.py:278-281. -/
def Sums.add (s : Sums F) (t : Term F) : Except Err (Sums F) := do
  let fd ← accumulate s.fdot t.fdot
  let sr ← accumulate s.src t.src
  let bf ← accumulate s.bflux t.bflux
  return { s with fdot := some fd, src := some sr, bflux := some bf, last := some t }

/-- gk_particle_balance.py:233-241, gk_energy_balance.py:272-280: the file of a boundary.  `pre` is the beginning of the default
names. -/
def bfluxFile (pre : Str) (x : Str × List Str) : Except Err Str :=
  optFile x.2 (pre ++ "_bflux_".toList ++ x.1 ++ "_integrated_HamiltonianMoments.gkyl".toList)

/-- gk_particle_balance.py:215-276, gk_energy_balance.py:246-305: moment `k` of one species in one block. -/
def speciesTerm (k : Nat) (fs : Str → Option (Series F)) (o : Files) (pre : Str) : Except Err (Term F) := do
  let ff ← optFile o.fdot (pre ++ "_fdot_integrated_moms.gkyl".toList)
  match fs ff with
  | none => .error .osError
  | some fdot => do
    let sf ← optFile o.source (pre ++ "_source_integrated_moms.gkyl".toList)
    let bf ← (boundaries.zip o.bflux).mapM (bfluxFile pre)
    termOf k fdot (fs sf) (bf.filterMap fs)

/-- gk_particle_balance.py:211-276 for one block. -/
def particleTerm (fs : Str → Option (Series F)) (o : Files) (multib spec : Str) (b : Nat) : Except Err (Term F) :=
  speciesTerm 0 fs o (blockPrefix o multib b ++ spec)

/-- The result of a balance: the datasets added to the stack, as tag, times and values.  The times of the
boundary fluxes are a list of arrays, one for each boundary; of the others one array, which is pushed as it is
(here: a list with that array). -/
structure Added (F : Type) where
  tag : String
  times : List (List F)
  values : List F
  deriving DecidableEq, Repr

/-- `src[0] = 0.0` (gk_particle_balance.py:292). -/
def zeroFirst (a : List F) : Except Err (List F) :=
  match a with
  | [] => .error .indexError
  | _ :: as => .ok (0 :: as)

/-- gk_particle_balance.py:209-281: the loop over the blocks. -/
def particleSums (fs : Str → Option (Series F)) (o : Files) (multib spec : Str) (numBlocks : Nat) :
    Except Err (Sums F) :=
  (List.range numBlocks).foldlM (fun s b => do s.add (← particleTerm fs o multib spec b)) {}

/-- gk_particle_balance.py:288-341 and gk_energy_balance.py:331-386: all terms of the balance.  `field` is the
energy of the field, taken out of `fdot`.  Without a block the names are unbound (`src[0]` is a TypeError). -/
def balanceOut (s : Sums F) : Except Err (List (Added F)) :=
  match s.fdot, s.src, s.bflux, s.last with
  | some fdot, some src, some bflux, some t => do
    let src ← zeroFirst src
    let d ← match s.fieldDot with
      | none => pure fdot
      | some fd => subArr fdot fd
    let err ← subArr (← subArr src bflux) d
    return [⟨"fdot", [t.timeFdot], fdot⟩]
      ++ (match t.timeSrc with | some ts => [⟨"src", [ts], src⟩] | none => [])
      ++ (if t.timeBflux = [] then [] else [⟨"bflux", t.timeBflux, bflux.map fun x => -x⟩])
      ++ (match s.fieldDot with | some fd => [⟨"field_dot", [s.timeField], fd⟩] | none => [])
      ++ [⟨"err", [t.timeFdot], err⟩]
  | _, _, _, _ => .error .typeError

/-- gk_particle_balance.py:171-203, gk_energy_balance.py:183-217: the blocks.  To find all of them with a value of `--fdot_file`, a
tuple is added to the path (TypeError). -/
def blocksFor (o : Files) (multib : Str) (numFiles : Nat) : Except Err (List Int) :=
  if multib = "-1".toList ∧ o.fdot ≠ [] then .error .typeError else balanceBlocks multib numFiles

/-- gk_particle_balance.py, without the relative error: blocks, sums, output. -/
def particleBalance (fs : Str → Option (Series F)) (o : Files) (multib spec : Str) (numFiles : Nat) :
    Except Err (List (Added F)) := do
  let blocks ← blocksFor o multib numFiles
  balanceOut (← particleSums fs o multib spec blocks.length)

/-- gk_particle_balance.py:350-356, gk_energy_balance.py:410-419: moment `k` of a species in a block. -/
def momentOf (k : Nat) (fs : Str → Option (Series F)) (o : Files) (pre : Str) : Except Err (List F) := do
  let f ← optFile o.f (pre ++ "_integrated_moms.gkyl".toList)
  match fs f with
  | none => .error .typeError
  | some s => column k s

/-- gk_particle_balance.py:354-371: the integrated moment 0 of the species, summed over the blocks. -/
def particleTotal (fs : Str → Option (Series F)) (o : Files) (multib spec : Str) (numBlocks : Nat) :
    Except Err (Option (List F)) :=
  (List.range numBlocks).foldlM (fun (acc : Option (List F)) b => do
    return some (← accumulate acc (← momentOf 0 fs o (blockPrefix o multib b ++ spec)))) none

/-- gk_particle_balance.py:343-383: the relative error.  The values of the time steps have one column. -/
def particleRelError (fs : Str → Option (Series F)) (o : Files) (multib spec : Str) (numFiles : Nat) :
    Except Err (List (Added F)) := do
  let blocks ← blocksFor o multib numFiles
  let s ← particleSums fs o multib spec blocks.length
  match fs (dtFileOf o) with
  | none => .error .attributeError
  | some dt => do
    let total ← particleTotal fs o multib spec blocks.length
    match s.fdot, s.src, s.bflux, total with
    | some fdot, some src, some bflux, some total => do
      let err ← subArr (← subArr src.tail bflux.tail) fdot.tail
      let rel ← divArr (← mulArr err (← onlyColumn dt)) total.tail
      return [⟨"rel_err", [dt.time], rel⟩]
    | _, _, _, _ => .error .typeError

/-- gk_energy_balance.py:248-296 for one species in one block: the moment number 2. -/
def energyTerm (fs : Str → Option (Series F)) (o : Files) (multib : Str) (b : Nat) (spec : Str) :
    Except Err (Term F) :=
  speciesTerm 2 fs o (blockPrefix o multib b ++ spec)

/-- gk_energy_balance.py:246-327 for one block: the species are added up first, then the block is added. -/
def energyBlock (fs : Str → Option (Series F)) (o : Files) (multib : Str) (specs : List Str) (s : Sums F)
    (b : Nat) : Except Err (Sums F) := do
  let ff ← optFile o.fieldDot (blockPrefix o multib b ++ "field_energy_dot.gkyl".toList)
  match fs ff with
  | none => .error .osError
  | some fd => do
    let fdv ← onlyColumn fd
    let ps ← specs.foldlM (fun (p : Sums F) spec => do p.add (← energyTerm fs o multib b spec)) {}
    let fieldDot ← accumulate s.fieldDot fdv
    match ps.fdot, ps.src, ps.bflux with
    | some f, some sr, some bf => do
      let f ← accumulate s.fdot f
      let sr ← accumulate s.src sr
      let bf ← accumulate s.bflux bf
      return { fdot := some f, src := some sr, bflux := some bf, fieldDot := some fieldDot, last := ps.last,
               timeField := fd.time }
    | _, _, _ => .error .typeError

/-- gk_energy_balance.py, without the relative error.  `species` is the comma-separated option. -/
def energyBalance (fs : Str → Option (Series F)) (o : Files) (multib species : Str) (numFiles : Nat) :
    Except Err (List (Added F)) := do
  let blocks ← blocksFor o multib numFiles
  balanceOut (← (List.range blocks.length).foldlM (energyBlock fs o multib (splitOn ',' species)) {})

/-- gk_energy_balance.py:418-428: the moment 2 of one species in one block. -/
def energyMoment (fs : Str → Option (Series F)) (o : Files) (multib : Str) (b : Nat) (spec : Str) :
    Except Err (List F) :=
  momentOf 2 fs o (blockPrefix o multib b ++ spec)

/-- gk_energy_balance.py:401-432 for one block: the field energy, and the moment 2 of all species. -/
def energyTotalStep (fs : Str → Option (Series F)) (o : Files) (multib : Str) (specs : List Str)
    (acc : Option (List F) × Option (List F)) (b : Nat) : Except Err (Option (List F) × Option (List F)) := do
  let ff ← optFile o.field (blockPrefix o multib b ++ "field_energy.gkyl".toList)
  match fs ff with
  | none => .error .indexError
  | some fld => do
    let pb ← specs.foldlM (fun (p : Option (List F)) spec => do
      return some (← accumulate p (← energyMoment fs o multib b spec))) none
    match pb with
    | none => .error .typeError
    | some pb => do
      return (some (← accumulate acc.1 (← onlyColumn fld)), some (← accumulate acc.2 pb))

/-- gk_energy_balance.py:398-432: the sums over the blocks. -/
def energyTotal (fs : Str → Option (Series F)) (o : Files) (multib : Str) (specs : List Str) (numBlocks : Nat) :
    Except Err (Option (List F) × Option (List F)) :=
  (List.range numBlocks).foldlM (energyTotalStep fs o multib specs) (none, none)

/-- gk_energy_balance.py:388-447: the relative error. -/
def energyRelError (fs : Str → Option (Series F)) (o : Files) (multib species : Str) (numFiles : Nat) :
    Except Err (List (Added F)) := do
  let blocks ← blocksFor o multib numFiles
  let specs := splitOn ',' species
  let s ← (List.range blocks.length).foldlM (energyBlock fs o multib specs) {}
  match fs (dtFileOf o) with
  | none => .error .attributeError
  | some dt => do
    let (field, total) ← energyTotal fs o multib specs blocks.length
    match s.fdot, s.src, s.bflux, s.fieldDot, field, total with
    | some fdot, some src, some bflux, some fieldDot, some field, some total => do
      let err ← subArr (← subArr src.tail bflux.tail) (← subArr fdot.tail fieldDot.tail)
      let rel ← divArr (← mulArr err (← onlyColumn dt)) (← subArr total.tail field.tail)
      return [⟨"rel_err", [dt.time], rel⟩]
    | _, _, _, _, _, _ => .error .typeError

end balance

/-! ## gk_distf -/

/-- The name of a file after `removeprefix(stem)[:-5]` (gk_distf.py:208-209). -/
def frameText (stem f : Str) : Str :=
  let r := if stem.isPrefixOf f then f.drop stem.length else f
  r.take (r.length - 5)

/-- Sorting a set of numbers: insertion without duplicates (`sorted({...})`, gk_distf.py:207-211). -/
def insertNew (n : Nat) : List Nat → List Nat
  | [] => [n]
  | m :: ms => if n < m then n :: m :: ms else if n = m then m :: ms else m :: insertNew n ms

/-- gk_distf.py:207-211: the numbers of the frames for which there are files.  `files` is what `glob` returns. -/
def available (stem : Str) (files : List Str) : List Nat :=
  (files.filterMap fun f =>
    if isDigitStr (frameText stem f) then some (natOfDigits (frameText stem f)) else none).foldr insertNew []

/-- gk_distf.py:214: `int(parts[0]) if parts[0] else available[0]`. -/
def frameLower (p : Str) (av : List Nat) : Except Err Int :=
  if p ≠ [] then intOrErr p else
    match av.head? with
    | some n => .ok (n : Int)
    | none => .error .indexError

/-- gk_distf.py:215: `int(parts[1]) if parts[1] else available[-1] + 1`. -/
def frameUpper (p : Str) (av : List Nat) : Except Err Int :=
  if p ≠ [] then intOrErr p else
    match av.getLast? with
    | some n => .ok ((n : Int) + 1)
    | none => .error .indexError

/-- gk_distf.py:216: `int(parts[2]) if len(parts) == 3 and parts[2] else 1`; `rest` are the parts from number 2. -/
def frameStep (rest : List Str) : Except Err Int :=
  match rest with
  | [p2] => if p2 ≠ [] then intOrErr p2 else .ok 1
  | _ => .ok 1

/-- gk_distf.py:196-218: the frames to load.  Simplification: no blanks in the text (`strip`).  A step of 0 is
a ZeroDivisionError (`Err.fail`) as soon as a frame passes the bounds. -/
def frames (spec stem : Str) (files : List Str) : Except Err (List Int) :=
  if ',' ∈ spec then (splitOn ',' spec).mapM intOrErr
  else if ':' ∉ spec then do return [← intOrErr spec]
  else
    let av := available stem files
    match splitOn ':' spec with
    | p0 :: p1 :: rest => do
      let lower ← frameLower p0 av
      let upper ← frameUpper p1 av
      let step ← frameStep rest
      let inside := (av.map Int.ofNat).filter fun f => lower ≤ f ∧ f < upper
      if step = 0 ∧ inside ≠ [] then .error .fail
      else return inside.filter fun f => (f - lower) % step = 0
    | _ => .error .indexError

section nodes
variable {F : Type} [Add F] [Sub F] [Mul F] [Div F] [NatCast F]

/-- gk_distf.py:29-36 `_convert_cell_centered_to_nodal`: the nodes between neighbouring centres are their
midpoints; the first and last node mirror the next one in the first and last centre.  With one centre
`nodes[1]` is the last node, still 0 when it is used. -/
def toNodal (zero : F) (half : F) (c : List F) : Except Err (List F) :=
  match c.head?, c.getLast? with
  | some c0, some cl =>
    let mid := List.zipWith (fun a b => half * (a + b)) c.dropLast c.tail
    match mid.head?, mid.getLast? with
    | some m0, some ml => .ok ([c0 + (c0 - m0)] ++ mid ++ [cl + (cl - ml)])
    | _, _ =>
      let n0 := c0 + (c0 - zero)
      .ok [n0, cl + (cl - n0)]
  | _, _ => .error .indexError

end nodes

end Gk
end Pgkyl
