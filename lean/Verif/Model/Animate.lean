import Verif.Model.DataSpace
import Verif.Model.Plot
import Mathlib.Data.Real.Basic
import Mathlib.Algebra.Order.Floor.Ring
import Mathlib.Algebra.Order.Archimedean.Basic
import Mathlib.Algebra.Order.Archimedean.Real.Basic
import Mathlib.Data.List.Dedup
/-!
# Model of `utils/set_frame.py` and `commands/animate.py`

Which datasets are drawn together, in which order, with which limits and into which files.  Numbers are real.
-/

namespace Pgkyl.Anim

abbrev Str := List Char

/-! ## set_frame.py -/

/-- `s.split(sub)[0]`: what comes before the first occurrence of the (non-empty) string `sub`. -/
def beforeSub (sub : Str) : Str → Str
  | [] => []
  | c :: s => if sub.isPrefixOf (c :: s) then [] else c :: beforeSub sub s

/-- set_frame.py:31 `min(files, key=len)`: the first of the shortest names. -/
def shortest : List Str → Option Str
  | [] => none
  | f :: fs => some (fs.foldl (fun m g => if g.length < m.length then g else m) f)

/-- set_frame.py:32-39: the smallest position within the shortest name where some name differs from it. -/
def firstDiff (files : List Str) (short : Str) : Option Nat :=
  (List.range short.length).find? fun j => files.any fun f => decide (short[j]? ≠ f[j]?)

/-- set_frame.py:44-46: the number at position `k` of a file name, up to the next underscore or the extension. -/
def frameIn (k : Nat) (f : Str) : Except Err Int :=
  intOrErr ((splitOn '_' ((beforeSub ".gkyl".toList f).drop k)).headD [])

/-- set_frame.py:25-47: the frames of a list of file names.  If no name differs, the position is infinite and no slice
index (`TypeError`). -/
def fileFrames (files : List Str) : Except Err (List Int) :=
  match shortest files with
  | none => .error .valueError
  | some short => match firstDiff files short with
    | none => .error .typeError
    | some k => files.mapM (frameIn k)

/-- set_frame.py:51-53: the frame of each dataset, by the index of the enumeration (which starts anew for every
tag and counts inactive datasets). -/
def assign (frames : List Int) (l : List (Nat × Nat)) : Except Err (List (Nat × Int)) :=
  l.mapM fun e => match frames[e.1]? with
    | some n => .ok (e.2, n)
    | none => .error .indexError

/-- set_frame.py:56 `np.unique(np.sort(frame_list))`. -/
def sortedDistinct (frames : List Int) : List Int := frames.dedup.mergeSort (fun a b => decide (a ≤ b))

/-- set_frame.py:5-57 `set_frame`: the frames assigned to the datasets (object and frame), and the list returned.
(Simplification: the assignment is returned instead of being stored in the metadata.) -/
def setFrame {F : Type} (s : Space F) : Except Err (List (Nat × Int) × List Int) := do
  let l ← s.toList none false true .none
  let frames ← fileFrames (l.map fun e => ((s.heap[e.2]?).map (·.fileName)).getD [])
  let a ← assign frames (← s.toList none true true .none)
  return (a, sortedDistinct frames)

/-! ## animate.py: limits -/

/-- Library: `np.percentile(v, q)` of a sorted array, with linear interpolation. -/
noncomputable def percentile (v : List ℝ) (q : ℝ) : Except Err ℝ :=
  if q < 0 ∨ 100 < q then .error .valueError
  else
    let x := q / 100 * (v.length - 1)
    match v[⌊x⌋₊]? with
    | none => .error .indexError
    | some a => match v[⌊x⌋₊ + 1]? with
      | none => .ok a
      | some b => .ok (a + (b - a) * (x - ⌊x⌋₊))

/-- animate.py:60-62: the variables of the loop. -/
structure Acc where
  range : Option (ℝ × ℝ) := none
  extrema : List ℝ := []
  dims : Option Nat := none

/-- animate.py:63-77, one dataset. -/
noncomputable def accum (yscale zscale : ℝ) (a : Acc) (d : GData ℝ) : Except Err Acc :=
  match d.values with
  | none => .error .typeError
  | some v => do
    let sc := if d.numDims = 1 then yscale else zscale
    let r ← Plot.widen sc a.range v.data
    let lo ← Plot.minOf (v.data.map (· * sc))
    let hi ← Plot.maxOf (v.data.map (· * sc))
    return ⟨r, a.extrema ++ [lo, hi], some d.numDims⟩

/-- animate.py:79-86: the limits with `--cutoffglobalrange c`. -/
noncomputable def cutoffRange (c : ℝ) (extrema : List ℝ) : Except Err (ℝ × ℝ) := do
  let v := extrema.mergeSort (fun a b => decide (a ≤ b))
  let b := 100 * (1 - c) / 2
  let hi ← percentile v (100 - b)
  let lo ← percentile v b
  return (lo, hi)

/-- animate.py:59-86 `globalrange`: the limits and the number of dimensions of the last dataset; without datasets that
number is unbound.  A cut-off of 0 counts as none. -/
noncomputable def globalrange (yscale zscale : ℝ) (cutoff : Option ℝ) (ds : List (GData ℝ)) :
    Except Err ((ℝ × ℝ) × Nat) := do
  let a ← ds.foldlM (accum yscale zscale) {}
  match a.range, a.dims with
  | some r, some n =>
    match cutoff with
    | some c => if c = 0 then return (r, n) else return (← cutoffRange c a.extrema, n)
    | none => return (r, n)
  | _, _ => .error .unboundLocal

/-- The limits among the arguments handed to `plot`. -/
structure Lim where
  ymin : Option ℝ := none
  ymax : Option ℝ := none
  zmin : Option ℝ := none
  zmax : Option ℝ := none

/-- animate.py:200-214: only missing limits are set. -/
def Lim.fill (l : Lim) (r : ℝ × ℝ) (dims : Nat) : Lim :=
  if dims = 1 then { l with ymin := l.ymin.or (some r.1), ymax := l.ymax.or (some r.2) }
  else { l with zmin := l.zmin.or (some r.1), zmax := l.zmax.or (some r.2) }

/-- animate.py:17-23: the limits are replaced. -/
def Lim.force (l : Lim) (r : ℝ × ℝ) (dims : Nat) : Lim :=
  if dims = 1 then { l with ymin := some r.1, ymax := some r.2 } else { l with zmin := some r.1, zmax := some r.2 }

/-- animate.py:246-257: the limits of a tag are put in; `yset` tells whether a one-dimensional tag came before. -/
def Lim.group (l : Lim) (yset : Bool) (r : ℝ × ℝ) (dims : Nat) : Lim × Bool :=
  if dims = 1 then (l.force r dims, true)
  else ((if yset then { l with ymin := none, ymax := none } else l).force r dims, yset)

/-! ## animate.py: frames -/

/-- The options that matter here; empty strings count as missing. -/
structure Opts where
  use : Option Tag := none
  float : Bool := false
  grouptags : Bool := false
  multiblock : Bool := false
  color : Bool := false
  lim : Lim := {}
  yscale : ℝ := 1
  zscale : ℝ := 1
  cutoff : Option ℝ := none
  saveframes : Option Str := none
  save : Bool := false
  saveas : Option Str := none
  show_ : Bool := true

/-- One picture: the figure and the frame it belongs to, the datasets drawn and the limits. -/
structure Shown where
  fig : Nat
  frame : Nat
  ids : List Nat
  lim : Lim

/-- What a run produces: files of single frames, films, and what is shown on the screen. -/
structure Result where
  images : List (Str × Shown) := []
  films : List (Str × List Shown) := []
  screen : List Shown := []

/-- The objects with the given names. -/
def objects (s : Space ℝ) (ids : List Nat) : List (GData ℝ) := ids.filterMap fun i => s.heap[i]?

/-- animate.py:15-24: the limits of one picture. -/
noncomputable def frameLim (o : Opts) (s : Space ℝ) (l : Lim) (ids : List Nat) : Except Err Lim :=
  if o.multiblock && o.float then do
    let r ← globalrange o.yscale o.zscale o.cutoff (objects s ids)
    return l.force r.1 r.2
  else .ok l

/-- animate.py:10-54 `_update`: the limits afterwards.  Nothing to draw leaves `im` unbound. -/
noncomputable def update (o : Opts) (s : Space ℝ) (l : Lim) (ids : List Nat) : Except Err Lim := do
  let l ← frameLim o s l ids
  if ids = [] then .error .unboundLocal else .ok l

/-- The frames of one figure drawn one after the other, starting with frame number `i`. -/
noncomputable def drawFrom (o : Opts) (s : Space ℝ) (fig : Nat) (i : Nat) (l : Lim) :
    List (List Nat) → Except Err (Lim × List Shown)
  | [] => .ok (l, [])
  | ids :: rest => do
    let l ← update o s l ids
    let r ← drawFrom o s fig (i + 1) l rest
    return (r.1, ⟨fig, i, ids, l⟩ :: r.2)

/-- animate.py:288: `f"{saveframes}_{i}.png"`. -/
def imageName (p : Str) (i : Nat) : Str := p ++ '_' :: Nat.toDigits 10 i ++ ".png".toList

/-- animate.py:267-291 and its two copies: one figure with the frames `frames`; `name` is the default name of the film.
The limits are those of the moment. -/
noncomputable def figure (o : Opts) (s : Space ℝ) (fig : Nat) (name : Str) (l : Lim) (frames : List (List Nat)) :
    Except Err (Lim × Result) :=
  match o.saveframes with
  | some (c :: cs) => do
    let r ← drawFrom o s fig 0 l frames
    return (r.1, { images := r.2.map fun p => (imageName (c :: cs) p.frame, p) })
  | _ =>
    match o.saveas with
    | some (c :: cs) => do
      let r ← drawFrom o s fig 0 l frames
      return (r.1, { films := [(c :: cs, r.2)] })
    | _ => if o.save then do
        let r ← drawFrom o s fig 0 l frames
        return (r.1, { films := [(name, r.2)] })
      else .ok (l, {})

/-- Pictures on the screen: every figure, at the end, with the limits then in force.
(Simplification: the figures are drawn one after the other.) -/
noncomputable def screen (o : Opts) (s : Space ℝ) : Nat → Lim → List (List (List Nat)) → Except Err (List Shown)
  | _, _, [] => .ok []
  | fig, l, frames :: rest => do
    let r ← drawFrom o s fig 0 l frames
    let q ← screen o s (fig + 1) r.1 rest
    return r.2 ++ q

/-- animate.py:369-371, and line 290 (and its copies): single frames switch the screen off. -/
noncomputable def finish (o : Opts) (s : Space ℝ) (l : Lim) (figs : List (List (List Nat))) (r : Result) :
    Except Err Result :=
  match o.saveframes with
  | some (_ :: _) => .ok r
  | _ => if o.show_ then do return { r with screen := ← screen o s 0 l figs } else .ok r

/-- animate.py:243-292: the loop over the tags with `--grouptags`; `n` is the number of frames. -/
noncomputable def groupTags (o : Opts) (s : Space ℝ) (n : Nat) :
    Nat → Bool → Lim → List (List (List Nat)) → Result → List Tag → Except Err Result
  | _, _, l, figs, r, [] => finish o s l figs r
  | fig, yset, l, figs, r, t :: ts => do
    let ids := (← s.toList (some t) false true .none).map (·.2)
    let g ← globalrange o.yscale o.zscale o.cutoff (objects s ids)
    let ly := l.group yset g.1 g.2
    let frames := (ids.map fun i => [i]).take n
    let q ← figure o s fig ("anim_".toList ++ t ++ ".mp4".toList) ly.1 frames
    groupTags o s n (fig + 1) ly.2 q.1 (figs ++ [frames])
      { r with images := r.images ++ q.2.images, films := r.films ++ q.2.films } ts

/-- animate.py:198-215. -/
noncomputable def initialLim (o : Opts) (s : Space ℝ) : Except Err Lim :=
  if !o.float && !o.grouptags then do
    let ids := (← s.toList o.use false true .none).map (·.2)
    let g ← globalrange o.yscale o.zscale o.cutoff (objects s ids)
    return o.lim.fill g.1 g.2
  else .ok o.lim

/-- animate.py:297-305: the datasets of each frame; the frame of a dataset is its last assignment. -/
def blockFrames (a : List (Nat × Int)) (frames : List Int) (ids : List Nat) : List (List Nat) :=
  frames.map fun n => ids.filter fun i => decide ((a.find? fun e => e.1 = i).map (·.2) = some n)

/-- animate.py:309: without a colour the first dataset of the first frame is looked at. -/
def needFirst (o : Opts) (frames : List (List Nat)) : Except Err Unit :=
  if o.color then .ok () else
    match frames with
    | (_ :: _) :: _ => .ok ()
    | _ => .error .indexError

/-- animate.py:294-305, 337-340: the datasets of each picture without `--grouptags`. -/
def framesOf (o : Opts) (s : Space ℝ) (ids : List Nat) : Except Err (List (List Nat)) :=
  if o.multiblock then do
    let f ← setFrame s
    needFirst o (blockFrames f.1 f.2 ids)
    return blockFrames f.1 f.2 ids
  else .ok (ids.map fun i => [i])

/-- animate.py:198-372 the command `animate`. -/
noncomputable def animate (o : Opts) (s : Space ℝ) : Except Err Result := do
  let l ← initialLim o s
  if o.grouptags then do
    let tags ← s.tagIterator o.use true
    let ns ← tags.mapM fun t => s.getNumDatasets (some t) true
    groupTags o s (ns.min?.getD 0) 0 false l [] {} tags
  else do
    let ids := (← s.toList o.use false true .none).map (·.2)
    let frames ← framesOf o s ids
    let q ← figure o s 0 "anim.mp4".toList l frames
    finish o s q.1 [frames] q.2

end Pgkyl.Anim
