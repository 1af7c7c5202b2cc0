import Verif.Model.Bytes
/-!
# Model of `src/postgkyl/data/gkyl_reader.py`

Float values are opaque words (`Word`); bounds arithmetic is done on demand over a field `F` through
a decoding function.  `unpack` (the msgpack library) is a parameter: it returns `none` when the
decoded object is not a dictionary.
-/

namespace Pgkyl
namespace GkylReader

variable {V : Type}

/-- gkyl_reader.py:156, 103,107,121,108,48 -/
def magic : Bytes := [103, 107, 121, 108, 48]

/-- What the reader is given besides the file: gkyl_reader.py:136-150.  `idxs` are the seven strings
`partial_idxs` (`""` when no restriction), `partialLoad` whether any restriction was given. -/
structure Cfg where
  partialLoad : Bool := false
  idxs : List (List Char) := List.replicate 7 []

/-- gkyl_reader.py:136-150 `__init__`: build the partial-load strings from the optional axis
strings (already passed through `str`) and the optional component string. -/
def Cfg.make (axes : List (Option (List Char))) (comp : Option (List Char)) : Cfg where
  partialLoad := axes.any Option.isSome || comp.isSome
  idxs := (List.range 6).map (fun i => ((axes[i]?).getD none).getD []) ++ [comp.getD []]

/-- Mutable reader state: gkyl_reader.py:113-131 (`dof` is `doffset`, the size of `dtf`). -/
structure St (V : Type) where
  offset : Nat := 0
  dof : Nat := 8
  fileType : Int := 1
  version : Int := 0
  ctx : Dict V := []

/-- gkyl_reader.py:152-165 `is_compatible`: the version found, or `none` for `False`. -/
def compatible (f : Bytes) : Option Int :=
  if f.take 5 = magic then
    match readI f 5 with
    | .ok v => some v
    | .error _ => none
  else none

/-- gkyl_reader.py:189-198: one metadata entry; `tt` is the value `True`. -/
def metaStep (tt : V) (ctx : Dict V) (kv : String × V) : Dict V :=
  if kv.1 = "polyOrder" ∨ kv.1 = "poly_order" then ctx.set "poly_order" kv.2
  else if kv.1 = "basisType" ∨ kv.1 = "basis_type" then
    (ctx.set "basis_type" kv.2).set "is_modal" tt
  else ctx.set kv.1 kv.2

/-- gkyl_reader.py:184-202: the metadata block. -/
def readMeta (unpack : Bytes → Except Err (Option (Dict V))) (tt : V) (f : Bytes) (st : St V)
    (metaSize : Int) : Except Err (St V) :=
  if 0 < metaSize then do
    let unp ← unpack ((f.drop st.offset).take metaSize.toNat)
    let off ← advance st.offset metaSize
    return { st with
      ctx := match unp with
        | some d => d.foldl (metaStep tt) st.ctx
        | none => st.ctx
      offset := off }
  else return st

/-- gkyl_reader.py:169-212 `_read_header`. -/
def readHeader (unpack : Bytes → Except Err (Option (Dict V))) (tt : V) (f : Bytes) (st : St V) :
    Except Err (St V) := do
  let st ← (match compatible f with
    | some _ => do
      let v ← readI f (st.offset + 5)
      let t ← readI f (st.offset + 13)
      let m ← readI f (st.offset + 21)
      readMeta unpack tt f { st with offset := st.offset + 29, version := v, fileType := t } m
    | none => .ok st)
  let rt ← readI f st.offset
  return { st with
    dof := if rt = 1 then 4 else st.dof
    offset := st.offset + 8 }

/-- Domain information: gkyl_reader.py:214-290.  `lower`/`upper` are the stored words; the shift by
the partial load is `Dom.boundsF` below. -/
structure Dom where
  numDims : Nat
  cells : List Int
  lower : List Word
  upper : List Word
  numComps : Int
  asize : Int
  origCells : List Int
  origComps : Int
  globOffs : List (Int × Int)
  compOffs : Int × Int
  deriving DecidableEq, Repr

/-- gkyl_reader.py:252-267 and 269-282: one restriction string for an axis of `n` elements gives
the numbers of elements left out before and after. -/
def parseRestr (n : Int) (sl : List Char) : Except Err (Int × Int) :=
  if isDigitStr sl then .ok (natOfDigits sl, n - natOfDigits sl - 1)
  else if ':' ∈ sl then
    match splitOn ':' sl with
    | [start, stop] => do
      let g0 ← (if start = [] then .ok 0 else
        match pyInt start with
        | some z => .ok z
        | none => .error .valueError)
      let g1 ← (if stop = [] then .ok 0 else
        match pyInt stop with
        | some z => .ok (if 0 < z then n - z else -z)
        | none => .error .valueError)
      return (g0, g1)
    | _ => .error .valueError
  else .ok (0, 0)

/-- gkyl_reader.py:252-267: the loop over the axes. -/
def parseAxes : List Int → List (List Char) → Except Err (List (Int × Int))
  | [], _ => .ok []
  | _ :: _, [] => .error .indexError
  | n :: ns, s :: ss => do
    let g ← parseRestr n s
    let gs ← parseAxes ns ss
    return g :: gs

/-- gkyl_reader.py:214-290 `_read_t1t3_v1_domain`.  Simplifications: `int(raw / doffset)` is exact
truncating division (the code goes through a float); a negative number of dimensions is an error. -/
def readDomain (cfg : Cfg) (f : Bytes) (st : St V) : Except Err (Dom × St V) := do
  let nd ← readI f st.offset
  if nd < 0 then .error .valueError else
  let n := nd.toNat
  let o1 := st.offset + 8
  let cells := readIs f n o1
  let o2 := o1 + n * 8
  let lower := fromfile f st.dof n o2
  let o3 := o2 + n * st.dof
  let upper := fromfile f st.dof n o3
  let o4 := o3 + n * st.dof
  let raw ← readI f o4
  let nc := raw.tdiv st.dof
  let asize ← readI f (o4 + 8)
  let st' : St V := { st with offset := o4 + 16 }
  if cfg.partialLoad then do
    let gs ← parseAxes cells cfg.idxs
    let cg ← parseRestr nc (cfg.idxs.getD 6 [])
    return ({ numDims := n, cells := List.zipWith (fun c g => c - (g.2 + g.1)) cells gs,
              lower, upper, numComps := nc - (cg.2 + cg.1), asize,
              origCells := cells, origComps := nc, globOffs := gs, compOffs := cg }, st')
  else
    return ({ numDims := n, cells, lower, upper, numComps := nc, asize,
              origCells := cells, origComps := nc,
              globOffs := cells.map fun _ => (0, 0), compOffs := (0, 0) }, st')

/-- One remaining axis of `_get_block`: elements skipped before/after, stored elements, read cells
(gkyl_reader.py:292-296 `dim_offsets`, `num_elems`, `cells`; all are non-negative there). -/
structure BlockDim where
  off0 : Nat
  off1 : Nat
  num : Nat
  cells : Nat
  deriving DecidableEq, Repr

/-- State of `_get_block`: file offset, output buffer and position in it. -/
structure BlkSt where
  offset : Nat
  idx : Nat
  out : List Word

/-- `out[idx : idx+n] = ws` (gkyl_reader.py:301): the lengths must agree, except that NumPy copies a
single value to the whole slice. -/
def assignSlice (out : List Word) (idx n : Nat) (ws : List Word) : Except Err (List Word) :=
  let hi := min (idx + n) out.length
  let len := hi - min idx out.length
  if ws.length = len then .ok (out.take idx ++ ws ++ out.drop hi)
  else if ws.length = 1 then .ok (out.take idx ++ List.replicate len (ws.headD []) ++ out.drop hi)
  else .error .valueError

/-- `for _ in range(n)` with an exception-throwing body. -/
def iterM {α : Type} : Nat → (α → Except Err α) → α → Except Err α
  | 0, _, s => .ok s
  | n + 1, g, s => do iterM n g (← g s)

/-- gkyl_reader.py:292-314 `_get_block`, recursion over the remaining axes.  `nc` components are
read, `c0`/`c1` left out before/after, `nc0` stored. -/
def getBlock (f : Bytes) (dof nc c0 c1 nc0 : Nat) : List BlockDim → BlkSt → Except Err BlkSt
  | [], s => do
    let off := s.offset + c0 * dof
    let out ← assignSlice s.out s.idx nc (fromfile f dof nc off)
    return { offset := off + (nc + c1) * dof, idx := s.idx + nc, out := out }
  | d :: ds, s => do
    let rest := (ds.map BlockDim.num).prod * nc0
    let s ← iterM d.cells (getBlock f dof nc c0 c1 nc0 ds)
      { s with offset := s.offset + d.off0 * rest * dof }
    return { s with offset := s.offset + d.off1 * rest * dof }

/-- `x.clip(min=0)` -/
def clip0 (z : Int) : Int := max z 0

/-- gkyl_reader.py:339-356: per axis, from `(n, (g0, g1), lo, up)` the `_get_block` data as
integers: skipped before, skipped after, stored, read. -/
def blockDim (n : Int) (g : Int × Int) (lo up : Int) : Int × Int × Int × Int :=
  let a := clip0 (g.1 - (lo - 1))
  let b := clip0 (g.2 - (n - up))
  (a, b, up - lo + 1, up - lo + 1 - b - a)

/-- gkyl_reader.py:366-373: 1-indexed target range of a partially read block on one axis. -/
def blockTarget (n : Int) (g : Int × Int) (lo up : Int) : Int × Int :=
  (max (lo - g.1) 1, max (up - g.1 - clip0 (g.2 - (n - up))) 1)

/-- apply a four-argument function along the axes -/
def zip4 {α : Type} (h : Int → Int × Int → Int → Int → α) :
    List Int → List (Int × Int) → List Int → List Int → List α
  | n :: ns, g :: gs, l :: ls, u :: us => h n g l u :: zip4 h ns gs ls us
  | _, _, _, _ => []

/-- `out.reshape(gshape, order="C")`: the number of elements must agree. -/
def reshape (ws : List Word) (shape : List Int) : Except Err (NArr Word) :=
  if shape.any (· < 0) then .error .valueError
  else if ws.length = (shape.map Int.toNat).prod then .ok ⟨shape.map Int.toNat, ws⟩
  else .error .valueError

/-- gkyl_reader.py:316-376 `_get_data`: the block, its 1-indexed target range per axis, and the new
offset; `none` is the empty array of lines 357-360.  `rng` is `(lo_idx, up_idx)` when given. -/
def getData (cfg : Cfg) (f : Bytes) (dof : Nat) (d : Dom) (count : Int)
    (rng : Option (List Int × List Int)) (off : Nat) :
    Except Err (Option (NArr Word × List (Int × Int)) × Nat) :=
  if !cfg.partialLoad then do
    let out := fromfile f dof count off
    let off' ← advance off (count * dof)
    match rng with
    | some (lo, up) => do
      let b ← reshape out (List.zipWith (fun l u => u - l + 1) lo up ++ [d.numComps])
      return (some (b, List.zip lo up), off')
    | none => do
      let b ← reshape out (d.cells ++ [d.numComps])
      return (some (b, []), off')
  else
    let lo := (rng.map (·.1)).getD (d.origCells.map fun _ => 1)
    let up := (rng.map (·.2)).getD d.origCells
    let dims := zip4 blockDim d.origCells d.globOffs lo up
    if dims.any (fun q => q.2.2.2 < 1) then do
      let off' ← advance off (count * dof)
      return (none, off')
    else if d.numComps < 0 then .error .valueError
    else do
      let bd : List BlockDim := dims.map fun q =>
        ⟨q.1.toNat, q.2.1.toNat, q.2.2.1.toNat, q.2.2.2.toNat⟩
      let nc := d.numComps.toNat
      let size := (bd.map BlockDim.cells).prod * nc
      let s ← getBlock f dof nc (clip0 d.compOffs.1).toNat (clip0 d.compOffs.2).toNat
        d.origComps.toNat bd ⟨off, 0, List.replicate size (List.replicate dof 0)⟩
      let tgt := zip4 blockTarget d.origCells d.globOffs lo up
      let b ← reshape s.out (tgt.map (fun t => t.2 - t.1 + 1) ++ [d.numComps])
      return (some (b, tgt), s.offset)

/-- `data[slices] = block` (gkyl_reader.py:413) with the slices `lo-1:up` on the leading axes.
(Simplification: shapes must agree exactly; NumPy would broadcast axes of length one.) -/
def assignBlock (data : NArr Word) (tgt : List (Int × Int)) (block : NArr Word) :
    Except Err (NArr Word) :=
  let sl : List (Nat × Nat) := List.zipWith
    (fun n t => (sliceBound n (t.1 - 1), sliceBound n t.2)) data.shape tgt
  let full := sl ++ (data.shape.drop sl.length).map fun n => (0, n)
  if block.shape = full.map (fun p => p.2 - p.1) then
    .ok (NArr.ofFn data.shape fun idx =>
      if (List.zip idx full).all (fun p => p.2.1 ≤ p.1 && p.1 < p.2.2) then
        block.get? (List.zipWith (fun i p => i - p.1) idx full)
      else data.get? idx)
  else .error .valueError

/-- gkyl_reader.py:378-381 `_read_t1_v1_data`. -/
def readT1 (cfg : Cfg) (f : Bytes) (st : St V) (d : Dom) : Except Err (NArr Word) := do
  let (b, _) ← getData cfg f st.dof d (d.asize * d.numComps) none st.offset
  match b with
  | some (b, _) => return b
  | none => return ⟨[0], []⟩

/-- gkyl_reader.py:396-414: the body of the loop over the ranges, state `(data, offset)`. -/
def t3Step (cfg : Cfg) (f : Bytes) (dof : Nat) (d : Dom) (s : NArr Word × Nat) :
    Except Err (NArr Word × Nat) := do
  let lo := readIs f d.numDims s.2
  let up := readIs f d.numDims (s.2 + d.numDims * 8)
  let o := s.2 + d.numDims * 8 + d.numDims * 8
  let asize ← readI f o
  let (b, off) ← getData cfg f dof d (asize * d.origComps) (some (lo, up)) (o + 8)
  match b with
  | none => return (s.1, off)
  | some (b, tgt) =>
    if b.shape.head? = some 0 then return (s.1, off)
    else do
      let data ← assignBlock s.1 tgt b
      return (data, off)

/-- gkyl_reader.py:383-416 `_read_t3_v1_data`. -/
def readT3 (cfg : Cfg) (f : Bytes) (st : St V) (d : Dom) : Except Err (NArr Word) := do
  let nr ← readI f st.offset
  let shape := d.cells ++ [d.numComps]
  if shape.any (· < 0) then .error .valueError else
  let sh := shape.map Int.toNat
  let zero : NArr Word := ⟨sh, List.replicate sh.prod (List.replicate st.dof 0)⟩
  let s ← iterM nr.toNat (t3Step cfg f st.dof d) (zero, st.offset + 8)
  return s.1

/-- Accumulated dynvector: times, rows, number of components of the rows. -/
structure DynVec where
  time : List Word := []
  rows : Nat := 0
  comps : Nat := 0
  data : List Word := []
  deriving DecidableEq, Repr

/-- gkyl_reader.py:423-453: the `while True` loop, with `fuel` iterations allowed (each iteration
reads 16 bytes beyond the previous offset or raises, so `fuel = file length` is never exhausted).
Simplification: negative sizes are an error. -/
def t2Loop (unpack : Bytes → Except Err (Option (Dict V))) (tt : V) (f : Bytes) :
    Nat → DynVec → St V → Except Err (DynVec × St V)
  | 0, _, _ => .error .fail
  | fuel + 1, acc, st => do
    let raw ← readI f st.offset
    let n ← readI f (st.offset + 8)
    if raw < 0 ∨ n < 0 then .error .valueError else
    let nc := (raw.tdiv st.dof).toNat
    let o := st.offset + 16
    let time := fromfile f st.dof n o
    let o := o + n.toNat * 8
    let rowsRaw := fromfile f st.dof (nc * n) o
    let o := o + n.toNat * raw.toNat
    let time := acc.time ++ time
    if rowsRaw.length ≠ n.toNat * nc then .error .valueError else
    if acc.rows ≠ 0 ∧ acc.comps ≠ nc then .error .valueError else
    let acc : DynVec := ⟨time, acc.rows + n.toNat, nc,
      if acc.rows = 0 then rowsRaw else acc.data ++ rowsRaw⟩
    if f.length ≤ o then return (acc, { st with offset := o })
    else do
      let st ← readHeader unpack tt f { st with offset := o }
      if st.fileType ≠ 2 then .error .typeError
      else t2Loop unpack tt f fuel acc st

/-- gkyl_reader.py:418-458 `_read_t2_v1`; with no row at all `time.min()` raises. -/
def readT2 (unpack : Bytes → Except Err (Option (Dict V))) (tt : V) (f : Bytes) (st : St V) :
    Except Err (DynVec × St V) := do
  let (acc, st) ← t2Loop unpack tt f f.length {} st
  if acc.time = [] then .error .valueError else return (acc, st)

/-- What `load` returns before the grid is built: the data array of a field, or a dynvector. -/
inductive Loaded where
  | field (dom : Dom) (data : NArr Word)
  | dynvec (dv : DynVec)
  deriving DecidableEq, Repr

/-- gkyl_reader.py:461-494: `preload()` followed by the data part of `load()`, with the context
the reader ends up with.  The context keys `cells`, `lower`, `upper`, `num_comps`, `grid_type`
(lines 467-470, 499-500, 553-555) are set by `GData.ofFile`. -/
def load (unpack : Bytes → Except Err (Option (Dict V))) (tt : V) (cfg : Cfg) (ctx : Dict V)
    (f : Bytes) : Except Err (Loaded × Dict V) := do
  let st ← readHeader unpack tt f { ctx := ctx }
  if st.fileType = 1 ∨ st.fileType = 3 ∨ st.version = 0 then do
    let (d, st) ← readDomain cfg f st
    if st.fileType = 1 ∨ st.version = 0 then do
      let a ← readT1 cfg f st d
      return (.field d a, st.ctx)
    else if st.fileType = 2 then do  -- unreachable: kept for the shape of lines 485-493
      let (v, st) ← readT2 unpack tt f st
      return (.dynvec v, st.ctx)
    else do
      let a ← readT3 cfg f st d
      return (.field d a, st.ctx)
  else if st.fileType = 2 then do
    let (v, st) ← readT2 unpack tt f st
    return (.dynvec v, st.ctx)
  else .error .typeError

section grid
/-! Grid arithmetic.  Only the operations are assumed, no laws, so that these definitions also apply
to floating-point numbers. -/
variable {F : Type} [Add F] [Sub F] [Mul F] [Div F] [IntCast F]

/-- gkyl_reader.py:284-287: reported lower/upper bounds, shifted by the partial load, per axis. -/
def axisBounds (partialLoad : Bool) (n : Int) (g : Int × Int) (lo up : F) : F × F :=
  if partialLoad then
    let cs := (up - lo) / (n : F)
    (lo + (g.1 : F) * cs, up - (g.2 : F) * cs)
  else (lo, up)

/-- `np.linspace(lo, up, n)`: `arange(n) * step + lo` with the last point set to `up`. -/
def linspace (lo up : F) (n : Nat) : List F :=
  (List.range n).map fun (i : Nat) =>
    if n ≠ 1 ∧ i = n - 1 then up
    else ((i : Int) : F) * ((up - lo) / (((n : Int) - 1 : Int) : F)) + lo

/-- gkyl_reader.py:542-551: bounds of one axis after the ghost-cell adjustment, when the data has
another extent `m` than the domain's `cells`. -/
def ghostBounds (cells : Int) (m : Nat) (lo up : F) : F × F :=
  if cells ≠ m then
    let dz := (up - lo) / (cells : F)
    let ngl : Int := (cells - m) / 2
    let ngu : Int := (cells - m) - (cells - m) / 2
    (lo - (ngl : F) * dz, up + (ngu : F) * dz)
  else (lo, up)

/-- gkyl_reader.py:540-552: the axes of the uniform grid: per axis the final bounds and the nodes.
`m` runs over the extents of the data; a missing extent is an IndexError. -/
def uniformAxes (partialLoad : Bool) : List Int → List Int → List (Int × Int) → List F → List F →
    List Nat → Except Err (List ((F × F) × List F))
  | c :: cs, n :: ns, g :: gs, l :: ls, u :: us, m :: ms => do
    let b := axisBounds partialLoad n g l u
    let b := ghostBounds c m b.1 b.2
    let rest ← uniformAxes partialLoad cs ns gs ls us ms
    return (b, linspace b.1 b.2 (m + 1)) :: rest
  | [], _, _, _, _, _ => .ok []
  | _, _, _, _, _, _ => .error .indexError

end grid

end GkylReader
end Pgkyl
