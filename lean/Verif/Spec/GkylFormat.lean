import Verif.Model.Bytes
/-!
# The documented `.gkyl` file layout

Written from the format description in the comment block gkyl_reader.py:9-78 (a copy of Gkeyll's
`gkyl_array_rio_format_desc.h`), independently of the reader's code.
-/

namespace Pgkyl.Spec

/-- little-endian `uint64_t` -/
def u64 (n : Nat) : Bytes := (List.range 8).map fun k => UInt8.ofNat (n / 256 ^ k)

/-- `gkyl0` in ASCII -/
def gkyl0 : Bytes := ['g', 'k', 'y', 'l', '0'].map fun c => UInt8.ofNat c.toNat

/-- bytes of one real of the given real type (1: float, 2: double) -/
def realSize (realType : Nat) : Nat := if realType = 1 then 4 else 8

/-- "Version 1" header: magic, version, file type, size of the metadata, metadata. -/
def header (fileType : Nat) (mb : Bytes) : Bytes :=
  gkyl0 ++ u64 1 ++ u64 fileType ++ u64 mb.length ++ mb

/-- A field on a rectangular grid. -/
structure Field where
  metaBytes : Bytes
  realType : Nat
  cells : List Nat
  lower : List Word
  upper : List Word
  comps : Nat
  deriving DecidableEq, Repr

namespace Field
variable (x : Field)

/-- real_type .. size -/
def domain : Bytes :=
  u64 x.realType ++ u64 x.cells.length ++ x.cells.flatMap u64 ++ x.lower.flatten ++
    x.upper.flatten ++ u64 (x.comps * realSize x.realType) ++ u64 x.cells.prod

/-- shape of the data array -/
def shape : List Nat := x.cells ++ [x.comps]

/-- Everything fits the 64-bit fields, the bounds are reals of `w` bytes, and there is at least one
component.  (The documentation says `w = 8`.) -/
structure OK (w : Nat) : Prop where
  real : x.realType = 1 ∨ x.realType = 2
  metaLen : x.metaBytes.length < 2 ^ 63
  dims : x.cells.length < 2 ^ 63
  cellsFit : ∀ n ∈ x.cells, n < 2 ^ 63
  size : x.cells.prod < 2 ^ 63
  elem : x.comps * realSize x.realType < 2 ^ 63
  comps : 0 < x.comps
  lowerLen : x.lower.length = x.cells.length
  upperLen : x.upper.length = x.cells.length
  lowerW : ∀ b ∈ x.lower, b.length = w
  upperW : ∀ b ∈ x.upper, b.length = w

end Field

/-- An array whose entries are reals of the file's real type. -/
def IsData (realType : Nat) (a : NArr Word) : Prop :=
  a.WF ∧ ∀ b ∈ a.data, b.length = realSize realType

/-- file_type 1 -/
def fieldFile (x : Field) (data : NArr Word) : Bytes :=
  header 1 x.metaBytes ++ x.domain ++ data.data.flatten

/-- One range of a multi-range file; `lo`, `up` are 1-indexed and inclusive. -/
structure Range where
  lo : List Nat
  up : List Nat
  data : NArr Word
  deriving DecidableEq, Repr

namespace Range
variable (r : Range)

/-- extents of the range -/
def extents : List Nat := List.zipWith (fun l u => u + 1 - l) r.lo r.up

/-- the range as stored -/
def bytes : Bytes :=
  r.lo.flatMap u64 ++ r.up.flatMap u64 ++ u64 r.extents.prod ++ r.data.data.flatten

/-- On every axis `1 ≤ lo ≤ up ≤ cells`. -/
def within : List Nat → List Nat → List Nat → Prop
  | [], [], [] => True
  | n :: ns, l :: ls, u :: us => (1 ≤ l ∧ l ≤ u ∧ u ≤ n) ∧ within ns ls us
  | _, _, _ => False

/-- A non-empty range inside the domain `1..cells` carrying data of its own shape. -/
structure OK (x : Field) : Prop where
  inside : within x.cells r.lo r.up
  shape : r.data.shape = r.extents ++ [x.comps]
  data : IsData x.realType r.data

/-- The 0-based cell index `cell` lies in the range. -/
def covers (cell : List Nat) : Bool :=
  (List.zip cell (List.zip r.lo r.up)).all fun p => p.2.1 ≤ p.1 + 1 && p.1 + 1 ≤ p.2.2

/-- The value stored by the range for a cell and component (`idx = cell ++ [component]`). -/
def value (idx : List Nat) : Option Word :=
  r.data.get? (List.zipWith (fun i l => i + 1 - l) idx.dropLast r.lo ++ [idx.getLastD 0])

end Range

/-- file_type 3 -/
def multiFile (x : Field) (rs : List Range) : Bytes :=
  header 3 x.metaBytes ++ x.domain ++ u64 rs.length ++ rs.flatMap Range.bytes

/-- What the multi-range file stores for `idx`: the value of the last range covering the cell, zero
if there is none. -/
def assembled (x : Field) (rs : List Range) (idx : List Nat) : Option Word :=
  match rs.reverse.find? fun r => r.covers idx.dropLast with
  | some r => r.value idx
  | none => some (List.replicate (realSize x.realType) 0)

/-- One appended piece of a dynvector: time stamps and one row per time stamp. -/
structure Chunk where
  metaBytes : Bytes
  times : List Word
  rows : List (List Word)
  deriving DecidableEq, Repr

/-- file_type 2, double precision, `c` components -/
def Chunk.bytes (c : Nat) (k : Chunk) : Bytes :=
  header 2 k.metaBytes ++ u64 2 ++ u64 (c * 8) ++ u64 k.times.length ++ k.times.flatten ++
    k.rows.flatten.flatten

/-- A chunk of double-precision data with `c` components per row. -/
structure Chunk.OK (c : Nat) (k : Chunk) : Prop where
  metaLen : k.metaBytes.length < 2 ^ 63
  len : k.rows.length = k.times.length
  fit : k.times.length < 2 ^ 63
  timesW : ∀ b ∈ k.times, b.length = 8
  rowsLen : ∀ r ∈ k.rows, r.length = c
  rowsW : ∀ r ∈ k.rows, ∀ b ∈ r, b.length = 8

/-- A restriction of one axis as the user writes it. -/
inductive Restr where
  /-- no restriction -/
  | all
  /-- `"i"` -/
  | idx (i : Nat)
  /-- `"a:b"`, `"a:"`, `":b"`, `":"` -/
  | range (a b : Option Nat)
  /-- `"a:-k"`, `":-k"` -/
  | neg (a : Option Nat) (k : Nat)
  deriving DecidableEq, Repr

namespace Restr

/-- decimal representation -/
def num (n : Nat) : List Char := Nat.toDigits 10 n

/-- the string given to `z0`..`z5`, `comp`; `none` when the option is not given -/
def text : Restr → Option (List Char)
  | all => none
  | idx i => some (num i)
  | range a b => some ((a.map num).getD [] ++ [':'] ++ (b.map num).getD [])
  | neg a k => some ((a.map num).getD [] ++ [':', '-'] ++ num k)

/-- first selected index -/
def start : Restr → Nat
  | all => 0
  | idx i => i
  | range a _ => a.getD 0
  | neg a _ => a.getD 0

/-- one past the last selected index of an axis of length `n` -/
def stop (n : Nat) : Restr → Nat
  | all => n
  | idx i => i + 1
  | range _ b => b.getD n
  | neg _ k => n - k

/-- the restriction is in range and selects something; a written `k` is positive -/
def OK (n : Nat) (r : Restr) : Prop :=
  r.start < r.stop n ∧ r.stop n ≤ n ∧ ∀ a k, r = neg a k → 0 < k

/-- the slices `start:stop` that restrictions of the axes `ns` and of `nc` components stand for -/
def slices (ns : List Nat) (rs : List Restr) (nc : Nat) (cr : Restr) : List (Nat × Nat) :=
  List.zipWith (fun n r => (r.start, r.stop n)) ns rs ++ [(cr.start, cr.stop nc)]

end Restr

/-- Context keys that loading sets from the file's own structure, whatever the metadata says. -/
def reservedKeys : List String := ["cells", "num_comps", "lower", "upper", "grid_type"]

/-- Metadata names with two spellings, and the flag derived from one of them. -/
def spelledKeys : List String := ["polyOrder", "poly_order", "basisType", "basis_type", "is_modal"]

/-- What the user relies on after loading a file with metadata `m` into a context `prior`. -/
structure MetaAvailable (prior m ctx : Dict String) : Prop where
  /-- every ordinary entry of the file is there -/
  plain : ∀ k v, (k, v) ∈ m → k ∉ reservedKeys → k ∉ spelledKeys → Dict.get? ctx k = some v
  /-- either spelling of the polynomial order -/
  poly : ∀ v, ("polyOrder", v) ∈ m ∨ ("poly_order", v) ∈ m →
    (∀ w, ("polyOrder", w) ∈ m ∨ ("poly_order", w) ∈ m → w = v) →
    Dict.get? ctx "poly_order" = some v
  /-- either spelling of the basis type -/
  basis : ∀ v, ("basisType", v) ∈ m ∨ ("basis_type", v) ∈ m →
    (∀ w, ("basisType", w) ∈ m ∨ ("basis_type", w) ∈ m → w = v) →
    Dict.get? ctx "basis_type" = some v
  /-- a basis type makes the data modal -/
  modal : (∀ v, ("is_modal", v) ∉ m) → (∃ v, ("basisType", v) ∈ m ∨ ("basis_type", v) ∈ m) →
    Dict.get? ctx "is_modal" = some "True"
  /-- without a basis type the flag is left as it was -/
  notModal : (∀ v, ("is_modal", v) ∉ m) → (∀ v, ("basisType", v) ∉ m ∧ ("basis_type", v) ∉ m) →
    Dict.get? ctx "is_modal" = Dict.get? prior "is_modal"
  /-- entries of the prior context that the file does not mention are kept -/
  kept : ∀ k, k ∉ reservedKeys → k ∉ spelledKeys → (∀ v, (k, v) ∉ m) →
    Dict.get? ctx k = Dict.get? prior k

end Pgkyl.Spec
