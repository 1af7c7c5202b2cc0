import Verif.Model.H5
/-! # Specification: choosing a reader, legacy HDF5 files, FLASH files -/

namespace Pgkyl.Spec
open H5

/-- The name a user can give for a reader. -/
def readerName : Kind → String
  | .gkyl => "gkyl"
  | .adios => "adios"
  | .h5 => "h5"
  | .flash => "flash"

/-- The documented order of the readers. -/
def readerRank : Kind → Nat
  | .gkyl => 0
  | .adios => 1
  | .h5 => 2
  | .flash => 3

/-- The file is one for this reader: it begins with the Gkeyll magic bytes and a version number; ADIOS opens it; it is an HDF5
file with a `StructGridField` or a `DataStruct`; it is an HDF5 file with FLASH blocks. -/
def Recognises {F : Type} (m : Medium F) : Kind → Prop
  | .gkyl => ∃ rest, m.bytes = [103, 107, 121, 108, 48] ++ rest ∧ 8 ≤ rest.length
  | .adios => m.adios = .ok true
  | .h5 => ∃ f, m.hdf = some f ∧ (f.frame ≠ none ∨ f.diagnostic ≠ none)
  | .flash => ∃ f, m.hdf = some f ∧ f.flash ≠ none

/-- With this name the reader is tried: it is the one named, or the name is no reader's. -/
def Tried (name : String) (k : Kind) : Prop := name = readerName k ∨ ∀ k', name ≠ readerName k'

/-- A legacy frame is consistent: one lower and one upper bound for each direction, `cells` cells, `nc` numbers per cell. -/
structure GoodFrame {F : Type} (f : Frame F) (nc : Nat) : Prop where
  lower : f.lower.length = f.cells.length
  upper : f.upper.length = f.cells.length
  cells : ∀ n ∈ f.cells, 0 < n
  comps : 0 < nc
  shape : f.field.shape = f.cells ++ [nc]

/-- The nodes of the dataset: along direction `d`, `n + 1` equally spaced nodes from `lower` to `upper`. -/
def EquidistantNodes {F : Type} [Field F] (d : GData F) (cells : List Nat) (lower upper : List F) : Prop :=
  ∃ g, d.grid = some g ∧ g.length = cells.length ∧
    ∀ (c n : Nat) (lo up : F), cells[c]? = some n → lower[c]? = some lo → upper[c]? = some up →
      ∃ a : NArr F, g[c]? = some a ∧ a.shape = [n + 1] ∧
        ∀ i ≤ n, a.get? [i] = some (lo + (i : F) * ((up - lo) / (n : F)))

/-! ### FLASH -/

section flash
variable {F : Type} [Field F]

/-- The extent of block `b` in direction `d`. -/
def blockSize (f : Flash F) (d b : Nat) : F := (f.size.get? [b, d]).getD 0

/-- The lower edge of block `b` in direction `d`: its centre minus half its size. -/
def blockEdge (f : Flash F) (d b : Nat) : F := (f.coord.get? [b, d]).getD 0 - blockSize f d b / 2

variable [LinearOrder F]

/-- The `n` blocks, with `nb` cells each in direction `d`, lie on a lattice of `N` cells of width `h` that starts at `lo`, the
smallest blocks have cells of width `h`, and the blocks reach from one end to the other. -/
structure OnLattice (f : Flash F) (n nb d : Nat) (lo h : F) (N : Nat) : Prop where
  pos : 0 < h
  nb_pos : 0 < nb
  size : ∀ b < n, ∃ m : Nat, 0 < m ∧ blockSize f d b = m * (nb * h)
  edge : ∀ b < n, ∃ k : Nat, blockEdge f d b = lo + k * h
  finest : ∃ b < n, blockSize f d b = nb * h
  start : ∃ b < n, blockEdge f d b = lo
  bound : ∀ b < n, blockEdge f d b + blockSize f d b ≤ lo + N * h
  stop : ∃ b < n, blockEdge f d b + blockSize f d b = lo + N * h

/-- Cell `x` of the lattice, `[lo + x h, lo + (x + 1) h]`, lies in cell `i` of block `b`. -/
def InCell (f : Flash F) (nb d : Nat) (lo h : F) (x b i : Nat) : Prop :=
  blockEdge f d b + i * (blockSize f d b / nb) ≤ lo + x * h ∧
    lo + (x + 1 : Nat) * h ≤ blockEdge f d b + (i + 1 : Nat) * (blockSize f d b / nb)

/-- Cell `x` of the lattice lies in block `b`. -/
def InBlock (f : Flash F) (d : Nat) (lo h : F) (x b : Nat) : Prop :=
  blockEdge f d b ≤ lo + x * h ∧ lo + (x + 1 : Nat) * h ≤ blockEdge f d b + blockSize f d b

/-- The lower face of cell `x` of the lattice lies in block `b`, its faces included. -/
def Reaches (f : Flash F) (d : Nat) (lo h : F) (x b : Nat) : Prop :=
  blockEdge f d b ≤ lo + x * h ∧ lo + x * h ≤ blockEdge f d b + blockSize f d b

/-- Block `b` is a leaf of the tree of blocks. -/
def LeafBlock (f : Flash F) (b : Nat) : Prop := f.ntype[b]? = some 1

end flash

end Pgkyl.Spec
