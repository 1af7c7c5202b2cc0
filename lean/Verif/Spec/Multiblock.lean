import Verif.Model.DataSpace
import Verif.Spec.Select
import Mathlib.Algebra.Field.Basic
import Mathlib.Algebra.Order.Group.Abs
import Mathlib.Data.List.Chain
/-! # Specification: rows of two-dimensional blocks -/

namespace Pgkyl.Spec

variable {F : Type}

/-- A block: its nodes along x and y, the number of components, and the values in the cells. -/
structure Blk (F : Type) where
  xs : List F
  ys : List F
  nc : Nat
  vals : NArr F

/-- The nodes along x (0) or y (1). -/
def Blk.nodes (B : Blk F) (dim : Nat) : List F := if dim = 0 then B.xs else B.ys

/-- The number of cells along x or y. -/
def Blk.cells (B : Blk F) (dim : Nat) : Nat := (B.nodes dim).length - 1

/-- The dataset `d` is the block `B`, and its bounds are the first and last nodes. -/
structure IsBlk [LinearOrder F] (d : GData F) (B : Blk F) : Prop where
  grid : d.grid = some [NArr.ofList B.xs, NArr.ofList B.ys]
  vals : d.values = some B.vals
  wf : B.vals.WF
  shape : B.vals.shape = [B.cells 0, B.cells 1, B.nc]
  dims : d.numDims = 2
  inc : ∀ dim, Increasing (B.nodes dim)
  two : ∀ dim, 2 ≤ (B.nodes dim).length
  bounds : ∃ l u, d.bounds = .ok (some (l, u)) ∧ ∀ dim < 2, l[dim]? = (B.nodes dim).head? ∧ u[dim]? = (B.nodes dim).getLast?

/-- `x` is the first or last node of a block in some direction. -/
def IsCorner (ids : List Nat) (B : Nat → Blk F) (x : F) : Prop :=
  ∃ i ∈ ids, ∃ dim, ((B i).nodes dim).head? = some x ∨ ((B i).nodes dim).getLast? = some x

/-- The blocks are laid out well: different corner coordinates differ by more than rounding, and no two blocks start in the
same corner. -/
structure LaidOut [_root_.Field F] [LinearOrder F] (ids : List Nat) (B : Nat → Blk F) : Prop where
  apart : ∀ x y, IsCorner ids B x → IsCorner ids B y → x ≠ y → 1 / 10 ^ 8 + 1 / 10 ^ 5 * |y| < |x - y|
  corner : ∀ i ∈ ids, ∀ j ∈ ids, ((B i).nodes 0).head? = ((B j).nodes 0).head? →
    ((B i).nodes 1).head? = ((B j).nodes 1).head? → i = j

/-- Block `j` continues block `i` in direction `dim`: it starts where the other ends, and at the same height. -/
def Continues (B : Nat → Blk F) (dim i j : Nat) : Prop :=
  ((B i).nodes dim).getLast? = ((B j).nodes dim).head? ∧ ((B i).nodes (1 - dim)).head? = ((B j).nodes (1 - dim)).head?

/-- A row of blocks from a block `first`, each continuing the one before, until no block continues the last one. -/
structure IsRow (ids : List Nat) (B : Nat → Blk F) (dim first : Nat) (rest : List Nat) : Prop where
  mem : ∀ i ∈ first :: rest, i ∈ ids
  chain : (first :: rest).IsChain (Continues B dim)
  ends : ∀ i ∈ (first :: rest).getLast?, ∀ j ∈ ids, ¬ Continues B dim i j

/-- Where the row starts: the only block at the least coordinate along the line whose extent across contains `c`. -/
structure IsStart [LinearOrder F] (ids : List Nat) (B : Nat → Blk F) (dim : Nat) (c : F) (first : Nat) : Prop where
  mem : first ∈ ids
  least : ∃ m, ((B first).nodes dim).head? = some m ∧ ∀ i ∈ ids, ∀ x ∈ ((B i).nodes dim).head?, m ≤ x
  covers : ∃ a b, ((B first).nodes (1 - dim)).head? = some a ∧ ((B first).nodes (1 - dim)).getLast? = some b ∧ a ≤ c ∧ c ≤ b
  only : ∀ i ∈ ids, ((B i).nodes dim).head? = ((B first).nodes dim).head? → ∀ a b,
    ((B i).nodes (1 - dim)).head? = some a → ((B i).nodes (1 - dim)).getLast? = some b → a ≤ c → c ≤ b → i = first

/-- The nodes of a row of axes: those of the first one, and of the others all but the first. -/
def joined : List (List F) → List F
  | [] => []
  | l :: ls => l ++ ls.flatMap List.tail

/-- The index of cell `p` of the line in the result. -/
def lineIndex (along p k : Nat) : List Nat := if along = 0 then [p, 0, k] else [0, p, k]

/-- The index of cell `p` along the line and `q` across it in a block. -/
def blockIndex (along p q k : Nat) : List Nat := if along = 0 then [p, q, k] else [q, p, k]

/-- The grid of a line along `along` with these nodes, across the given cell. -/
def lineGrid (along : Nat) (nodes across : List F) : List (NArr F) :=
  if along = 0 then [.ofList nodes, .ofList across] else [.ofList across, .ofList nodes]

/-- The shape of a line of `n` cells. -/
def lineShape (along n c : Nat) : List Nat := if along = 0 then [n, 1, c] else [1, n, c]

/-- `out` is the line through the row of blocks: its nodes are those of all blocks along the line and the two nodes around
the cut across, and its values those of the components `cs` in the cells `q` of the blocks, one block after the other. -/
structure IsLine (B : Nat → Blk F) (along : Nat) (row : List Nat) (q : Nat → Nat) (cs : List Nat) (out : GData F) : Prop where
  grid : ∀ first ∈ row.head?, out.grid = some (lineGrid along (joined (row.map fun j => (B j).nodes along))
    ((((B first).nodes (1 - along)).drop (q first)).take 2))
  vals : ∃ v, out.values = some v ∧ v.WF ∧
    v.shape = lineShape along ((row.map fun j => (B j).cells along).sum) cs.length ∧
    ∀ pre j post, row = pre ++ j :: post → ∀ p < (B j).cells along, ∀ k c, cs[k]? = some c →
      v.get? (lineIndex along ((pre.map fun i => (B i).cells along).sum + p) k) =
        (B j).vals.get? (blockIndex along p (q j) c)

end Pgkyl.Spec
