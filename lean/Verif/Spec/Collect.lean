import Verif.Model.DataSpace
import Mathlib.Order.Defs.LinearOrder
/-! # Specification of the `collect` command -/

namespace Pgkyl.Spec
variable {F : Type}

/-- `np.argsort`: positions that put the list in ascending order (equal elements in any order). -/
def IsArgsort [LE F] (argsort : List F → List Nat) : Prop :=
  ∀ l : List F, (argsort l).Perm (List.range l.length) ∧
    ((argsort l).filterMap fun j => l[j]?).Pairwise (· ≤ ·)

/-- The dataset `out` is the collection of the pairs (time, array): its first coordinate is the times in ascending order,
followed by the coordinates `grid`, and slice `k` of its values is the array that goes with the `k`-th time; the numbers of
cells it reports are those of its values. -/
def Collected [LE F] (out : GData F) (grid : List (NArr F)) (L : List (F × NArr F)) : Prop :=
  ∃ (order : List (F × NArr F)) (V : NArr F), order.Perm L ∧ (order.map Prod.fst).Pairwise (· ≤ ·) ∧
    out.grid = some (NArr.ofList (order.map Prod.fst) :: grid) ∧ out.values = some V ∧ V.WF ∧
    out.numCells = some V.shape.dropLast ∧
    (∀ e ∈ L, V.shape = L.length :: e.2.shape) ∧
    ∀ (k : Nat) (e : F × NArr F), order[k]? = some e → ∀ r, inRange e.2.shape r = true → V.get? (k :: r) = e.2.get? r

/-- `groups` splits `L` into consecutive groups of `n`, the last one possibly shorter. -/
def IsChunks {α : Type} (n : Nat) (L : List α) (groups : List (List α)) : Prop :=
  groups.flatten = L ∧ (∀ g ∈ groups, g ≠ [] ∧ g.length ≤ n) ∧ ∀ g ∈ groups.dropLast, g.length = n

/-- The active datasets among the objects `ids` of a store, each with its position in the list. -/
def activeOf (s : Space F) (ids : List Nat) : List (Nat × GData F) :=
  ids.zipIdx.filterMap fun e => (s.heap[e.1]?).bind fun d => if d.status then some (e.2, d) else none

/-- The dataset `d` is a frame with time `c.1`, values `c.2.1` of shape `sh` (cells, then components) and one non-empty
coordinate array per dimension, `c.2.2`. -/
structure Frame (timeOf : GData F → Option F) (sh : List Nat) (d : GData F) (c : F × NArr F × List (NArr F)) : Prop where
  time : timeOf d = some c.1
  values : d.values = some c.2.1
  wf : c.2.1.WF
  shape : c.2.1.shape = sh
  grid : d.grid = some c.2.2
  dims : c.2.2.length + 1 = sh.length
  nonempty : c.2.2 ≠ []
  axes : ∀ g ∈ c.2.2, g.data ≠ []

/-- The coordinates of the first frame of a group. -/
def firstGrid (g : List (F × NArr F × List (NArr F))) : List (NArr F) :=
  match g with
  | [] => []
  | c :: _ => c.2.2

/-- `after` is the store `s` in which the datasets `ids` of a tag have been switched off and the new, active datasets
`outs` have been added, in order, under the tag `T`. -/
def Replaced (s after : Space F) (ids : List Nat) (T : Tag) (outs : List (GData F)) : Prop :=
  after.heap.length = s.heap.length + outs.length ∧
    (∀ j < s.heap.length, after.heap[j]? =
      if j ∈ ids then (s.heap[j]?).map fun d => { d with status := false } else s.heap[j]?) ∧
    (∀ k out, outs[k]? = some out → after.heap[s.heap.length + k]? = some out ∧ out.status = true ∧ out.tag = T) ∧
    (∀ t, t ≠ T → after.lookup t = s.lookup t) ∧
    (after.lookup T).getD [] = (s.lookup T).getD [] ++ (List.range outs.length).map (s.heap.length + ·)

end Pgkyl.Spec
