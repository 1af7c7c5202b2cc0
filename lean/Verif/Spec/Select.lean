import Verif.Spec.Idx
import Verif.Model.IdxParser
import Verif.Model.GData
/-! # Specification of a coordinate/component selection

Only the argument type `IdxArg` of the API, the dataset record and array access are taken from the
model. -/

namespace Pgkyl.Spec

variable {F : Type} [LinearOrder F]

/-- On an axis with `n` cells and the given nodes, the selection argument denotes the cells
`lo, ..., hi - 1`. -/
inductive Denotes (nodes : List F) (n : Nat) : Option (IdxArg F) → Nat → Nat → Prop
  /-- no selection: the whole axis -/
  | all : Denotes nodes n none 0 n
  /-- an integer -/
  | index (i : Nat) (h : i < n) : Denotes nodes n (some (.int i)) i (i + 1)
  /-- the string `'i'` -/
  | indexStr (i : Nat) (h : i < n) : Denotes nodes n (some (.str (dec i))) i (i + 1)
  /-- the string `'a:b'` -/
  | range (a b : Nat) (h : a < b) (hb : b ≤ n) :
      Denotes nodes n (some (.str (dec a ++ ':' :: dec b))) a b
  /-- the string `'a:'` -/
  | from (a : Nat) (h : a < n) : Denotes nodes n (some (.str (dec a ++ [':']))) a n
  /-- the string `':b'` -/
  | upto (b : Nat) (h : 0 < b) (hb : b ≤ n) : Denotes nodes n (some (.str (':' :: dec b))) 0 b
  /-- the string `':'` -/
  | whole : Denotes nodes n (some (.str [':'])) 0 n
  /-- a coordinate, on an axis whose values live in the cells between the nodes -/
  | coord (c : F) (i : Nat) (hc : nodes.length = n + 1) (h : IsCellOf nodes c i) :
      Denotes nodes n (some (.float c)) i (i + 1)
  /-- a coordinate, on an axis whose values live on the nodes -/
  | nodalCoord (c : F) (i : Nat) (hc : nodes.length = n) (h : IsFirstNodeFrom nodes c i)
      (hi : i < n) : Denotes nodes n (some (.float c)) i (i + 1)

/-- The component argument denotes the listed components, in this order, out of `nc`. -/
inductive CompDenotes (nc : Nat) : Option (IdxArg F) → List Nat → Prop
  | all : CompDenotes nc none (List.range nc)
  | index (i : Nat) (h : i < nc) : CompDenotes nc (some (.int i)) [i]
  | indexStr (i : Nat) (h : i < nc) : CompDenotes nc (some (.str (dec i))) [i]
  /-- a negative integer counts from the end -/
  | fromEnd (k : Nat) (h : 0 < k) (hk : k ≤ nc) : CompDenotes nc (some (.int (-(k : Int)))) [nc - k]
  | range (a b : Nat) (h : a < b) (hb : b ≤ nc) :
      CompDenotes nc (some (.str (dec a ++ ':' :: dec b))) (List.range' a (b - a))
  | upto (b : Nat) (h : 0 < b) (hb : b ≤ nc) :
      CompDenotes nc (some (.str (':' :: dec b))) (List.range b)
  | list (i j : Nat) (l : List Nat) (h : ∀ k ∈ i :: j :: l, k < nc) :
      CompDenotes nc (some (.str (joinWith ',' ((i :: j :: l).map dec)))) (i :: j :: l)

/-- One axis of a dataset together with a selection on it. -/
structure SelAxis (F : Type) where
  nodes : List F
  n : Nat
  z : Option (IdxArg F)
  lo : Nat
  hi : Nat

namespace SelAxis

/-- The axis is increasing, its values live in the cells or on the nodes, and the selection `z`
denotes the non-empty range of cells `lo .. hi-1`. -/
def OK (a : SelAxis F) : Prop :=
  Increasing a.nodes ∧ (a.nodes.length = a.n + 1 ∨ a.nodes.length = a.n) ∧
    Denotes a.nodes a.n a.z a.lo a.hi ∧ a.lo < a.hi

/-- The nodes belonging to the selected cells: for cell data the `hi - lo + 1` nodes bounding them,
for nodal data the `hi - lo` nodes themselves. -/
def nodesOut (a : SelAxis F) : List F :=
  (a.nodes.drop a.lo).take (if a.nodes.length = a.n then a.hi - a.lo else a.hi - a.lo + 1)

end SelAxis

/-- The dataset has the given coordinate axes and `nc` components. -/
structure HasAxes (data : GData F) (axes : List (SelAxis F)) (nc : Nat) (values : NArr F) :
    Prop where
  grid : data.grid = some (axes.map fun a => NArr.ofList a.nodes)
  vals : data.values = some values
  wf : values.WF
  shape : values.shape = axes.map (·.n) ++ [nc]
  dims : data.numDims = axes.length
  nonempty : axes ≠ []
  six : axes.length ≤ 6

/-- The array `out` is the part of `src` made of the cells `lo .. hi-1` of each axis and the
components `cs`. -/
def IsPart (src out : NArr F) (axes : List (SelAxis F)) (cs : List Nat) : Prop :=
  out.WF ∧ out.shape = axes.map (fun a => a.hi - a.lo) ++ [cs.length] ∧
  ∀ idx k c, inRange (axes.map fun a => a.hi - a.lo) idx = true → cs[k]? = some c →
    out.get? (idx ++ [k]) = src.get? (List.zipWith (· + ·) idx (axes.map (·.lo)) ++ [c])

end Pgkyl.Spec
