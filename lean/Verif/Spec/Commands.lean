import Verif.Spec.Field
import Verif.Spec.Moments
import Verif.Spec.StoreOnce
/-! # Specification: results of commands in the store; the variables of the fluid models -/

namespace Pgkyl.Spec

/-- The dataset has the grid `g` (with coordinates for every axis) and `m` values in each cell, `f`. -/
def HoldsField {F : Type} (d : GData F) (g : List (NArr F)) (cells : List Nat) (m : Nat) (f : List Nat → Nat → F) : Prop :=
  d.grid = some g ∧ cells.length ≤ g.length ∧ (∀ a ∈ g, a.data ≠ []) ∧ ∃ v, d.values = some v ∧ IsField v cells m f

/-- The store `s'` is the store `s` with one new dataset for each of the datasets `ids`, in this order, behind everything
else: an active dataset with the tag `T` that is related by `R` to its source. -/
structure AddsResults {F : Type} (s : Space F) (T : Tag) (ids : List Nat) (R : GData F → GData F → Prop) (s' : Space F) :
    Prop where
  old : ∀ j < s.heap.length, s'.heap[j]? = s.heap[j]?
  results : ∀ k id, ids[k]? = some id → ∃ d r, s.heap[id]? = some d ∧ s'.heap[s.heap.length + k]? = some r ∧
    r.tag = T ∧ r.status = true ∧ R d r
  length : s'.heap.length = s.heap.length + ids.length
  lists : ∀ t, (s'.lookup t).getD [] =
    (s.lookup t).getD [] ++ if t = T then List.range' s.heap.length ids.length else []

/-- The store `s'` is the store `s` with each of the datasets `ids` replaced by one that is related by `R` to it, with the
same tag and status; the other datasets and the lists are the same. -/
structure ReplacesResults {F : Type} (s : Space F) (ids : List Nat) (R : GData F → GData F → Prop) (s' : Space F) :
    Prop where
  others : ∀ j, j ∉ ids → s'.heap[j]? = s.heap[j]?
  results : ∀ id ∈ ids, ∃ d r, s.heap[id]? = some d ∧ s'.heap[id]? = some r ∧ r.tag = d.tag ∧ r.status = d.status ∧ R d r
  length : s'.heap.length = s.heap.length
  lists : s'.dict = s.dict

section
variable {F : Type} [_root_.Field F]

/-- The quantities `euler` offers, for a gas with density `rho`, velocity `u` and pressure `p`: the number of components and
the components. -/
def eulerQuantity (sqrt : F → F) (gamma rho : F) (u : Nat → F) (p : F) : String → Option (Nat × (Nat → F))
  | "density" => some (1, fun _ => rho)
  | "xvel" => some (1, fun _ => u 0)
  | "yvel" => some (1, fun _ => u 1)
  | "zvel" => some (1, fun _ => u 2)
  | "vel" => some (3, u)
  | "pressure" => some (1, fun _ => p)
  | "ke" => some (1, fun _ => 1 / 2 * rho * dot u u)
  | "temp" => some (1, fun _ => p / rho)
  | "sound" => some (1, fun _ => sqrt (gamma * p / rho))
  | "mach" => some (1, fun _ => sqrt (dot u u) / sqrt (gamma * p / rho))
  | _ => none

/-- The quantities `mhd` offers, for a gas with density `rho`, velocity `u`, pressure `p` and magnetic field `B`. -/
def mhdQuantity (sqrt : F → F) (gamma mu0 rho : F) (u : Nat → F) (p : F) (B : Nat → F) :
    String → Option (Nat × (Nat → F))
  | "density" => some (1, fun _ => rho)
  | "xvel" => some (1, fun _ => u 0)
  | "yvel" => some (1, fun _ => u 1)
  | "zvel" => some (1, fun _ => u 2)
  | "vel" => some (3, u)
  | "Bx" => some (1, fun _ => B 0)
  | "By" => some (1, fun _ => B 1)
  | "Bz" => some (1, fun _ => B 2)
  | "Bi" => some (3, B)
  | "magpressure" => some (1, fun _ => dot B B / (2 * mu0))
  | "pressure" => some (1, fun _ => p)
  | "temp" => some (1, fun _ => p / rho)
  | "sound" => some (1, fun _ => sqrt (gamma * p / rho))
  | "mach" => some (1, fun _ => sqrt (dot u u) / sqrt (gamma * p / rho))
  | _ => none

/-- The quantities `tenmoment` offers, for a gas with density `rho`, velocity `u` and pressure tensor `P`
(xx, xy, xz, yy, yz, zz). -/
def tenQuantity (sqrt : F → F) (gamma rho : F) (u P : Nat → F) : String → Option (Nat × (Nat → F))
  | "density" => some (1, fun _ => rho)
  | "xvel" => some (1, fun _ => u 0)
  | "yvel" => some (1, fun _ => u 1)
  | "zvel" => some (1, fun _ => u 2)
  | "vel" => some (3, u)
  | "pressureTensor" => some (6, P)
  | "pxx" => some (1, fun _ => P 0)
  | "pxy" => some (1, fun _ => P 1)
  | "pxz" => some (1, fun _ => P 2)
  | "pyy" => some (1, fun _ => P 3)
  | "pyz" => some (1, fun _ => P 4)
  | "pzz" => some (1, fun _ => P 5)
  | "pressure" => some (1, fun _ => (P 0 + P 3 + P 5) / 3)
  | "ke" => some (1, fun _ => 1 / 2 * rho * dot u u)
  | "temp" => some (1, fun _ => (P 0 + P 3 + P 5) / 3 / rho)
  | "sound" => some (1, fun _ => sqrt (gamma * ((P 0 + P 3 + P 5) / 3) / rho))
  | "mach" => some (1, fun _ => sqrt (dot u u) / sqrt (gamma * ((P 0 + P 3 + P 5) / 3) / rho))
  | _ => none

/-- A gas on a mesh: density, velocity, pressure, pressure tensor, magnetic field in each cell; `comps` is the number of
values a dataset holds per cell. -/
structure Gas (F : Type) where
  cells : List Nat
  comps : Nat
  rho : List Nat → F
  u : List Nat → Nat → F
  p : List Nat → F
  P : List Nat → Nat → F
  B : List Nat → Nat → F

/-- The density vanishes nowhere. -/
def Gas.Dense (G : Gas F) : Prop := ∀ i, inRange G.cells i = true → G.rho i ≠ 0

/-- The dataset holds the five conserved variables of the gas (and perhaps more components). -/
def IsEuler (gamma : F) (d : GData F) (G : Gas F) : Prop :=
  (5 ≤ G.comps ∧ G.Dense) ∧ ∃ g, HoldsField d g G.cells G.comps fun i => fiveMoment gamma (G.rho i) (G.u i) (G.p i)

/-- The dataset holds the eight conserved variables of ideal MHD. -/
def IsMhd (gamma mu0 : F) (d : GData F) (G : Gas F) : Prop :=
  (8 ≤ G.comps ∧ G.Dense) ∧
    ∃ g, HoldsField d g G.cells G.comps fun i => mhdState gamma mu0 (G.rho i) (G.u i) (G.p i) (G.B i)

/-- The dataset holds the ten moments. -/
def IsTen (d : GData F) (G : Gas F) : Prop :=
  (10 ≤ G.comps ∧ G.Dense) ∧ ∃ g, HoldsField d g G.cells G.comps fun i => tenMoments (G.rho i) (G.u i) (G.P i)

end

/-- The result dataset has the grid and the other metadata of its source, and the values `f`. -/
def Derived {F : Type} (cells : List Nat) (m : Nat) (f : List Nat → Nat → F) (d r : GData F) : Prop :=
  (∃ g, d.grid = some g ∧ HoldsField r g cells m f) ∧ r.ctx.other = d.ctx.other

/-- The result dataset holds the quantity that the table `q` lists, cell by cell, under the name `v`. -/
def HoldsQuantity {F : Type} (q : List Nat → String → Option (Nat × (Nat → F))) (v : String) (cells : List Nat)
    (d r : GData F) : Prop :=
  ∃ n f, (∀ i, q i v = some (n, f i)) ∧ Derived cells n f d r

/-- The dataset has `cells` cells and one array of node coordinates per axis: along axis `c` the nodes are at
`x c 0, x c 1, …`. -/
def UniformNodes {F : Type} (d : GData F) (cells : List Nat) (x : Nat → Nat → F) : Prop :=
  cells ≠ [] ∧ d.numCells = some cells ∧ ∃ g, d.grid = some g ∧ g.length = cells.length ∧
    ∀ c n, cells[c]? = some n → g[c]? = some (NArr.ofList ((List.range (n + 1)).map (x c)))

/-- The dataset has `cells` cells on a mapped grid: coordinate `c` of node `i` is `x c i`. -/
def MappedNodes {F : Type} (d : GData F) (cells : List Nat) (x : Nat → List Nat → F) : Prop :=
  2 ≤ cells.length ∧ d.numCells = some cells ∧ ∃ g, d.grid = some g ∧ g.length = cells.length ∧
    ∀ (c : Nat) (a : NArr F), g[c]? = some a → a.WF ∧ a.shape = cells.map (· + 1) ∧
      ∀ i, inRange (cells.map (· + 1)) i = true → a.get? i = some (x c i)

/-- The dataset holds, for each node, its coordinates `x i c`, on the grid of the node numbers. -/
def HoldsNodes {F : Type} [NatCast F] (r : GData F) (cells : List Nat) (x : List Nat → Nat → F) : Prop :=
  r.grid = some (cells.map fun n => NArr.ofList ((List.range (n + 2)).map fun k : Nat => (k : F))) ∧
    ∃ v, r.values = some v ∧ IsField v (cells.map (· + 1)) cells.length x

end Pgkyl.Spec
