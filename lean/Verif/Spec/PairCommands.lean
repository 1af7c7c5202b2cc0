import Verif.Spec.Commands
/-! # Specification: commands that combine datasets of several tags -/

namespace Pgkyl.Spec

/-- The store `s'` is the store `s` with one new dataset for each of the `items`, in this order, behind everything else: an
active dataset with the tag `T` that is related by `Rel` to its item. -/
structure AddsEach {F ι : Type} (s : Space F) (T : Tag) (items : List ι) (Rel : ι → GData F → Prop) (s' : Space F) :
    Prop where
  old : ∀ j < s.heap.length, s'.heap[j]? = s.heap[j]?
  results : ∀ k x, items[k]? = some x → ∃ r, s'.heap[s.heap.length + k]? = some r ∧ r.tag = T ∧ r.status = true ∧ Rel x r
  length : s'.heap.length = s.heap.length + items.length
  lists : ∀ t, (s'.lookup t).getD [] =
    (s.lookup t).getD [] ++ if t = T then List.range' s.heap.length items.length else []

/-- The store `s'` is the store `s` with the datasets listed under the given tags switched off. -/
structure SwitchedOff {F : Type} (s : Space F) (tags : List Tag) (s' : Space F) : Prop where
  lists : s'.dict = s.dict
  off : ∀ t ∈ tags, ∀ id ∈ (s.lookup t).getD [], s'.heap[id]? = (s.heap[id]?).map fun d => { d with status := false }
  others : ∀ id, (∀ t ∈ tags, id ∉ (s.lookup t).getD []) → s'.heap[id]? = s.heap[id]?

/-- The active datasets of two tags, paired in order. -/
def pairs {F : Type} (s : Space F) (a b : Tag) : List (Nat × Nat) := List.zip (visited s [a]) (visited s [b])

/-- The active datasets of three tags, taken together in order. -/
def triples {F : Type} (s : Space F) (a b c : Tag) : List (Nat × Nat × Nat) :=
  List.zip (visited s [a]) (List.zip (visited s [b]) (visited s [c]))

section
variable {F : Type} [_root_.Field F]

/-- The pressure along `b`: `b · P · b / b²` for the tensor `P` (xx, xy, xz, yy, yz, zz). -/
def parallel (P b : Nat → F) : F :=
  (b 0 * (P 0 * b 0 + P 1 * b 1 + P 2 * b 2) + b 1 * (P 1 * b 0 + P 3 * b 1 + P 4 * b 2) +
    b 2 * (P 2 * b 0 + P 4 * b 1 + P 5 * b 2)) / dot b b

/-- The pressure across `b`: half of what the parallel pressure leaves of the trace. -/
def perpendicular (P b : Nat → F) : F := (P 0 + P 3 + P 5 - parallel P b) / 2

/-- The measure of Swisdak (2016): `sqrt (1 - 4 I2 / ((I1 - p) (I1 + 3 p)))` with the invariants `I1`, `I2` of the tensor and
its parallel pressure `p`. -/
def swisdak (sqrt : F → F) (P b : Nat → F) : F :=
  sqrt (1 - 4 * (P 0 * P 3 + P 0 * P 5 + P 3 * P 5 - (P 1 * P 1 + P 2 * P 2 + P 4 * P 4)) /
    ((P 0 + P 3 + P 5 - parallel P b) * (P 0 + P 3 + P 5 + 3 * parallel P b)))

/-- The Frobenius norm of what the gyrotropic part leaves of the tensor, over `sqrt (2 q² + 4 p q)`, where `p` and `q` are the
parallel and the perpendicular pressure. -/
def frobenius (sqrt : F → F) (P b : Nat → F) : F :=
  let rest := fun c => P c - gyrotropic (parallel P b) (perpendicular P b) b c
  sqrt (rest 0 * rest 0 + 2 * (rest 1 * rest 1) + 2 * (rest 2 * rest 2) + rest 3 * rest 3 + 2 * (rest 4 * rest 4) +
    rest 5 * rest 5) /
  sqrt (2 * (perpendicular P b * perpendicular P b) + 4 * parallel P b * perpendicular P b)

/-- The two measures by name. -/
def agyrotropy (sqrt : F → F) (measure : String) (P b : Nat → F) : F :=
  if measure = "swisdak" then swisdak sqrt P b else frobenius sqrt P b

/-- The energies of a plasma of two species in an electromagnetic field: the two internal and flow energies, those of the
electric and the magnetic field, and the sum. -/
def energies (pE kE pI kI : F) (e : Nat → F) : Nat → F
  | 0 => pE
  | 1 => kE
  | 2 => pI
  | 3 => kI
  | 4 => dot e e / 2
  | 5 => dot (fun c => e (3 + c)) (fun c => e (3 + c)) / 2
  | _ => pE + kE + pI + kI + dot e e / 2 + dot (fun c => e (3 + c)) (fun c => e (3 + c)) / 2

/-- The datasets hold a density, zero nowhere, and the momentum of a flow with the velocity `u` (`m` components). -/
def HasVelocity (x y : GData F) (cells : List Nat) (m : Nat) (u : List Nat → Nat → F) : Prop :=
  ∃ (g g' : List (NArr F)) (rho : List Nat → F), HoldsField x g cells 1 (fun i _ => rho i) ∧ HoldsField y g' cells m (fun i c => rho i * u i c) ∧
    ∀ i, inRange cells i = true → rho i ≠ 0

/-- The datasets hold a vector and an electromagnetic field (electric field first) whose magnetic field vanishes nowhere; `w`
is the projection of the vector on the magnetic field: a multiple of it that leaves something orthogonal. -/
def HasProjection (x y : GData F) (cells : List Nat) (n : Nat) (w : List Nat → Nat → F) : Prop :=
  n = 3 ∧ ∃ (g g' : List (NArr F)) (u : List Nat → Nat → F) (m : Nat) (e : List Nat → Nat → F), 6 ≤ m ∧ HoldsField x g cells 3 u ∧ HoldsField y g' cells m e ∧
    ∀ i, inRange cells i = true → dot (fun c => e i (3 + c)) (fun c => e i (3 + c)) ≠ 0 ∧
      (∃ t, ∀ c < 3, w i c = t * e i (3 + c)) ∧ dot (fun c => u i c - w i c) (fun c => e i (3 + c)) = 0

/-- The datasets hold a pressure tensor and a vector field that vanishes nowhere, with the agyrotropy `q`. -/
def HasAgyrotropy (sqrt : F → F) (measure : String) (x y : GData F) (cells : List Nat) (n : Nat) (q : List Nat → Nat → F) :
    Prop :=
  n = 1 ∧ ∃ (g g' : List (NArr F)) (P : List Nat → Nat → F) (m : Nat) (b : List Nat → Nat → F), 3 ≤ m ∧ HoldsField x g cells 6 P ∧ HoldsField y g' cells m b ∧
    ∀ i, inRange cells i = true → dot (b i) (b i) ≠ 0 ∧ ∀ c, q i c = agyrotropy sqrt measure (P i) (b i)

/-- The datasets hold the ten moments of a gas and an electromagnetic field (electric field first) whose magnetic field
vanishes nowhere; `q` is the agyrotropy of the pressure tensor with respect to the magnetic field. -/
def HasGasAgyrotropy (sqrt : F → F) (measure : String) (x y : GData F) (cells : List Nat) (n : Nat)
    (q : List Nat → Nat → F) : Prop :=
  n = 1 ∧ LeadingOnes cells ∧ ∃ (G : Gas F) (g' : List (NArr F)) (m : Nat) (e : List Nat → Nat → F), G.cells = cells ∧ IsTen x G ∧ 6 ≤ m ∧ HoldsField y g' cells m e ∧
    ∀ i, inRange cells i = true → dot (fun c => e i (3 + c)) (fun c => e i (3 + c)) ≠ 0 ∧
      ∀ c, q i c = agyrotropy sqrt measure (G.P i) (fun c => e i (3 + c))

/-- The datasets hold the five moments of electrons and ions (with `gamma = 5/3`) and an electromagnetic field (electric
field first, seven or more components); `q` lists the energies. -/
def HasEnergies (x y z : GData F) (cells : List Nat) (q : List Nat → Nat → F) : Prop :=
  LeadingOnes cells ∧ ∃ (E I : Gas F) (g : List (NArr F)) (m : Nat) (e : List Nat → Nat → F), E.cells = cells ∧
    I.cells = cells ∧ E.comps = 5 ∧ I.comps = 5 ∧ IsEuler (5 / 3) x E ∧ IsEuler (5 / 3) y I ∧ 7 ≤ m ∧
    HoldsField z g cells m e ∧ ∀ i, inRange cells i = true → ∀ c < 7, q i c =
      energies (E.p i) (1 / 2 * E.rho i * dot (E.u i) (E.u i)) (I.p i) (1 / 2 * I.rho i * dot (I.u i) (I.u i)) (e i) c

/-- The change of the dataset `d` relative to the values `a`; divided by component `comp` of `a`, or by each component. -/
def ChangeFrom (cells : List Nat) (m : Nat) (a : List Nat → Nat → F) (comp : Option Nat) (d r : GData F) : Prop :=
  ∀ (g : List (NArr F)) (b : List Nat → Nat → F), HoldsField d g cells m b →
    Derived cells m (fun i c => (b i c - a i c) / a i (comp.getD c)) d r

end

end Pgkyl.Spec
