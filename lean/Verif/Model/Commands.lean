import Verif.Model.Tools
import Verif.Model.DataSpace
/-!
# Model of the commands that apply one of the diagnostics to the datasets of the store

commands/euler.py, mhd.py, tenmoment.py, magsq.py, grid.py, velocity.py, bparrotate.py, bperprotate.py, parrotate.py,
perprotate.py, agyro.py, energetics.py, relchange.py.  The messages and the option `compgrid` are not modelled.
-/

namespace Pgkyl.Cmd
open NArr
variable {F : Type} [Min F] [Max F]

/-! ## One input dataset -/

/-- The loop of commands/magsq.py:19-28 and commands/grid.py:19-53 (and integrate.py:20-30, fft.py:25-35):

    for dat in data.iterator(kwargs["use"]):
      if kwargs["tag"]:
        out = GData(tag=kwargs["tag"], label=kwargs["label"], ctx=dat.ctx); out.push(<compute>(dat)); data.add(out)
      else:
        dat.push(<compute>(dat))

`f` computes the grid and the values. -/
def pushCmd (f : GData F → Except Err (List (NArr F) × NArr F)) (use tag : Option Tag) (label : List Char) (s : Space F) :
    Except Err (Space F) :=
  Space.iterate id use false true .none (fun s _ i =>
    match s.heap[i]? with
    | none => .ok s
    | some d => do
      let (g, v) ← f d
      match tag with
      | some (c :: cs) => do
        let out ← (GData.new (c :: cs) label d.ctx).push g v
        .ok (s.addNew out)
      | _ => do
        let r ← d.push g v
        .ok (s.update i fun _ => r)) s

/-- A function of the values; the grid is that of the dataset. -/
def ofValues (f : NArr F → Except Err (NArr F)) (d : GData F) : Except Err (List (NArr F) × NArr F) :=
  match d.grid, d.values with
  | some g, some v => do return (g, ← f v)
  | _, _ => .error .typeError

/-- commands/magsq.py:14-30 `magsq`. -/
def magsqCmd [Add F] [Mul F] [Zero F] (use tag : Option Tag) (label : List Char) (s : Space F) : Except Err (Space F) :=
  pushCmd (ofValues fun v => Tools.magSq v) use tag label s

/-- The common frame of commands/euler.py:26-56, mhd.py:28-66 and tenmoment.py:26-70: the result dataset is added first,
then the function `var` chosen by the variable name stores its result in it.  `none` stands for a name without a branch:
nothing is stored. -/
def fluidCmd (var : Option (NArr F → Except Err (NArr F))) (use tag : Option Tag) (label : List Char) (s : Space F) :
    Except Err (Space F) :=
  Space.iterate id use false true .none (fun s _ i =>
    match s.heap[i]? with
    | none => .ok s
    | some d =>
      match tag with
      | some (c :: cs) =>
        let out := GData.new (c :: cs) label d.ctx
        let s1 := s.addNew out
        match var with
        | none => .ok s1
        | some f => do
          let (g, v) ← ofValues f d
          let out' ← out.push g v
          .ok (s1.update s.heap.length fun _ => out')
      | _ =>
        match var with
        | none => .ok s
        | some f => do
          let (g, v) ← ofValues f d
          let r ← d.push g v
          .ok (s.update i fun _ => r)) s

section
variable {F : Type} [Add F] [Sub F] [Mul F] [Div F] [Zero F] [IntCast F]

/-- commands/euler.py:35-55: the function for each variable name. -/
def eulerVar (sqrt : F → F) (gamma : F) (v : String) : Option (NArr F → Except Err (NArr F)) :=
  if v = "density" then some fun x => Tools.getDensity x
  else if v = "xvel" then some fun x => Tools.getV 1 x
  else if v = "yvel" then some fun x => Tools.getV 2 x
  else if v = "zvel" then some fun x => Tools.getV 3 x
  else if v = "vel" then some fun x => Tools.getVi x
  else if v = "pressure" then some fun x => Tools.getP x gamma (some 5)
  else if v = "ke" then some fun x => Tools.getKe x gamma (some 5)
  else if v = "temp" then some fun x => Tools.getTemp x gamma (some 5)
  else if v = "sound" then some fun x => Tools.getSound sqrt x gamma (some 5)
  else if v = "mach" then some fun x => Tools.getMach sqrt x gamma (some 5)
  else none

/-- commands/mhd.py:37-65. -/
def mhdVar (sqrt : F → F) (gamma mu0 : F) (v : String) : Option (NArr F → Except Err (NArr F)) :=
  if v = "density" then some fun x => Tools.getDensity x
  else if v = "xvel" then some fun x => Tools.getV 1 x
  else if v = "yvel" then some fun x => Tools.getV 2 x
  else if v = "zvel" then some fun x => Tools.getV 3 x
  else if v = "vel" then some fun x => Tools.getVi x
  else if v = "Bx" then some fun x => Tools.getMhdB 0 x
  else if v = "By" then some fun x => Tools.getMhdB 1 x
  else if v = "Bz" then some fun x => Tools.getMhdB 2 x
  else if v = "Bi" then some fun x => Tools.getMhdBi x
  else if v = "magpressure" then some fun x => Tools.getMhdMagP x mu0
  else if v = "pressure" then some fun x => Tools.getMhdP x gamma mu0
  else if v = "temp" then some fun x => Tools.getMhdTemp x gamma mu0
  else if v = "sound" then some fun x => Tools.getMhdSound sqrt x gamma mu0
  else if v = "mach" then some fun x => Tools.getMhdMach sqrt x gamma mu0
  else none

/-- commands/tenmoment.py:35-69. -/
def tenVar (sqrt : F → F) (gamma : F) (v : String) : Option (NArr F → Except Err (NArr F)) :=
  if v = "density" then some fun x => Tools.getDensity x
  else if v = "xvel" then some fun x => Tools.getV 1 x
  else if v = "yvel" then some fun x => Tools.getV 2 x
  else if v = "zvel" then some fun x => Tools.getV 3 x
  else if v = "vel" then some fun x => Tools.getVi x
  else if v = "pressureTensor" then some fun x => Tools.getPij x
  else if v = "pxx" then some fun x => Tools.getPab 4 1 1 x
  else if v = "pxy" then some fun x => Tools.getPab 5 1 2 x
  else if v = "pxz" then some fun x => Tools.getPab 6 1 3 x
  else if v = "pyy" then some fun x => Tools.getPab 7 2 2 x
  else if v = "pyz" then some fun x => Tools.getPab 8 2 3 x
  else if v = "pzz" then some fun x => Tools.getPab 9 3 3 x
  else if v = "pressure" then some fun x => Tools.getP x gamma (some 10)
  else if v = "ke" then some fun x => Tools.getKe x gamma (some 10)
  else if v = "temp" then some fun x => Tools.getTemp x gamma (some 10)
  else if v = "sound" then some fun x => Tools.getSound sqrt x gamma (some 10)
  else if v = "mach" then some fun x => Tools.getMach sqrt x gamma (some 10)
  else none

end

/-! ## The grid as a dataset -/

/-- `np.meshgrid(*grid, indexing="ij")`: for each axis the array of its coordinates over the whole mesh.
(The arrays have one axis each.) -/
def meshgrid {F : Type} (grid : List (NArr F)) : List (NArr F) :=
  (List.range grid.length).map fun d =>
    NArr.ofFn (grid.map fun g => g.data.length) fun idx => do
      let g ← grid[d]?
      let k ← idx[d]?
      g.data[k]?

/-- `for d, t in enumerate(arrays): values[..., d] = t`. -/
def fillComps {F : Type} (arrays : List (NArr F)) (values : NArr F) : Except Err (NArr F) :=
  arrays.zipIdx.foldlM (fun out e => out.assignComp e.2 e.1) values

/-- commands/grid.py:20-43: the index grid and the coordinates of the nodes. -/
def gridOf {F : Type} [Zero F] [NatCast F] (d : GData F) : Except Err (List (NArr F) × NArr F) :=
  match d.grid with
  | none => .error .typeError
  | some grid =>
    match d.numCells with
    | none => .error .typeError
    | some cells => do
      let out := cells.map fun nc => NArr.ofList ((List.range (nc + 2)).map fun k : Nat => (k : F))
      let values := NArr.zeros (cells.map (· + 1) ++ [cells.length])
      match grid with
      | [] => .error .indexError
      | g :: _ =>
        if cells.length = 1 then do return (out, ← values.assignComp 0 g)
        else if g.shape.length = 1 then do return (out, ← fillComps (meshgrid grid) values)
        else do return (out, ← fillComps grid values)

/-- commands/grid.py:14-54 `grid`. -/
def gridCmd [Zero F] [NatCast F] (use tag : Option Tag) (label : List Char) (s : Space F) : Except Err (Space F) :=
  pushCmd gridOf use tag label s

/-! ## Several input datasets -/

/-- `zip(data.iterator(a), data.iterator(b))`; the second iterator is not started if the first is empty.
(Simplification: both lists are made before the first pair is used.  This is what happens if `a` and `b` are single tags,
since the list of a tag is copied when it is reached.) -/
def pairsOf {F : Type} (s : Space F) (a b : Option Tag) : Except Err (List (Nat × Nat)) := do
  let la ← s.toList a false true .none
  if la.isEmpty then return []
  else do
    let lb ← s.toList b false true .none
    return List.zip (la.map Prod.snd) (lb.map Prod.snd)

/-- The loop of commands/velocity.py:19-28, bparrotate.py:31-39, bperprotate.py:28-36, agyro.py:33-38 and 64-69:

    for x, y in zip(data.iterator(a), data.iterator(b)):
      out = GData(tag=tag, label=label, ctx=x.ctx); out.push(<compute>(x, y)); data.add(out) -/
def zipLoop (f : GData F → GData F → Except Err (List (NArr F) × NArr F)) (a b : Option Tag) (tag label : List Char)
    (s : Space F) : Except Err (Space F) := do
  let pairs ← pairsOf s a b
  pairs.foldlM (init := s) fun s p =>
    match s.heap[p.1]?, s.heap[p.2]? with
    | some x, some y => do
      let (g, v) ← f x y
      let out ← (GData.new tag label x.ctx).push g v
      .ok (s.addNew out)
    | _, _ => .ok s

/-- A function of the values of two datasets; the grid is that of the first. -/
def ofPair (f : NArr F → NArr F → Except Err (NArr F)) (x y : GData F) : Except Err (List (NArr F) × NArr F) :=
  match x.grid, x.values, y.values with
  | some g, some v, some w => do return (g, ← f v w)
  | _, _, _ => .error .typeError

/-- commands/velocity.py:14-33 `velocity`. -/
def velocityCmd [Div F] (density momentum tag label : List Char) (s : Space F) : Except Err (Space F) := do
  let s ← zipLoop (ofPair fun m0 m1 => Tools.div m1 m0) (some density) (some momentum) tag label s
  let s ← s.deactivateAll (some density)
  s.deactivateAll (some momentum)

section
variable [Add F] [Sub F] [Mul F] [Div F] [Zero F] [IntCast F]

/-- commands/bparrotate.py:18-44 `bparrotate`. -/
def bparrotateCmd (array field tag label : List Char) (s : Space F) : Except Err (Space F) := do
  let s ← zipLoop (ofPair fun u b => Tools.parrotate u b "3:6".toList) (some array) (some field) tag label s
  let s ← s.deactivateAll (some array)
  s.deactivateAll (some field)

/-- `perprotate` of two datasets, tools/perprotate.py:14-44. -/
def perpOf (coords : List Char) (x y : GData F) : Except Err (List (NArr F) × NArr F) :=
  match x.grid, x.values, y.values with
  | some g, some v, some w => do return (g, ← Tools.perprotate g v w coords)
  | _, _, _ => .error .typeError

/-- commands/bperprotate.py:18-41 `bperprotate`. -/
def bperprotateCmd (array field tag label : List Char) (s : Space F) : Except Err (Space F) := do
  let s ← zipLoop (perpOf "3:6".toList) (some array) (some field) tag label s
  let s ← s.deactivateAll (some array)
  s.deactivateAll (some field)

/-- commands/parrotate.py:35 and commands/perprotate.py:32: `out.push(outrot, grid)`, the arguments swapped: `set_values`
reads `shape` of a list. -/
def swappedPush (f : GData F → GData F → Except Err (List (NArr F) × NArr F)) (x y : GData F) :
    Except Err (List (NArr F) × NArr F) := do
  let _ ← f x y
  .error .attributeError

/-- commands/parrotate.py:18-42 `parrotate`. -/
def parrotateCmd (array rotator tag label : List Char) (s : Space F) : Except Err (Space F) := do
  let s ← zipLoop (swappedPush (ofPair fun u r => Tools.parrotate u r)) (some array) (some rotator) tag label s
  let s ← s.deactivateAll (some array)
  s.deactivateAll (some rotator)

/-- commands/perprotate.py:18-39 `perprotate`. -/
def perprotateCmd (array rotator tag label : List Char) (s : Space F) : Except Err (Space F) := do
  let s ← zipLoop (swappedPush (perpOf "0:3".toList)) (some array) (some rotator) tag label s
  let s ← s.deactivateAll (some array)
  s.deactivateAll (some rotator)

/-- A function of the values of two datasets; the grid is that of the second. -/
def ofPairSnd (f : NArr F → NArr F → Except Err (NArr F)) (x y : GData F) : Except Err (List (NArr F) × NArr F) :=
  match x.values, y.grid, y.values with
  | some v, some g, some w => do return (g, ← f v w)
  | _, _, _ => .error .typeError

/-- agyro.py:28-31, 59-62: the tag of the result. -/
def agyroTag (tag : Option Tag) : Tag :=
  match tag with
  | some (c :: cs) => c :: cs
  | _ => "agyro".toList

/-- The values `click.Choice` accepts for `--measure` of `agyro` and of `mom_agyro`, agyro.py:10, 44. -/
def agyroChoices : List String := ["swisdak", "frobenius"]
/-- agyro.py:44. -/
def momAgyroChoices : List String := ["swidak", "frobenius"]

/-- commands/agyro.py:19-39 `agyro`.  The grid that `get_agyro` returns is that of the magnetic field. -/
def agyroCmd (sqrt : F → F) (measure : String) (pressure bfield : List Char) (tag : Option Tag) (label : List Char)
    (s : Space F) : Except Err (Space F) :=
  if measure ∈ agyroChoices then
    zipLoop (ofPairSnd fun p b => Tools.getAgyro sqrt p b measure.toList) (some pressure) (some bfield)
      (agyroTag tag) label s
  else .error .fail

/-- commands/agyro.py:51-70 `mom_agyro`. -/
def momAgyroCmd (sqrt : F → F) (measure : String) (species field : Option Tag) (tag : Option Tag) (label : List Char)
    (s : Space F) : Except Err (Space F) :=
  if measure ∈ momAgyroChoices then
    zipLoop (ofPairSnd fun p b => Tools.tenMoment (fun p b => Tools.getAgyro sqrt p b measure.toList) p b) species field
      (agyroTag tag) label s
  else .error .fail

/-- commands/energetics.py:22-31: the three iterators.  (Simplification as for `pairsOf`; an iterator is not started if
one before it is empty.) -/
def triplesOf {F : Type} (s : Space F) (a b c : Option Tag) : Except Err (List (Nat × Nat × Nat)) := do
  let la ← s.toList a false true .none
  if la.isEmpty then return []
  else do
    let lb ← s.toList b false true .none
    if lb.isEmpty then return []
    else do
      let lc ← s.toList c false true .none
      return List.zip (la.map Prod.snd) (List.zip (lb.map Prod.snd) (lc.map Prod.snd))

/-- commands/energetics.py:27-31: one triple. -/
def energyStep (tag label : List Char) (s : Space F) (p : Nat × Nat × Nat) : Except Err (Space F) :=
  match s.heap[p.1]?, s.heap[p.2.1]?, s.heap[p.2.2]? with
  | some x, some y, some z =>
    match x.values, y.values, z.grid, z.values with
    | some u, some v, some g, some w => do
      let r ← Tools.energetics u v w
      let out ← (GData.new tag label z.ctx).push g r
      .ok (s.addNew out)
    | _, _, _, _ => .error .typeError
  | _, _, _ => .ok s

/-- commands/energetics.py:17-37 `energetics`. -/
def energeticsCmd (elc ion field tag label : List Char) (s : Space F) : Except Err (Space F) := do
  let ts ← triplesOf s (some elc) (some ion) (some field)
  let s ← ts.foldlM (energyStep tag label) s
  let s ← s.deactivateAll (some elc)
  let s ← s.deactivateAll (some ion)
  s.deactivateAll (some field)

/-! ## Relative change -/

/-- relchange.py:19, rel_change.py:21: `int(comp)` of the string given with `--comp`. (Simplification as in
`Tools.relComp`: not negative.) -/
def compArg (comp : Option (List Char)) : Except Err (Option Nat) :=
  match comp with
  | none => .ok none
  | some c => do
    let k ← intOrErr c
    return some k.toNat

/-- commands/relchange.py:25-33: one dataset `i`.  The reference is an object of the store, which is read again in every
pass.  With a tag, `GData(compgrid=...)` is a `TypeError`. -/
def relStep (ref : Nat) (comp : Option (List Char)) (out : Tag) (s : Space F) (i : Nat) : Except Err (Space F) :=
  if out ≠ [] then .error .typeError
  else match s.heap[ref]?, s.heap[i]? with
    | some r, some d =>
      match d.grid, d.values, r.values with
      | some g, some v, some v0 => do
        let c ← compArg comp
        let w ← Tools.relChange v0 v c
        let d' ← d.push g w
        .ok (s.update i fun _ => d')
      | _, _, _ => .error .typeError
    | _, _ => .ok s

/-- commands/relchange.py:23-34: the datasets of one tag. -/
def relTag (index : Int) (comp : Option (List Char)) (out : Tag) (s : Space F) (tag : Tag) : Except Err (Space F) := do
  let ref ← s.getDataset index tag
  Space.iterate id (some tag) false true .none (fun s _ i => relStep ref comp out s i) s

/-- commands/relchange.py:17-36 `relchange`. (Simplification: the tags are listed first; no tag is added.) -/
def relchangeCmd (use : Option Tag) (index : Int) (comp : Option (List Char)) (out : Tag) (s : Space F) :
    Except Err (Space F) := do
  let tags ← s.tagIterator use true
  tags.foldlM (relTag index comp out) s

end
end Pgkyl.Cmd
