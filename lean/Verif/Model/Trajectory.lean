import Verif.Model.Val2coord
/-!
# Model of `commands/trajectory.py`: the pictures of the command

A number that is hidden (`np.nan`) is `none`; the values themselves are numbers.  `None` as a limit is `none`.
-/

namespace Pgkyl
namespace V2c

/-- A point of a picture; a hidden coordinate is `none`. -/
structure Pt (F : Type) where
  x : Option F
  y : Option F
  z : Option F
  deriving DecidableEq

/-- The options `--xmin` to `--zmax`. -/
structure Limits (F : Type) where
  x : Option F × Option F := (none, none)
  y : Option F × Option F := (none, none)
  z : Option F × Option F := (none, none)

/-- What is drawn of one dataset: the line, the number of the colour, the marked point, and the end of the stroke from it. -/
structure Curve (F : Type) where
  points : List (Pt F)
  color : Nat
  mark : Pt F
  stroke : Option (Pt F)
  deriving DecidableEq

/-- A picture: its curves, the time in the title and the limits of the axes. -/
structure Scene (F : Type) where
  curves : List (Curve F)
  time : F
  limits : Limits F

/-- The options of the command that matter for what is drawn. -/
structure TrajOpts (F : Type) where
  use : Option Tag := none
  velocity : Bool := true
  numframes : Option Nat := none
  limits : Limits F := {}

section
variable {F : Type} [Add F] [Sub F] [Mul F] [LT F] [DecidableLT F]

/-- trajectory.py:22-26: `np.where(coords > min, coords, np.nan)` if there is a minimum. -/
def hideBelow (lo : Option F) (x : F) : Option F :=
  match lo with
  | some a => if a < x then some x else none
  | none => some x

/-- trajectory.py:27-29: `np.where(x < max, x, np.nan)` if there is a maximum; comparing with NaN is false. -/
def hideAbove (hi : Option F) (x : Option F) : Option F :=
  match hi, x with
  | some b, some x => if x < b then some x else none
  | _, x => x

/-- trajectory.py:22-45 for one coordinate. -/
def hide (l : Option F × Option F) (x : F) : Option F := hideAbove l.2 (hideBelow l.1 x)

/-- `coords[i, k]`. -/
def entryAt (v : NArr F) (i k : Nat) : Except Err F :=
  match v.get? [i, k] with
  | some x => .ok x
  | none => .error .indexError

/-- trajectory.py:22-45: point `j` of the line. -/
def pointOf (lim : Limits F) (v : NArr F) (j : Nat) : Except Err (Pt F) := do
  let a ← entryAt v j 0
  let b ← entryAt v j 1
  let c ← entryAt v j 2
  return ⟨hide lim.x a, hide lim.y b, hide lim.z c⟩

/-- trajectory.py:22-45: the line.  (Values of a dataset that is not one-dimensional are left out: `fail`.) -/
def pointsOf (lim : Limits F) (v : NArr F) : Except Err (List (Pt F)) :=
  match v.shape with
  | [n, nc] => if nc < 3 then .error .indexError else (List.range n).mapM (pointOf lim v)
  | _ => .error .fail

/-- trajectory.py:55-59: the end of the stroke from a point; the velocity is that of row `i`. -/
def strokeEnd (v : NArr F) (i : Nat) (dt : F) (p : Pt F) : Except Err (Pt F) := do
  let a ← entryAt v i 3
  let b ← entryAt v i 4
  let c ← entryAt v i 5
  return ⟨p.x.map (· + a * dt), p.y.map (· + b * dt), p.z.map (· + c * dt)⟩

/-- trajectory.py:49-60. -/
def strokeOf (wanted : Bool) (time : List F) (v : NArr F) (i leap : Nat) (p : Pt F) : Except Err (Option (Pt F)) :=
  if wanted then do
    let dt ← strokeTime time (i * leap) leap
    let q ← strokeEnd v i dt p
    return some q
  else .ok none

/-- trajectory.py:47-60: the line, the marked point and the stroke. -/
def curveOf (wanted : Bool) (time : List F) (v : NArr F) (i leap k : Nat) (ps : List (Pt F)) : Except Err (Curve F) :=
  match ps[i * leap]? with
  | none => .error .indexError
  | some p => do
    let st ← strokeOf wanted time v i leap p
    return ⟨ps, k % 10, p, st⟩

/-- trajectory.py:18-60 for the dataset with number `k`: what is drawn, and its times. -/
def drawSet (o : TrajOpts F) (i leap k : Nat) (d : GData F) : Except Err (Curve F × List F) :=
  match d.grid, d.values with
  | some (t :: _), some v => do
    let ps ← pointsOf o.limits v
    let c ← curveOf (o.velocity && decide (d.numComps = 6)) t.data v i leap k ps
    return (c, t.data)
  | some [], _ => .error .indexError
  | _, _ => .error .typeError

/-- trajectory.py:17-62: one dataset of the loop; `s` is the number of those drawn before. -/
def drawStep (o : TrajOpts F) (i leap : Nat) (s : Space F) (acc : List (Curve F) × Option (List F)) (id : Nat) :
    Except Err (List (Curve F) × Option (List F)) :=
  match s.heap[id]? with
  | none => .ok acc
  | some d => (drawSet o i leap acc.1.length d).map fun r => (acc.1 ++ [r.1], some r.2)

/-- trajectory.py:63: the time of the title is that of the dataset drawn last; without one the name is unbound. -/
def titleTime (time : Option (List F)) (t : Nat) : Except Err F :=
  match time with
  | none => .error .unboundLocal
  | some ts => match ts[t]? with
    | some a => .ok a
    | none => .error .indexError

/-- trajectory.py:11-69 `_update`: picture `i`. -/
def scene (o : TrajOpts F) (s : Space F) (tag : Tag) (leap i : Nat) : Except Err (Scene F) := do
  let (cs, time) ← Space.iterate (σ := List (Curve F) × Option (List F)) (fun _ => s) (some tag) false true .none
    (fun acc _ id => drawStep o i leap s acc id) ([], none)
  let t ← titleTime time (i * leap)
  return ⟨cs, t, o.limits⟩

/-- trajectory.py:107-119: the pictures for one tag.  Their number comes from the first dataset with the tag. -/
def scenes (o : TrajOpts F) (s : Space F) (tag : Tag) : Except Err (List (Scene F)) := do
  let id ← s.getDataset 0 tag
  match (s.heap[id]?).bind GData.numCells with
  | none => .error .typeError
  | some [] => .error .indexError
  | some (n :: _) => (List.range (frames n o.numframes).1).mapM (scene o s tag (frames n o.numframes).2)

/-- trajectory.py:90-119 `trajectory`: the pictures.  More than one tag is a usage error (`fail`). -/
def trajectory (o : TrajOpts F) (s : Space F) : Except Err (List (Scene F)) := do
  match ← s.tagIterator o.use true with
  | [] => .error .indexError
  | [tag] => scenes o s tag
  | _ => .error .fail

end
end V2c
end Pgkyl
