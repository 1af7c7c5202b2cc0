import Verif.Model.Write
/-! # Datasets with shared references

`GData` objects hold references to a grid list and to a metadata dictionary.  `World` is a heap of
such lists, dictionaries and objects, so that two objects can share one. -/

namespace Pgkyl

/-- A `GData` object as references (gdata.py:80-103).  Value arrays are kept as values: no operation
modelled here writes into an existing array. -/
structure Obj (F : Type) where
  gridRef : Option Nat := none
  values : Option (NArr F) := none
  ctxRef : Nat

/-- Grid lists, metadata dictionaries and datasets, each named by position. -/
structure World (F : Type) where
  grids : List (List (NArr F)) := []
  ctxs : List (Ctx F) := []
  objs : List (Obj F) := []

namespace World
variable {F : Type}

/-- What object `k` looks like from outside (`grid`, `values` and `ctx` attributes). -/
def view (w : World F) (k : Nat) : Option (GData F) :=
  match w.objs[k]? with
  | none => none
  | some o =>
    some { grid := o.gridRef.bind fun r => w.grids[r]?, values := o.values,
           ctx := (w.ctxs[o.ctxRef]?).getD {} }

/-- gdata.py:80-89 `GData(ctx=src.ctx)`: a new, empty dictionary into which the keys of the given one
are copied. -/
def create (w : World F) (src : Option Nat) : World F :=
  let c : Ctx F := match src with
    | none => {}
    | some j => match w.view j with
      | none => {}
      | some d => d.ctx
  { w with ctxs := w.ctxs ++ [c], objs := w.objs ++ [{ ctxRef := w.ctxs.length }] }

/-- Writing back the metadata of object `k` into its own dictionary, in place. -/
def setCtx (w : World F) (k : Nat) (c : Ctx F) : World F :=
  match w.objs[k]? with
  | none => w
  | some o => { w with ctxs := w.ctxs.set o.ctxRef c }

/-- Changing the object record. -/
def setObj (w : World F) (k : Nat) (f : Obj F → Obj F) : World F := { w with objs := w.objs.modify k f }

/-- gdata.py:280-285 `set_values`. -/
def setValues (w : World F) (k : Nat) (v : NArr F) : Except Err (World F) :=
  match w.view k with
  | none => .error .keyError
  | some d => do
    let d' ← d.setValues v
    return (w.setCtx k d'.ctx).setObj k fun o => { o with values := d'.values }

variable [Min F] [Max F]

/-- gdata.py:262-270 `set_grid` with a freshly made list. -/
def setGridNew (w : World F) (k : Nat) (g : List (NArr F)) : Except Err (World F) :=
  match w.view k with
  | none => .error .keyError
  | some d => do
    let d' ← d.setGrid g
    return { (w.setCtx k d'.ctx).setObj k fun o => { o with gridRef := some w.grids.length } with
      grids := w.grids ++ [g] }

/-- gdata.py:262-270 `set_grid(other.get_grid())`: the list object itself is shared. -/
def setGridOf (w : World F) (k j : Nat) : Except Err (World F) :=
  match w.view k, w.objs[j]? with
  | some d, some oj => match oj.gridRef with
    | none => .error .typeError
    | some r => match w.grids[r]? with
      | none => .error .keyError
      | some g => do
        let d' ← d.setGrid g
        return (w.setCtx k d'.ctx).setObj k fun o => { o with gridRef := some r }
  | _, _ => .error .keyError

/-- A direct assignment to a metadata key, e.g. `dat.ctx["time"] = ...`. -/
def setKey (w : World F) (k : Nat) (key val : String) : World F :=
  match w.view k with
  | none => w
  | some d => w.setCtx k { d.ctx with other := Dict.set d.ctx.other key val }

variable [Add F] [Mul F] [Div F] [IntCast F]

/-- gdata.py:581-611 `write(extension="txt")` on a reference: the assignments `grid[d] = ...` go to
the list object the dataset refers to. -/
def writeTxt (w : World F) (k : Nat) : Except Err (List (List F)) × World F :=
  match w.view k, w.objs[k]? with
  | some d, some o =>
    let (r, d') := Pgkyl.writeTxt d
    match o.gridRef, d'.grid with
    | some g, some l => (r, { w with grids := w.grids.set g l })
    | _, _ => (r, w)
  | _, _ => (.error .keyError, w)

/-- The operations on datasets considered here; the number is the object operated on. -/
inductive Op (F : Type) where
  | create (src : Option Nat)
  | setValues (k : Nat) (v : NArr F)
  | setGridNew (k : Nat) (g : List (NArr F))
  | setGridOf (k j : Nat)
  | push (k : Nat) (g : List (NArr F)) (v : NArr F)
  | setKey (k : Nat) (key val : String)
  | writeTxt (k : Nat)

/-- One operation; a raised exception leaves the world as it is (simplification, see `GData.setGrid`). -/
def step (w : World F) : Op F → World F
  | .create src => w.create src
  | .setValues k v => match w.setValues k v with | .ok w' => w' | .error _ => w
  | .setGridNew k g => match w.setGridNew k g with | .ok w' => w' | .error _ => w
  | .setGridOf k j => match w.setGridOf k j with | .ok w' => w' | .error _ => w
  | .push k g v => match (do (← w.setValues k v).setGridNew k g) with | .ok w' => w' | .error _ => w
  | .setKey k key val => w.setKey k key val
  | .writeTxt k => (w.writeTxt k).2

/-- The object an operation is called on. -/
def Op.target : Op F → Option Nat
  | .create _ => none
  | .setValues k _ | .setGridNew k _ | .setGridOf k _ | .push k _ _ | .setKey k _ _ | .writeTxt k => some k

end World
end Pgkyl
