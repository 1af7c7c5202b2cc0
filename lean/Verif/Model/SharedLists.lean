import Verif.Model.Write
/-!
# Shared grid lists

In the other modules the grid of a dataset is a value.  Here the Python list of its coordinate arrays is an object: a dataset
holds the address of its list, and the commands that change a list in place change it for every dataset that holds it.  (The
arrays in the list are values here; see Model/Sharing.lean for arrays changed in place.)
-/

namespace Pgkyl.Lists

variable {F : Type}

/-- A dataset: the address of the list of its coordinate arrays, and its values (gdata.py:80-81). -/
structure Dat (F : Type) where
  grid : Nat
  values : NArr F
  deriving DecidableEq, Repr

/-- The grid lists that exist, by address, and the datasets. -/
structure Heap (F : Type) where
  lists : List (List (NArr F)) := []
  data : List (Dat F) := []
  deriving DecidableEq, Repr

/-- What a command does to the store, for one dataset. -/
inductive Op (F : Type) where
  /-- a dataset with a list of its own: a file is loaded, or the result of select, integrate, interpolate, differentiate, ev,
  collect, grid, val2coord, growth with `--tag` (select.py:31, calculus.py:31, dg.py, ev.py:221-226 build new lists) -/
  | make (grid : List (NArr F)) (values : NArr F)
  /-- a dataset with the list of `src`: euler, mhd, tenmoment, magsq with `--tag`, velocity, current, energetics, relchange
  (prim_vars.py:14-20 `grid, in_values = input_parser(in_mom)` ... `out_mom.push(grid, out_values)`, gdata.py:259-263, 289-291) -/
  | share (src : Nat) (values : NArr F)
  /-- the first group of commands without `--tag`: the dataset gets a new list -/
  | replace (src : Nat) (grid : List (NArr F)) (values : NArr F)
  /-- the second group without `--tag`: the dataset keeps its list -/
  | update (src : Nat) (values : NArr F)
  /-- fft, with `--tag` (`new`) or without; `grid` and `values` are its results (tools/fft.py:31-46, commands/fft.py:26-34) -/
  | fft (src : Nat) (new : Bool) (grid : List (NArr F)) (values : NArr F)
  /-- write with the extension txt (gdata.py:581-611) -/
  | text (src : Nat)

namespace Heap

/-- gdata.py:259-260 `get_grid`: the coordinates the user sees. -/
def gridOf (h : Heap F) (d : Dat F) : List (NArr F) := (h.lists[d.grid]?).getD []

/-- A dataset with a new list. -/
def add (h : Heap F) (g : List (NArr F)) (v : NArr F) : Heap F :=
  { lists := h.lists ++ [g], data := h.data ++ [⟨h.lists.length, v⟩] }

/-- gdata.py:289-291 `push` with a new list. -/
def renew (h : Heap F) (src : Nat) (g : List (NArr F)) (v : NArr F) : Heap F :=
  { lists := h.lists ++ [g], data := h.data.set src ⟨h.lists.length, v⟩ }

/-- tools/fft.py:35-44 `grid.pop(i)` for the axes with at most two entries. -/
def pop (g : List (NArr F)) : List (NArr F) := g.filter fun a => decide (2 < a.data.length)

/-- gdata.py:597-609: the rows need an entry of each centred axis for each cell. -/
def rowsFit (g : List (NArr F)) (cells : List Nat) : Bool :=
  (g.zip cells).all fun p => decide (p.2 ≤ p.1.data.length)

variable [Add F] [Mul F] [Div F] [IntCast F]

/-- One command.  Simplifications: the results of the computations are given; fft is only called for data it can transform. -/
def step (h : Heap F) : Op F → Except Err (Heap F)
  | .make g v => .ok (h.add g v)
  | .share src v => match h.data[src]? with
    | none => .error .keyError
    | some d => .ok { h with data := h.data ++ [⟨d.grid, v⟩] }
  | .replace src g v => match h.data[src]? with
    | none => .error .keyError
    | some _ => .ok (h.renew src g v)
  | .update src v => match h.data[src]? with
    | none => .error .keyError
    | some d => .ok { h with data := h.data.set src ⟨d.grid, v⟩ }
  | .fft src new g v => match h.data[src]? with
    | none => .error .keyError
    | some d =>
      if new then .ok ({ h with lists := h.lists.modify d.grid pop }.add g v)
      else .ok ({ h with lists := h.lists.modify d.grid pop }.renew src g v)
  | .text src => match h.data[src]? with
    | none => .error .keyError
    | some d => match centreAxes (d.values.shape.length - 1) (h.gridOf d) with
      | .error e => .error e
      | .ok g =>
        if rowsFit g d.values.shape.dropLast then .ok { h with lists := h.lists.set d.grid g }
        else .error .indexError

/-- A session. -/
def run (ops : List (Op F)) : Except Err (Heap F) := ops.foldlM step {}

end Heap
end Pgkyl.Lists
