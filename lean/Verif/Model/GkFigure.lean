import Verif.Model.GkNodes
import Verif.Model.Contour
import Verif.Model.DgCommands
/-!
# Model of the figure of the command `gk_nodes`

`src/postgkyl/commands/gk_nodes.py` and `utils/gk_utils.py`: the size of the figure and the place of the axes, the lines through
the nodes, their colours, and the poloidal flux.  Fonts, labels and the wall are left out.  Reading a file and reading a decimal
number are parameters.
-/

namespace Pgkyl
namespace Gk

section
variable {F : Type} [Add F] [Sub F] [Mul F] [Div F] [Neg F] [NatCast F] [LT F] [DecidableLT F]

/-! ## Layout -/

/-- gk_nodes.py:180-181: one coordinate, widened by the positions of a block: `[min([ex[0], np.amin(v)]), max([ex[1], np.amax(v)])]`. -/
def widenEx (ex : F × F) (values : List F) : Except Err (F × F) := do
  let lo ← Plot.minOf values
  let hi ← Plot.maxOf values
  return (if lo < ex.1 then lo else ex.1, if ex.2 < hi then hi else ex.2)

/-- gk_nodes.py:171-181: one block. -/
def widenBlock (sqrt : F → F) (read : Str → Option (NArr F × Ctx F)) (file : Str) (ex : (F × F) × (F × F)) (b : Int) :
    Except Err ((F × F) × (F × F)) :=
  match read (replaceStar file (pyStr b)) with
  | none => .error .osError
  | some (v, ctx) => do
    let (r, z) ← nodesToRZ sqrt v.squeeze (isGeoMapc2p ctx)
    let er ← widenEx ex.1 r.data
    let ez ← widenEx ex.2 z.data
    return (er, ez)

/-- gk_nodes.py:168-169: the first values, `[1e9, -1e9]`. -/
def startEx : F × F := (((10 ^ 9 : Nat) : F), -((10 ^ 9 : Nat) : F))

/-- A box in the figure: position of the lower left corner, width and height, as fractions of the figure. -/
structure Box (F : Type) where
  left : F
  bottom : F
  width : F
  height : F
  deriving DecidableEq

/-- The size of the figure in inches, the axes and the colour bar. -/
structure Layout (F : Type) where
  width : F
  height : F
  axes : Box F
  bar : Box F
  deriving DecidableEq

/-- A number of hundredths. -/
def cent (n : Nat) : F := (n : F) / ((100 : Nat) : F)

/-- gk_nodes.py:191-192: the part of the width of the figure that the axes take. -/
def axesPart (a : F) : F := (cent 836 * a) / (cent 836 * a + cent 250)

/-- gk_nodes.py:191-192: the axes. -/
def axesBox (indent add a : F) : Box F := ⟨cent 82 - axesPart a + indent, cent 8, axesPart a + add, cent 88⟩

/-- gk_nodes.py:193: the colour bar. -/
def barBox (ax : Box F) : Box F := ⟨ax.left + ax.width + cent 1, ax.bottom, cent 2, ax.height⟩

/-- gk_nodes.py:185-196: the layout for the extreme positions. -/
def layoutOf (indent add : F) (ex : (F × F) × (F × F)) : Layout F :=
  let a := (ex.1.2 - ex.1.1) / (ex.2.2 - ex.2.1)
  ⟨cent 836 * a + cent 250, cent 836 + cent 114, axesBox indent add a, barBox (axesBox indent add a)⟩

/-- gk_nodes.py:155-196: the layout of the figure of a call. -/
def figureOf (sqrt : F → F) (read : Str → Option (NArr F × Ctx F)) (o : Files) (multib nodes : Str) (numFiles : Nat)
    (indent add : F) : Except Err (Layout F) := do
  let blocks ← getBlockIndices multib numFiles
  let ex ← blocks.foldlM (widenBlock sqrt read (nodesFile o multib nodes)) (startEx, startEx)
  return layoutOf indent add ex

end

/-! ## Lines and their colours -/

section
variable {F : Type}

/-- The point `(R, Z)` of an array of segments. -/
def pointAt (s : NArr F) (i j : Nat) : Option (F × F) :=
  match s.get? [i, j, 0], s.get? [i, j, 1] with
  | some r, some z => some (r, z)
  | _, _ => none

/-- `LineCollection(s)`: one line per entry of the first axis. -/
def linesOf (s : NArr F) : List (List (F × F)) :=
  match s.shape with
  | [m, n, _] => (List.range m).map fun i => (List.range n).filterMap (pointAt s i)
  | _ => []

/-- gk_nodes.py:225-234: the lines drawn of a block whose nodes file has `cdim` directions. -/
def strokes (cdim : Nat) (r z : NArr F) : Except Err (List (List (F × F))) :=
  if cdim = 1 then .ok [r.data.zip z.data]
  else (segments r z).map fun s => linesOf s ++ linesOf (swapSegments s)

/-- gk_nodes.py:204-208, 224: the colour of the `k`-th block; without colours an IndexError, or a StopIteration (`fail`). -/
def blockColor (colors : List Str) (unicolor : Bool) (k : Nat) : Except Err Str :=
  match colors with
  | [] => .error (if unicolor then .indexError else .fail)
  | c :: cs => if unicolor then .ok c else .ok ((c :: cs).getD (k % (c :: cs).length) c)

end

/-! ## Flux -/

section
variable {F : Type} [Add F] [Sub F] [Mul F] [Div F] [Neg F] [Zero F] [One F] [IntCast F] [NatCast F]

/-- gk_utils.py:57-73 `read_interp_gfile` for the dataset of the file. -/
def readInterp (order : Nat) (basis : String) (comp : Nat) (d : GData F) : Except Err (List (NArr F) × NArr F) := do
  let src ← Cmd.sourceOf d
  let o ← Dg.modalInit src (some order) (some basis) none
  let (g, v) ← Dg.modalInterpolate o (.int comp)
  return (g.map NArr.squeeze, v.squeeze)

/-- gk_nodes.py:268-281: the levels.  A range asks for a variable that does not exist (NameError, `fail`). -/
def psiLevels (toFloat : Str → Option F) (clevels : Option Str) (cnlevels : Int) : Except Err (Plot.Levels F) :=
  match clevels with
  | none | some [] => .ok (.count cnlevels)
  | some (c :: cs) => if ':' ∈ c :: cs then .error .fail else Plot.levelsOf toFloat (c :: cs)

/-- What is handed to Matplotlib: positions in both directions and a matrix with one row per position in the second. -/
structure FluxPicture (F : Type) where
  x : List F
  y : List F
  matrix : NArr F
  /-- The levels of contours; none for coloured cells. -/
  levels : Option (Plot.Levels F)
  bar : Bool

/-- gk_nodes.py:258-301: the picture of the flux (order 2, tensor basis). -/
def fluxPicture (half : F) (toFloat : Str → Option F) (contour : Bool) (clevels : Option Str) (cnlevels : Int) (d : GData F) :
    Except Err (FluxPicture F) := do
  let (g, v) ← readInterp 2 "mt" 0 d
  match g with
  | gx :: gy :: _ =>
    if contour then do
      let l ← psiLevels toFloat clevels cnlevels
      return ⟨centres half gx.data, centres half gy.data, v.transpose, some l, Plot.levelsBar true l⟩
    else return ⟨gx.data, gy.data, v.transpose, none, true⟩
  | _ => .error .indexError

/-- gk_nodes.py:341-352: limits `lower,upper` of one axis; an empty text counts as not given. -/
def axisLimits (toFloat : Str → Option F) (t : Option Str) : Except Err (Option (F × F)) :=
  match t with
  | none | some [] => .ok none
  | some (c :: cs) =>
    match splitOn ',' (c :: cs) with
    | a :: b :: _ => do
      let lo ← Plot.asFloat toFloat a
      let hi ← Plot.asFloat toFloat b
      return some (lo, hi)
    | _ => do
      let _ ← Plot.asFloat toFloat (c :: cs)
      .error .indexError

end
end Gk
end Pgkyl
