import Verif.Model.EvDiff
/-!
# Model of `calc_enstrophy`

`src/postgkyl/tools/calc_enstrophy.py`.  Reading a file is a parameter: the values of frame `i`.
-/

namespace Pgkyl
namespace Tools

section
variable {F : Type} [Add F] [Sub F] [Mul F] [Div F] [Zero F] [IntCast F]

/-- `np.gradient(f, dx, edge_order=2)` (library) at position `i` of a line of `n` values. -/
def uniformSlope (dx : F) (f : Nat → F) (n i : Nat) : F :=
  let two : F := ((2 : Int) : F)
  if i = 0 then
    ((0 - ((3 : Int) : F) / two) / dx) * f 0 + (two / dx) * f 1 + ((0 - ((1 : Int) : F) / two) / dx) * f 2
  else if i = n - 1 then
    ((((1 : Int) : F) / two) / dx) * f (n - 3) + ((0 - two) / dx) * f (n - 2) + ((((3 : Int) : F) / two) / dx) * f (n - 1)
  else (f (i + 1) - f (i - 1)) / (two * dx)

/-- calc_enstrophy.py:43-49: a component of the velocity in cell `idx`. -/
def velocityAt (v : NArr F) (c : Nat) (idx : List Nat) : F :=
  (v.get? (idx ++ [c + 1])).getD 0 / (v.get? (idx ++ [0])).getD 0

/-- calc_enstrophy.py:51-65: the derivative along `ax` of component `c` of the velocity in cell `idx`. -/
def velocitySlope (d : List F) (cells : List Nat) (v : NArr F) (c ax : Nat) (idx : List Nat) : F :=
  uniformSlope (d.getD ax 0) (fun j => velocityAt v c (idx.set ax j)) (cells.getD ax 0) (idx.getD ax 0)

/-- calc_enstrophy.py:68: the square of the curl in cell `idx`. -/
def curlSquare (d : List F) (cells : List Nat) (v : NArr F) (idx : List Nat) : F :=
  let s (c ax : Nat) : F := velocitySlope d cells v c ax idx
  (s 2 1 - s 1 2) * (s 2 1 - s 1 2) + (s 0 2 - s 2 0) * (s 0 2 - s 2 0) + (s 1 0 - s 0 1) * (s 1 0 - s 0 1)

/-- calc_enstrophy.py:76: `np.trace(np.transpose(A)*A)*rho` in cell `idx`; the product is that of the entries. -/
def incomAt (d : List F) (cells : List Nat) (v : NArr F) (idx : List Nat) : F :=
  (((List.range 3).map fun c => velocitySlope d cells v c c idx * velocitySlope d cells v c c idx).sum) *
    (v.get? (idx ++ [0])).getD 0

/-- calc_enstrophy.py:72-77: one cell of the array that is summed; the loops leave out the last cell of every direction, whose
entry stays 0. -/
def incomCell (d : List F) (cells : List Nat) (v : NArr F) (idx : List Nat) : F :=
  if (List.zip idx cells).all fun p => decide (p.1 < p.2 - 1) then incomAt d cells v idx else 0

/-- calc_enstrophy.py:69, 78: sum over the cells times the volume of a cell. -/
def overCells (d : List F) (cells : List Nat) (g : List Nat → F) : F :=
  ((indices cells).map g).sum * d.getD 0 0 * d.getD 1 0 * d.getD 2 0

/-- The numbers of cells of three-dimensional data; at least three along each direction for `np.gradient`, and four
components. -/
def cells3 (v : NArr F) : Except Err (List Nat) :=
  match v.shape with
  | [a, b, c, m] => if a < 3 ∨ b < 3 ∨ c < 3 then .error .valueError else if m < 4 then .error .indexError else .ok [a, b, c]
  | _ => .error .indexError

/-- calc_enstrophy.py:39-79: frame number `r` of the output.  `incom_enstrophy` is the same array as `enstrophy` (line 33), so
both assignments are to the one array. -/
def enstrophyStep (d : List F) (read : Nat → Except Err (NArr F)) (out : List F) (r frame : Nat) : Except Err (List F) := do
  let v ← read frame
  let cells ← cells3 v
  let out := out.set r (overCells d cells (curlSquare d cells v))
  let out := out.set r (overCells d cells (incomCell d cells v))
  return out

/-- calc_enstrophy.py:24-29: the width of the first cell of each direction. -/
def firstWidths (grid : List (List F)) : Except Err (List F) :=
  (List.range 3).mapM fun k => match grid[k]? with
    | some (a :: b :: _) => .ok (b - a)
    | _ => .error .indexError

/-- calc_enstrophy.py:8-82 `calc_enstrophy` for frames `init` to `final` with the grid of the first one.  (Simplification: the frames have
the same size.) -/
def calcEnstrophy (grid : List (List F)) (read : Nat → Except Err (NArr F)) (init final : Nat) :
    Except Err (List F × List F) := do
  let d ← firstWidths grid
  let out ← (List.range (final + 1 - init)).foldlM (fun out r => enstrophyStep d read out r (init + r))
    (List.replicate (final + 1 - init) 0)
  return (out, out)

end
end Tools
end Pgkyl
