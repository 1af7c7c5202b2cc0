import Verif.Model.GDataFile
/-!
# Model of loading data with a mapped grid

gkyl_reader.py:496-559: `GData(file, mapc2p_name=…, mapc2p_vel_name=…)` for `.gkyl` files.
-/

namespace Pgkyl
namespace GkylReader

section
variable {F : Type}

/-- gkyl_reader.py:505, 515: the array a reader returns. -/
def Loaded.array : Loaded → NArr Word
  | .field _ a => a
  | .dynvec dv => ⟨[dv.rows, dv.comps], dv.data⟩

/-- gkyl_reader.py:506-508: the last axis of the mapping in `nd` equal parts.  (Simplification: `int(d * num_coeff)` with
the exact quotient instead of a float; no dimension at all, a ZeroDivisionError, gives no part here.) -/
def c2pGrid (nd : Nat) (tmp : NArr F) : Except Err (List (NArr F)) :=
  match tmp.shape.getLast? with
  | none => .error .indexError
  | some n => .ok ((List.range nd).map fun d =>
      tmp.slice (tmp.shape.dropLast.map (fun m => (0, m)) ++ [(d * n / nd, (d + 1) * n / nd)]))

/-- gkyl_reader.py:531-534: the array of velocity direction `d`: all cells along axis `d`, cell 0 along the others, and the
part `d` of `vdim` equal parts of the components.  The same simplification as for `c2pGrid`. -/
def velAxis (tmp : NArr F) (vdim n d : Nat) : Except Err (NArr F) :=
  if 0 ∈ (tmp.shape.take vdim).eraseIdx d then .error .indexError
  else match tmp.shape[d]? with
    | none => .error .indexError
    | some m => .ok (NArr.ofFn [m, (d + 1) * n / vdim - d * n / vdim] fun idx =>
        tmp.get? ((List.replicate vdim 0).set d (idx.headD 0) ++ [d * n / vdim + idx.getLastD 0]))

/-- gkyl_reader.py:517, 529-535; an array with one axis only is a division by zero. -/
def velAxes (tmp : NArr F) : Except Err (List (NArr F)) :=
  match tmp.shape.getLast? with
  | none => .error .indexError
  | some n =>
    if tmp.shape.length - 1 = 0 then .error .fail
    else (List.range (tmp.shape.length - 1)).mapM (velAxis tmp (tmp.shape.length - 1) n)

end

end GkylReader

namespace GData
variable {F : Type} [Add F] [Sub F] [Mul F] [Div F] [IntCast F]

/-- gkyl_reader.py:503-505, 513-515: the mapping file is read by a reader of its own, all of it, with a context of its own
(gkyl_reader.py:129-134). -/
def mapArray (unpack : Bytes → Except Err (Option (Dict String))) (dec : Word → F) (f : Bytes) : Except Err (NArr F) := do
  let r ← GkylReader.load unpack "True" (GkylReader.Cfg.make [] none) [("grid_type", "uniform")] f
  return r.1.array.map dec

/-- gkyl_reader.py:466-471, 503-537: the dataset for a field with a mapping.  The cells and bounds are those of the domain;
the extents of the array are not looked at. -/
def mappedField (unpack : Bytes → Except Err (Option (Dict String))) (dec : Word → F) (cfg : GkylReader.Cfg)
    (tag label : List Char) (c : Dict String) (dom : GkylReader.Dom) (a : NArr Word) (vel : Bool) (m : Bytes) :
    Except Err (GData F) := do
  let tmp ← mapArray unpack dec m
  let ax ← GkylReader.uniformAxes cfg.partialLoad dom.cells dom.origCells dom.globOffs
    (dom.lower.map dec) (dom.upper.map dec) (dom.cells.map Int.toNat)
  let vdim := tmp.shape.length - 1
  let (grid, other) ←
    if vel then (GkylReader.velAxes tmp).map fun vs =>
      ((ax.take (dom.numDims - vdim)).map (fun q => NArr.ofList q.2) ++ vs,
        Dict.set (Dict.set (Dict.set c "num_vdim" (String.ofList (pyStr vdim)))
          "num_cdim" (String.ofList (pyStr ((dom.numDims : Int) - vdim)))) "grid_type" "c2p_vel")
    else (GkylReader.c2pGrid dom.numDims tmp).map fun g => (g, Dict.set c "grid_type" "c2p")
  return {
    grid := some grid
    values := some (a.map dec)
    ctx := {
      cells := some (dom.cells.map Int.toNat)
      numComps := some dom.numComps.toNat
      lower := some (ax.map fun q => q.1.1)
      upper := some (ax.map fun q => q.1.2)
      other := other }
    tag := tag
    customLabel := label }

/-- gdata.py:105-138 and gkyl_reader.py:461-559: `GData(file, mapc2p_name=c2p, mapc2p_vel_name=vel, z0=.., .., comp=..)`;
`c2p` and `vel` are the contents of these files.  A mapping does not matter for time traces, and `c2p` goes first. -/
def ofMapped (unpack : Bytes → Except Err (Option (Dict String))) (dec : Word → F)
    (cfg : GkylReader.Cfg) (tag label : List Char) (ctx : Ctx F) (c2p vel : Option Bytes) (f : Bytes) :
    Except Err (GData F) :=
  match GkylReader.compatible f with
  | none => .error .fail
  | some _ => do
    let c0 : Dict String := if (Dict.get? ctx.other "grid_type").isSome then ctx.other
      else Dict.set ctx.other "grid_type" "uniform"
    let (l, c) ← GkylReader.load unpack "True" cfg c0 f
    match l, c2p, vel with
    | .field dom a, some m, _ => mappedField unpack dec cfg tag label c dom a false m
    | .field dom a, none, some m => mappedField unpack dec cfg tag label c dom a true m
    | _, _, _ => ofFile unpack dec cfg tag label ctx f

end GData
end Pgkyl
