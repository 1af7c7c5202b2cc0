import Verif.Model.GData
import Verif.Model.GkylReader
/-! # Loading and saving datasets: `gdata.py` with the `.gkyl` reader and writer -/

namespace Pgkyl

namespace NArr
/-- Elementwise conversion. -/
def map {α β : Type} (g : α → β) (a : NArr α) : NArr β := ⟨a.shape, a.data.map g⟩
end NArr

namespace GData
variable {F : Type} [Add F] [Sub F] [Mul F] [Div F] [IntCast F]

/-- gdata.py:105-138 and gkyl_reader.py:461-559: `GData(file, z0=.., .., comp=..)` for a file the
`.gkyl` reader accepts, without mapped coordinates.  Metadata values are strings here; `dec` decodes a
stored float.  The context keys `cells`, `lower`, `upper`, `num_comps` become fields of `Ctx`
(gkyl_reader.py:466-471; the arrays are shared with the reader, so later adjustments at lines 543-551
show up in them).  `grid_type` is set at lines 133-134, 500, 554.
Not modelled: other readers (a file without the magic bytes is an error here), `c2p` and `c2p_vel` (see Model/MappedLoad.lean). -/
def ofFile (unpack : Bytes → Except Err (Option (Dict String))) (dec : Word → F)
    (cfg : GkylReader.Cfg) (tag label : List Char) (ctx : Ctx F) (f : Bytes) :
    Except Err (GData F) :=
  match GkylReader.compatible f with
  | none => .error .fail
  | some _ => do
    let c0 : Dict String := if (Dict.get? ctx.other "grid_type").isSome then ctx.other
      else Dict.set ctx.other "grid_type" "uniform"
    let (l, c) ← GkylReader.load unpack "True" cfg c0 f
    match l with
    | .field dom a => do
      let ax ← GkylReader.uniformAxes cfg.partialLoad dom.cells dom.origCells dom.globOffs
        (dom.lower.map dec) (dom.upper.map dec) a.shape
      return {
        grid := some (ax.map fun q => NArr.ofList q.2)
        values := some (a.map dec)
        ctx := {
          cells := some (a.shape.take dom.numDims)
          numComps := some dom.numComps.toNat
          lower := some (ax.map fun q => q.1.1)
          upper := some (ax.map fun q => q.1.2)
          other := Dict.set c "grid_type" "uniform" }
        tag := tag
        customLabel := label }
    | .dynvec dv =>
      return {
        grid := some [NArr.ofList (dv.time.map dec)]
        values := some ⟨[dv.rows, dv.comps], dv.data.map dec⟩
        ctx := { ctx with other := Dict.set c "grid_type" "nodal" }
        tag := tag
        customLabel := label }

end GData

section write
variable {F : Type} [Min F] [Max F]

/-- gdata.py:507-514 and 549-580 `write(extension="gkyl")`: the bytes of the file.  `enc` encodes one
double.  Datasets without values or bounds are an error here (simplification). -/
def writeGkyl (enc : F → Word) (d : GData F) : Except Err Bytes := do
  let b ← d.bounds
  match d.values, b, d.numCells with
  | some v, some (lo, up), some cells =>
    .ok ([103, 107, 121, 108, 48] ++ encI8 1 ++ encI8 1 ++ encI8 0 ++ encI8 2 ++
      encI8 d.numDims ++ (cells.flatMap fun (n : Nat) => encI8 n) ++ lo.flatMap enc ++ up.flatMap enc ++
      encI8 (d.numComps * 8) ++ encI8 v.data.length ++ v.data.flatMap enc)
  | _, _, _ => .error .typeError

end write

end Pgkyl
