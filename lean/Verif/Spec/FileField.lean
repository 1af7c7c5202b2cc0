import Verif.Spec.MappedLoad
import Verif.Spec.DgCommands
/-! # Specification: the field a file describes, or the part of it that is loaded -/

namespace Pgkyl.Spec
open Pgkyl

/-- The file stores the field `x`, in one range or in several; component `c` in cell `i` is the word `w i c`. -/
inductive StoresWords (x : Field) (w : List Nat → Nat → Word) : Bytes → Prop
  | one {data : NArr Word} (hd : IsData x.realType data) (hs : data.shape = x.shape)
      (hw : ∀ i c, inRange x.cells i = true → c < x.comps → data.get? (i ++ [c]) = some (w i c)) :
      StoresWords x w (fieldFile x data)
  | many {rgs : List Range} (h : ∀ r ∈ rgs, r.OK x) (hn : rgs.length < 2 ^ 63)
      (hw : ∀ i c, inRange x.cells i = true → c < x.comps → assembled x rgs (i ++ [c]) = some (w i c)) :
      StoresWords x w (multiFile x rgs)

section
variable {F : Type} [_root_.Field F]

/-- The axes of the part of the field that restrictions of the axes stand for: the cells `r.start, …, r.stop n - 1` of `n`
equal cells between the two bounds. -/
def windowAxes (dec : Word → F) : List Nat → List Restr → List Word → List Word → List (Axis F)
  | n :: ns, r :: rs, l :: ls, u :: us =>
    ⟨dec l + (r.start : F) * ((dec u - dec l) / (n : F)), (dec u - dec l) / (n : F), r.stop n - r.start⟩ ::
      windowAxes dec ns rs ls us
  | _, _, _, _ => []

/-- The part of the field as data of an expansion. -/
def windowCase (dec : Word → F) (x : Field) (w : List Nat → Nat → Word) (rs : List Restr) (cr : Restr)
    (order : Nat) (basis : String) (fns : List Dg.Poly) (points : Nat) : DgCase F :=
  { cells := List.zipWith (fun n r => Restr.stop n r - r.start) x.cells rs
    axes := windowAxes dec x.cells rs x.lower x.upper
    m := cr.stop x.comps - cr.start
    f := fun i k => dec (w (List.zipWith (· + ·) i (rs.map Restr.start)) (cr.start + k))
    order := order, basis := basis, fns := fns, points := points }

end

/-- The metadata of a file tell the order `p` and the basis of an expansion, in either spelling. -/
structure SaysDg (m : Dict String) (p : Nat) (b : String) : Prop where
  keys : (m.map Prod.fst).Nodup
  order : ("polyOrder", String.ofList (dec p)) ∈ m ∨ ("poly_order", String.ofList (dec p)) ∈ m
  oneOrder : ∀ v, ("polyOrder", v) ∈ m ∨ ("poly_order", v) ∈ m → v = String.ofList (dec p)
  basis : ("basisType", b) ∈ m ∨ ("basis_type", b) ∈ m
  oneBasis : ∀ v, ("basisType", v) ∈ m ∨ ("basis_type", v) ∈ m → v = b
  modal : ∀ v, ("is_modal", v) ∉ m

/-- What is known of a file with an expansion: the field `x` and its words `w`, its metadata, the order, the basis with its
functions, and the part of the field that is loaded. -/
structure DgFile where
  x : Field
  w : List Nat → Nat → Word
  info : Dict String
  order : Nat
  basis : String
  fns : List Dg.Poly
  rs : List Restr
  cr : Restr

/-- The bytes are such a file: they store the field, `unpack` finds the metadata in it, and these tell the order and the
basis; the part is one of 1 to 6 axes, of which none has length zero; the functions are those of the basis. -/
structure DgFile.OK {F : Type} [_root_.Field F] (unpack : Bytes → Except Err (Option (Dict String))) (dec : Word → F)
    (q : DgFile) (f : Bytes) : Prop where
  stores : StoresWords q.x q.w f
  sizes : q.x.OK (realSize q.x.realType)
  hasMeta : q.x.metaBytes ≠ []
  unpacks : unpack q.x.metaBytes = .ok (some q.info)
  tells : SaysDg q.info q.order q.basis
  order : 1 ≤ q.order
  dims : 1 ≤ q.x.cells.length ∧ q.x.cells.length ≤ 6
  part : List.Forall₂ Restr.OK q.x.cells q.rs ∧ q.cr.OK q.x.comps
  bounds : List.Forall₂ (fun l u => dec l ≠ dec u) q.x.lower q.x.upper
  supported : (windowCase dec q.x q.w q.rs q.cr q.order q.basis q.fns (q.order + 1)).Supported

/-- The loaded part as data of an expansion. -/
def DgFile.case {F : Type} [_root_.Field F] (dec : Word → F) (q : DgFile) : DgCase F :=
  windowCase dec q.x q.w q.rs q.cr q.order q.basis q.fns (q.order + 1)

end Pgkyl.Spec
