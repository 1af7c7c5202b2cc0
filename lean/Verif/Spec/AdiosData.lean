import Verif.Spec.Adios
import Verif.Model.AdiosData
import Verif.Spec.DgCommands
/-! # Specification: the dataset of an ADIOS frame -/

namespace Pgkyl.Spec
open Pgkyl Adios

section
variable {F : Type}

/-- Attributes and the keys under which a dataset has them. -/
def attrKeys : List (String × String) :=
  [("changeset", "changeset"), ("builddate", "builddate"), ("polyOrder", "poly_order"), ("basisType", "basis_type"),
   ("charge", "charge"), ("mass", "mass")]

/-- The context has the metadata of the file: the attributes it has, time and frame number if they are there, and that the
data are modal if order or basis are known; and, next to the type of the grid, nothing else. -/
structure FrameMeta (shw : NArr F → String) (f : File F) (c : Dict String) : Prop where
  attrs : ∀ p ∈ attrKeys, Dict.get? c p.2 = Dict.get? f.attrs p.1
  time : Dict.get? c "time" = (Dict.get? f.vars "time").map shw
  frame : Dict.get? c "frame" = (Dict.get? f.vars "frame").map shw
  modal : Dict.get? c "is_modal" =
    if Dict.get? f.attrs "polyOrder" = none ∧ Dict.get? f.attrs "basisType" = none then none else some "True"
  only : ∀ k, k ≠ "grid_type" → k ∉ attrKeys.map Prod.snd → k ∉ ["time", "frame", "is_modal"] → Dict.get? c k = none

/-- The variable that is loaded: the one with the name; if there is none, at the prompt the first one that is named (what is
typed before is asked for again). -/
inductive VariableIs (vars : Dict (NArr F)) (name : String) : Option (List String) → NArr F → Prop
  | named {v : NArr F} (h : Dict.get? vars name = some v) (click : Option (List String)) : VariableIs vars name click v
  | typed {v : NArr F} (h : Dict.get? vars name = none) (wrong rest : List String) {a : String}
      (hw : ∀ x ∈ wrong, Dict.get? vars x = none) (ha : Dict.get? vars a = some v) :
      VariableIs vars name (some (wrong ++ a :: rest)) v

/-- The file is a frame (not a history). -/
def IsFrameFile (f : File F) : Prop := ∀ p ∈ f.vars, ¬ "TimeMesh".toList <:+: p.1.toList

end

section
variable {F : Type} [_root_.Field F]

/-- The loaded cells of the axes. -/
def framePart (axes : List (UniAxis F)) : List (Axis F) :=
  axes.map fun a => ⟨a.node a.lo, (a.upper - a.lower) / (a.cells : F), a.hi - a.lo⟩

/-- The loaded part of the variable as data of an expansion of order `p`. -/
def frameCase (var : NArr F) (axes : List (UniAxis F)) (ca cb p : Nat) (b : String) (fns : List Dg.Poly) : DgCase F :=
  { cells := axes.map fun a => a.hi - a.lo
    axes := framePart axes
    m := cb - ca
    f := fun i k => (var.get? (List.zipWith (· + ·) i (axes.map (·.lo)) ++ [ca + k])).getD 0
    order := p, basis := b, fns := fns, points := p + 1 }

end
end Pgkyl.Spec
