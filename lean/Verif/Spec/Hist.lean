import Verif.Model.World
/-! # Specification for dataset histories (C20, C21) -/

namespace Pgkyl.Spec

/-- The calls that change what a dataset holds. -/
inductive DataOp (F : Type) where
  | setValues (v : NArr F)
  | setGrid (g : List (NArr F))
  | push (g : List (NArr F)) (v : NArr F)

/-- Performing them in order; an exception stops. -/
def runOps {F : Type} [Min F] [Max F] (d : GData F) (ops : List (DataOp F)) : Except Err (GData F) :=
  ops.foldlM (fun d op => match op with
    | .setValues v => d.setValues v
    | .setGrid g => d.setGrid g
    | .push g v => d.push g v) d

/-- `m` is the smallest element of the array. -/
def IsMinOf {F : Type} [LE F] (m : F) (a : NArr F) : Prop := m ∈ a.data ∧ ∀ x ∈ a.data, m ≤ x

/-- `m` is the largest element of the array. -/
def IsMaxOf {F : Type} [LE F] (m : F) (a : NArr F) : Prop := m ∈ a.data ∧ ∀ x ∈ a.data, x ≤ m

end Pgkyl.Spec
