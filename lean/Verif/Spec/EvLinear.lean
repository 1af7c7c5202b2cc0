import Verif.Spec.Ev
/-! # Specification: `ev` and commands in either order -/

namespace Pgkyl.Spec
variable {F : Type}

/-- Every dataset of the store, under whatever tag, is active and has the property `P`; its metadata are proper. -/
def Holds (s : Space F) (P : GData F → Prop) : Prop :=
  ∀ t ids, s.lookup t = some ids → ∀ id ∈ ids, ∃ d, s.heap[id]? = some d ∧ d.status = true ∧ ProperMeta d.ctx ∧ P d

/-- Expressions can be read: the tags are `tags`, and no operation name is a tag or a number.  The smaller and the larger
of two numbers do not depend on their order, and arrays are compared exactly. -/
structure Readable [LT F] (lib : Ev.Lib F) (s : Space F) (all : Bool) (tags : List Tag) : Prop where
  iter : s.tagIterator none (!all) = .ok tags
  ops : ∀ t ∈ opNames, t ∉ tags ∧ lib.pf t = none
  min : ∀ x y, lib.fn.fmin x y = lib.fn.fmin y x
  max : ∀ x y, lib.fn.fmax x y = lib.fn.fmax y x
  cmp : ∀ a b, lib.cmp a b = true ↔ a = b

/-- The tag is a proper one and not in use. -/
def FreshTag (s : Space F) (T : Tag) : Prop := T ≠ [] ∧ ',' ∉ T ∧ T ∉ s.dict.map Prod.fst

/-- The `count` datasets from position `n` on have the same grids and the same values in both stores. -/
def SameData (n count : Nat) (s s' : Space F) : Prop :=
  ∀ k < count, ∃ d d' g v, s.heap[n + k]? = some d ∧ s'.heap[n + k]? = some d' ∧
    d.grid = some g ∧ d'.grid = some g ∧ d.values = some v ∧ d'.values = some v

end Pgkyl.Spec
