import Verif.Model.DataSpace
/-! # Specification: adding results and switching off their sources -/

namespace Pgkyl.Spec

/-- The datasets a command visits: the active ones of the chosen tags, tag by tag. -/
def visited {F : Type} (s : Space F) (tags : List Tag) : List Nat :=
  tags.flatMap fun t => ((s.lookup t).getD []).filter s.active

/-- The store `s'` is the store `s` with the datasets `done` switched off and, behind everything else, the new datasets
`added`, listed under the tag `T` only. -/
structure AddsAndRetires {F : Type} (s : Space F) (T : Tag) (done : List Nat) (added : List (GData F)) (s' : Space F) :
    Prop where
  /-- The old datasets are the same, but for the status of those done. -/
  old : ∀ j < s.heap.length, s'.heap[j]? =
    if j ∈ done then (s.heap[j]?).map fun d => { d with status := false } else s.heap[j]?
  /-- Behind them come the new ones. -/
  new : ∀ k, s'.heap[s.heap.length + k]? = added[k]?
  /-- They are listed under `T`, behind what was there; nothing else changes. -/
  lists : ∀ t, (s'.lookup t).getD [] =
    (s.lookup t).getD [] ++ if t = T then List.range' s.heap.length added.length else []

end Pgkyl.Spec
