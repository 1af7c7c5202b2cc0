import Verif.Spec.Ev
/-!
# Specification of the operators of `ev` that are not elementwise

An operand is an expression (Spec/Ev) together with the shape of its data.  The value of an expression for the `k`-th dataset is
the one of Spec/Ev.
-/

namespace Pgkyl.Spec

variable {F : Type}

/-- What `ev` relies on: the tags in use are `tags`; no operator is spelled like a tag or a number; `fmin`, `fmax` and the
comparison of metadata are what their names say. -/
structure EvReady [LT F] [DecidableLT F] [DecidableEq F] (lib : Ev.Lib F) (s : Space F) (all : Bool) (tags : List Tag) : Prop where
  known : s.tagIterator none (!all) = .ok tags
  names : ∀ t ∈ arities.map Prod.fst, t ∉ tags ∧ lib.pf t = none
  min : ∀ x y, lib.fn.fmin x y = lib.fn.fmin y x
  max : ∀ x y, lib.fn.fmax x y = lib.fn.fmax y x
  cmp : ∀ a b, lib.cmp a b = true ↔ a = b

/-- The expression `o.1` means what it says in the store, and its data have the shape `o.2` (see `Leaf.OK`, `Expr.powOK`). -/
structure OperandOK [LT F] (lib : Ev.Lib F) (s : Space F) (all : Bool) (tags : List Tag) (o : Expr F × List Nat) : Prop where
  leaves : o.1.All (Leaf.OK lib s all tags o.2)
  pow : o.1.powOK
  proper : ∀ k d, o.1.Uses s all k d → ProperMeta d.ctx

/-- From `s` to `s'` exactly `n` active datasets were added, at the end of the tag `T`; `R k` holds for the `k`-th of them.
Nothing else has changed. -/
def AddsUnder (s s' : Space F) (T : Tag) (n : Nat) (R : Nat → GData F → Prop) : Prop :=
  ∃ new, s'.heap = s.heap ++ new ∧ new.length = n ∧
    (∀ k, k < n → ∃ d, new[k]? = some d ∧ R k d ∧ d.tag = T ∧ d.status = true) ∧
    (∀ t, t ≠ T → s'.lookup t = s.lookup t) ∧
    (s'.lookup T).getD [] = (s.lookup T).getD [] ++ List.range' s.heap.length n

/-- The value of an expression for the `k`-th dataset at the index `idx`, as a number. -/
def Expr.num [Add F] [Sub F] [Mul F] [Div F] [Zero F] (fn : Fns F) (k : Nat) (idx : List Nat) (e : Expr F) : F :=
  (e.valueAt fn k idx).getD 0

/-- The dataset holds an array of the given shape with the given entries. -/
def HoldsArray (d : GData F) (sh : List Nat) (f : List Nat → F) : Prop :=
  ∃ a, d.values = some a ∧ a.WF ∧ a.shape = sh ∧ ∀ idx, inRange sh idx = true → a.get? idx = some (f idx)

/-- The dataset holds one number and has no axes. -/
def HoldsNumber (d : GData F) (x : F) : Prop := d.grid = some [] ∧ d.values = some ⟨[1], [x]⟩

end Pgkyl.Spec
