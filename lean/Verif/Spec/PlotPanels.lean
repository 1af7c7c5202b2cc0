import Verif.Model.PlotPanels
/-! # Specification: captions, labels and limits of the panels of a figure -/

namespace Pgkyl.Spec
open Plot

/-- A list of texts without commas, written with commas between them. -/
def Listed (text : List Char) (parts : List (List Char)) : Prop :=
  text = joinWith ',' parts ∧ ∀ p ∈ parts, ',' ∉ p

/-- Two states of the same axes with the same captions. -/
structure SameCaptions {F : Type} (p q : Panel F) : Prop where
  xlabel : q.xlabel = p.xlabel
  ylabel : q.ylabel = p.ylabel
  title : q.title = p.title
  off : q.off = p.off
  bar : q.bar = p.bar

/-- The panel in which a component is drawn. -/
def panelFor (o : Opts) (comp : Nat) : Nat := if o.squeeze then 0 else comp + o.startAxes

/-- The limits that are given hold; the others are free. -/
def Within {F : Type} (given lim : Option F × Option F) : Prop :=
  (∀ a, given.1 = some a → lim.1 = some a) ∧ ∀ b, given.2 = some b → lim.2 = some b

end Pgkyl.Spec
