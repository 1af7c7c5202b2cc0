import Verif.Model.Animate
/-! # Specification: frames of multi-block data -/

namespace Pgkyl.Spec

/-- A multi-block file name: a stem common to all files, the frame number, and `_...` up to the extension. -/
def frameFile (stem : List Char) (frame : Nat) (rest : List Char) : List Char :=
  stem ++ (Nat.toDigits 10 frame ++ '_' :: (rest ++ ".gkyl".toList))

/-- The first decimal digit of a number. -/
def leadDigit (n : Nat) : Option Char := (Nat.toDigits 10 n).head?

/-- A list of the distinct members of `l` in ascending order. -/
def Ascending (l out : List Int) : Prop := out.Pairwise (· < ·) ∧ ∀ n, n ∈ out ↔ n ∈ l

/-- The active datasets chosen by `--use`: those of all tags in the order of the tags, or those of one tag. -/
def Selected (s : Space ℝ) : Option Tag → List Nat → Prop
  | none, ids => ids = (s.dict.map Prod.fst).flatMap fun t => ((s.lookup t).getD []).filter s.active
  | some t, ids => t ≠ [] ∧ ',' ∉ t ∧ ∃ l, s.lookup t = some l ∧ ids = l.filter s.active

/-- The values of a dataset as they are drawn. -/
noncomputable def scaled (yscale zscale : ℝ) (d : GData ℝ) : List ℝ :=
  ((d.values.map (·.data)).getD []).map fun x => x * if d.numDims = 1 then yscale else zscale

/-- The dataset has values. -/
def HasValues (d : GData ℝ) : Prop := ∃ v, d.values = some v ∧ v.data ≠ []

/-- All pictures of a run. -/
def pictures (r : Anim.Result) : List Anim.Shown := r.images.map (·.2) ++ r.films.flatMap (·.2) ++ r.screen

/-- The pictures of one figure with one dataset each. -/
def single (fig : Nat) (lim : Anim.Lim) (ids : List Nat) : List Anim.Shown :=
  ids.zipIdx.map fun e => ⟨fig, e.2, [e.1], lim⟩

/-- `lo` and `hi` are values of the list, and all values lie between them. -/
def Extremes (l : List ℝ) (lo hi : ℝ) : Prop := lo ∈ l ∧ hi ∈ l ∧ ∀ x ∈ l, lo ≤ x ∧ x ≤ hi

end Pgkyl.Spec
