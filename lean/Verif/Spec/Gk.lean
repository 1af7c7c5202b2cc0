import Verif.Model.Gk
import Verif.Spec.DataSpace
import Verif.Spec.Idx
import Mathlib.Algebra.BigOperators.Fin
import Mathlib.Algebra.Field.Defs
/-!
# Specification for the gyrokinetic commands
-/

namespace Pgkyl.Spec
open Gk (Str Series)

/-- The block numbers a text given to `--multib` names: `-10` one unnumbered block, `-1` all of the `k` blocks
found, a comma-separated list, or a slice. -/
inductive Blocks (k : Nat) : Str → List Int → Prop
  | single : Blocks k "-10".toList [0]
  | all : Blocks k "-1".toList ((List.range k).map Int.ofNat)
  | list (bs : List Int) (h : 2 ≤ bs.length) : Blocks k (listText bs) bs
  | slice (a b c : Option Int) (h : c.getD 1 ≠ 0) :
      Blocks k (sliceText a b c) ((slicePositions 10000 a b (c.getD 1)).map Int.ofNat)

/-- The file of block `b`: `path/name-rest` for a run of one block, `path/name_b<b>-rest` otherwise. -/
def blockFile (path name : Str) (multi : Bool) (b : Nat) (rest : String) : Str :=
  path ++ "/".toList ++ name ++ (if multi then "_b".toList ++ dec b else []) ++ "-".toList ++ rest.toList

/-- Neither the path nor the name contains a star, and no options for files are given, except perhaps the one of the time steps. -/
structure _root_.Pgkyl.Gk.Files.Default (o : Gk.Files) : Prop where
  path : '*' ∉ o.path
  name : '*' ∉ o.name
  fdot : o.fdot = []
  source : o.source = []
  bflux : o.bflux = List.replicate 6 []
  fieldDot : o.fieldDot = []
  field : o.field = []
  f : o.f = []

/-- Some option for a file of a species is given. -/
def _root_.Pgkyl.Gk.Files.Named (o : Gk.Files) : Prop := o.fdot ≠ [] ∨ o.source ≠ [] ∨ ∃ x ∈ o.bflux, x ≠ []

/-- The file of the time steps: the one of the option, or `path/name-dt.gkyl`. -/
def timeStepFile (path name dt : Str) : Str :=
  path ++ "/".toList ++ (if dt = [] then name ++ "-dt.gkyl".toList else dt)

/-- The file of a block, by its part of the name after the dash. -/
def fileOf {F : Type} (fs : Str → Option (Series F)) (o : Gk.Files) (multib : Str) (b : Nat) (rest : String) : Option (Series F) :=
  fs (blockFile o.path o.name (decide (multib ≠ "-10".toList)) b rest)

/-- Entry `k` of row `i` of a file of integrated moments, 0 without the file. -/
def tabEntry {F : Type} [Zero F] (s : Option (Series F)) (k i : Nat) : F :=
  match s with
  | none => 0
  | some s => ((s.rows[i]?.getD [])[k]?).getD 0

/-- A table of `n ≥ 2` rows with `m` columns. -/
def IsTable {F : Type} (n m : Nat) (s : Series F) : Prop :=
  s.rows.length = n ∧ ∀ r ∈ s.rows, r.length = m

/-- The names of the six boundary files. -/
def edges : List String := ["xlower", "xupper", "ylower", "yupper", "zlower", "zupper"]

section
variable {F : Type} [_root_.Field F]

/-- The flux of moment `k` through all boundaries of block `b`, at time number `i`. -/
def outflow (file : Nat → String → Option (Series F)) (spec : String) (k b i : Nat) : F :=
  (edges.map fun e =>
    tabEntry (file b (spec ++ "_bflux_" ++ e ++ "_integrated_HamiltonianMoments.gkyl")) k i).sum

/-- The source of moment `k` in block `b`; the sources are not counted at the first time. -/
def source (file : Nat → String → Option (Series F)) (spec : String) (k b i : Nat) : F :=
  if i = 0 then 0 else tabEntry (file b (spec ++ "_source_integrated_moms.gkyl")) k i

/-- The rate of change of moment `k` in block `b`. -/
def rate (file : Nat → String → Option (Series F)) (spec : String) (k b i : Nat) : F :=
  tabEntry (file b (spec ++ "_fdot_integrated_moms.gkyl")) k i

end

/-- The files of one species: the rate of change must be there, everything there is must be a table of `n` times
and `m` moments. -/
structure SpeciesFiles {F : Type} (file : Nat → String → Option (Series F)) (spec : String) (n m b : Nat) :
    Prop where
  fdot : ∃ s, file b (spec ++ "_fdot_integrated_moms.gkyl") = some s ∧ IsTable n m s
  src : ∀ s, file b (spec ++ "_source_integrated_moms.gkyl") = some s → IsTable n m s
  bflux : ∀ e ∈ edges, ∀ s,
    file b (spec ++ "_bflux_" ++ e ++ "_integrated_HamiltonianMoments.gkyl") = some s → IsTable n m s

/-- There is a file of frame number `n`: its name is the stem, digits that read `n`, and `.gkyl`. -/
def HasFrame (stem : Str) (files : List Str) (n : Nat) : Prop :=
  ∃ ds : Str, ds ≠ [] ∧ (∀ c ∈ ds, '0' ≤ c ∧ c ≤ '9') ∧
    ds.foldl (fun v c => 10 * v + (c.toNat - 48)) 0 = n ∧ stem ++ ds ++ ".gkyl".toList ∈ files

/-- What `glob` returns: names of the form `<stem>*.gkyl`. -/
def Globbed (stem : Str) (files : List Str) : Prop :=
  ∀ f ∈ files, ∃ w : Str, f = stem ++ w ++ ".gkyl".toList

end Pgkyl.Spec
