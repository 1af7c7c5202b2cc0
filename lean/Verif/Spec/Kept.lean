import Verif.Model.Commands
import Verif.Model.DgCommands
import Verif.Model.Ev
import Verif.Model.Collect
import Verif.Model.Val2coord
import Verif.Model.LoadCmd
import Verif.Model.GkDistf
import Verif.Model.Multiblock
import Verif.Model.Kinetic
import Verif.Model.Growth
import Mathlib.Algebra.Order.Field.Basic
/-!
# What a command may change
-/

namespace Pgkyl.Spec
open Cmd

/-- The dataset with number `k` under the tag `t`. -/
def dataset {F : Type} (s : Space F) (t : Tag) (k : Nat) : Option (GData F) :=
  ((s.lookup t).bind fun l => l[k]?).bind fun i => s.heap[i]?

/-- `--use use` names the tag `t`: without the option all tags are named, otherwise those between the commas. -/
def Named (use : Option Tag) (t : Tag) : Prop := ∀ u, use = some u → u ≠ [] → t ∈ splitOn ',' u

/-- No output tag is given. -/
def NoTag (tag : Option Tag) : Prop := tag = none ∨ tag = some []

/-- From `s` to `s'` nothing is lost: the tags are those there were, in their order, and possibly more; every dataset is
found under the same tag and number, still has its tag, and is the same as before unless `may` allows a change. -/
structure Kept {F : Type} (may : Tag → GData F → Prop) (s s' : Space F) : Prop where
  tags : s.dict.map Prod.fst <+: s'.dict.map Prod.fst
  datasets : ∀ t k d, dataset s t k = some d → ∃ d', dataset s' t k = some d' ∧ d'.tag = d.tag ∧ (¬ may t d → d' = d)

/-- `Command c may`: `c` is one of the commands of the program with whatever options, and `may t d` says whether it may change
a dataset `d` under the tag `t`. -/
inductive Command {F : Type} [_root_.Field F] [LinearOrder F] :
    (Space F → Except Err (Space F)) → (Tag → GData F → Prop) → Prop
  -- the commands with one result per dataset: the active datasets of the tags, and none if there is an output tag
  | select (pf : List Char → Option F) (comp : Option (List Char)) (zs : List (Option (List Char)))
      (use tag : Option Tag) (label : List Char) :
      Command (selectCmd pf comp zs use tag label) fun t d => NoTag tag ∧ Named use t ∧ d.status = true
  | integrate (axis : List Char) (use tag : Option Tag) (label : List Char) :
      Command (integrateCmd axis use tag label) fun t d => NoTag tag ∧ Named use t ∧ d.status = true
  | interpolate (h5 : Except Err (List (List F))) (order : Option Nat) (basis : Option String) (points : Option Nat)
      (use tag : Option Tag) (label : List Char) :
      Command (interpolateCmd h5 order basis points use tag label) fun t d => NoTag tag ∧ Named use t ∧ d.status = true
  | differentiate (order : Option Nat) (basis : Option String) (points direction : Option Nat) (use tag : Option Tag)
      (label : List Char) : Command (differentiateCmd order basis points direction use tag label)
        fun t d => NoTag tag ∧ Named use t ∧ d.status = true
  | magsq (use tag : Option Tag) (label : List Char) :
      Command (magsqCmd use tag label) fun t d => NoTag tag ∧ Named use t ∧ d.status = true
  | grid (use tag : Option Tag) (label : List Char) :
      Command (gridCmd use tag label) fun t d => NoTag tag ∧ Named use t ∧ d.status = true
  | euler (sqrt : F → F) (gamma : F) (quantity : String) (use tag : Option Tag) (label : List Char) :
      Command (fluidCmd (eulerVar sqrt gamma quantity) use tag label)
        fun t d => NoTag tag ∧ Named use t ∧ d.status = true
  | mhd (sqrt : F → F) (gamma mu0 : F) (quantity : String) (use tag : Option Tag) (label : List Char) :
      Command (fluidCmd (mhdVar sqrt gamma mu0 quantity) use tag label)
        fun t d => NoTag tag ∧ Named use t ∧ d.status = true
  | tenmoment (sqrt : F → F) (gamma : F) (quantity : String) (use tag : Option Tag) (label : List Char) :
      Command (fluidCmd (tenVar sqrt gamma quantity) use tag label)
        fun t d => NoTag tag ∧ Named use t ∧ d.status = true
  -- the commands on pairs: the active datasets of their tags (which they deactivate)
  | velocity (density momentum tag label : List Char) : Command (velocityCmd density momentum tag label)
      fun t d => (Named (some density) t ∨ Named (some momentum) t) ∧ d.status = true
  | bparrotate (array field tag label : List Char) : Command (bparrotateCmd array field tag label)
      fun t d => (Named (some array) t ∨ Named (some field) t) ∧ d.status = true
  | bperprotate (array field tag label : List Char) : Command (bperprotateCmd array field tag label)
      fun t d => (Named (some array) t ∨ Named (some field) t) ∧ d.status = true
  | parrotate (array rotator tag label : List Char) : Command (parrotateCmd array rotator tag label)
      fun t d => (Named (some array) t ∨ Named (some rotator) t) ∧ d.status = true
  | perprotate (array rotator tag label : List Char) : Command (perprotateCmd array rotator tag label)
      fun t d => (Named (some array) t ∨ Named (some rotator) t) ∧ d.status = true
  | energetics (elc ion field tag label : List Char) : Command (energeticsCmd elc ion field tag label)
      fun t d => (Named (some elc) t ∨ Named (some ion) t ∨ Named (some field) t) ∧ d.status = true
  | agyro (sqrt : F → F) (measure : String) (pressure bfield : List Char) (tag : Option Tag) (label : List Char) :
      Command (agyroCmd sqrt measure pressure bfield tag label) fun _ _ => False
  | momAgyro (sqrt : F → F) (measure : String) (species field tag : Option Tag) (label : List Char) :
      Command (momAgyroCmd sqrt measure species field tag label) fun _ _ => False
  -- `laguerrecompose` and `transformframe`, whatever they compute
  | pair (f : GData F → GData F → Except Err (GData F)) (dist other : Tag) (tag : Option Tag) :
      Command (Kinetic.pairCmd f dist other tag) fun t d => NoTag tag ∧ Named (some dist) t ∧ d.status = true
  -- the commands that go through the tags; an empty tag name would stand for all tags
  | relchange (use : Option Tag) (index : Int) (comp : Option (List Char)) (out : Tag)
      (hu : ∀ u, use = some u → u ≠ [] → [] ∉ splitOn ',' u) :
      Command (relchangeCmd use index comp out) fun t d => Named use t ∧ d.status = true
  | collect (timeOf : GData F → Option F) (frameOf : GData F → Option Int) (argsort : List F → List Nat)
      (fmod : F → F → F) (o : Collect.Opts F) (hu : ∀ u, o.use = some u → u ≠ [] → [] ∉ splitOn ',' u) :
      Command (Collect.collectCmd timeOf frameOf argsort fmod o) fun t d => Named o.use t ∧ d.status = true
  | val2coord (o : V2c.Opts) : Command (V2c.val2coord o) fun t d => Named o.use t ∧ d.status = true
  | selectBlocks (pf : List Char → Option F) (o : Multi.Opts) (fuel : Nat) :
      Command (Multi.selectBlocks pf o fuel) fun t d => Named o.use t ∧ d.status = true
  -- `ev`: nothing with an output tag, otherwise the active datasets (all datasets with `--all`)
  | evTag (lib : Ev.Lib F) (chain : List Char) (c : Char) (cs : List Char) (label : Option (List Char)) (all : Bool) :
      Command (Ev.ev lib chain (some (c :: cs)) label all) fun _ _ => False
  | ev (lib : Ev.Lib F) (chain : List Char) (tag label : Option (List Char)) (all : Bool) :
      Command (Ev.ev lib chain tag label all) fun _ d => all = true ∨ d.status = true
  -- the commands that load files: the labels of the active datasets
  | load (glob : Cli.Str → List Cli.Str) (make : Cli.Used → Cli.Str → Cli.Str → Except Err (GData F)) (glo : Cli.Given)
      (strs : List Cli.Str) (loc : Cli.Given) (fv : Bool) (loaded : Nat) :
      Command (fun s => (Cli.load glob make glo strs loc fv ⟨s, loaded⟩).map Cli.Session.data) fun _ d => d.status = true
  | gkDistf (load : Gk.Str → Option Gk.Str → Except Err (GData F)) (glob : Gk.Str → List Gk.Str) (spec : Gk.Str)
      (a : Gk.DistfArgs) (vel mc2nu mapc2p : Option Gk.Str) :
      Command (Gk.gkDistf load glob spec a vel mc2nu mapc2p) fun _ d => d.status = true
  -- the commands that change the activity
  | activate (tag : Option Tag) (index : Option (List Char)) (focused : Bool) :
      Command (fun s => s.activateCmd tag index focused) fun _ _ => True
  | deactivate (tag : Option Tag) (index : Option (List Char)) (focused : Bool) :
      Command (fun s => s.deactivateCmd tag index focused) fun _ d => d.status = true

/-- The commands on real numbers: those and `current` and `growth`. -/
inductive RealCommand : (Space ℝ → Except Err (Space ℝ)) → (Tag → GData ℝ → Prop) → Prop
  | any {c : Space ℝ → Except Err (Space ℝ)} {may : Tag → GData ℝ → Prop} (h : Command c may) : RealCommand c may
  | current (qbym : Bool) (use : Option Tag) (tag label : List Char) :
      RealCommand (Kinetic.currentCmd qbym use tag label) fun t d => Named use t ∧ d.status = true
  | growth (fit : Fit.Fitter) (o : Growth.Opts) (use : Option Tag) :
      RealCommand (Growth.growthCmd fit o use) fun _ _ => False

end Pgkyl.Spec
