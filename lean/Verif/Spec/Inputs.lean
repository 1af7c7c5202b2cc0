import Verif.Model.Inputs
/-!
# Specification for C159: what an argument of a diagnostic stands for
-/

namespace Pgkyl.Spec
open Inp

/-- The argument `x` stands for the values `v`, with the grid `g`. -/
inductive StandsFor {F : Type} : Input F → PyGrid F → NArr F → Prop where
  /-- a dataset -/
  | dataset {d : GData F} {g : List (NArr F)} {v : NArr F} (hg : d.grid = some g) (hv : d.values = some v) :
      StandsFor (.gdata d) (.list g) v
  /-- a dataset that has been given values only -/
  | noGrid {d : GData F} {v : NArr F} (hg : d.grid = none) (hv : d.values = some v) : StandsFor (.gdata d) .none v
  /-- values alone -/
  | array (v : NArr F) : StandsFor (.array v) .empty v
  /-- a grid and values: an array of coordinates for each axis, with or without one for the components -/
  | pair {g : List (NArr F)} {v : NArr F} (h : g.length = v.shape.length ∨ g.length + 1 = v.shape.length) :
      StandsFor (.pair (.list g) (some v)) (.list g) v

/-- What the diagnostics compute from the values alone (C40, C41, C44). -/
def onValues {F : Type} [Add F] [Sub F] [Mul F] [Div F] [Zero F] [IntCast F] (sqrt : F → F) :
    Tool F → NArr F → Except Err (NArr F)
  | .density => Tools.getDensity
  | .velocity k => Tools.getV k
  | .velocities => Tools.getVi
  | .stress c i j => Tools.getPab c i j
  | .tensor => Tools.getPij
  | .pressure gamma nm => fun v => Tools.getP v gamma nm
  | .kinetic gamma nm => fun v => Tools.getKe v gamma nm
  | .temperature gamma nm => fun v => Tools.getTemp v gamma nm
  | .sound gamma nm => fun v => Tools.getSound sqrt v gamma nm
  | .mach gamma nm => fun v => Tools.getMach sqrt v gamma nm
  | .field k => Tools.getMhdB k
  | .fields => Tools.getMhdBi
  | .magneticPressure mu0 => fun v => Tools.getMhdMagP v mu0
  | .mhdPressure gamma mu0 => fun v => Tools.getMhdP v gamma mu0
  | .mhdTemperature gamma mu0 => fun v => Tools.getMhdTemp v gamma mu0
  | .mhdSound gamma mu0 => fun v => Tools.getMhdSound sqrt v gamma mu0
  | .mhdMach gamma mu0 => fun v => Tools.getMhdMach sqrt v gamma mu0
  | .squared coords => fun v => Tools.magSq v coords

end Pgkyl.Spec
