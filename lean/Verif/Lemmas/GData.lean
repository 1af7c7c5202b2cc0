import Verif.Model.GData
import Verif.Lemmas.NArr
/-! # Lemmas about the dataset class -/

namespace Pgkyl.GData

variable {F : Type}

theorem setValues_ok {d : GData F} {v : NArr F} {nc : Nat} (h : v.shape.getLast? = some nc) :
    d.setValues v = .ok { d with
        values := some v
        ctx := { d.ctx with cells := some v.shape.dropLast, numComps := some nc } } := by
  obtain ⟨gr, va, ⟨ce, nu, lo, up, ot⟩, ta, la, cu, fi, st⟩ := d
  simp only [setValues, h]
  by_cases h1 : ce = some v.shape.dropLast
  · by_cases h2 : nu = some nc
    · simp [h1, h2]
    · simp [h1, h2]
  · by_cases h2 : nu = some nc
    · simp [h1, h2]
    · simp [h1, h2]

theorem setValues_eq_ok {d d' : GData F} {v : NArr F} (h : d.setValues v = .ok d') :
    ∃ nc, v.shape.getLast? = some nc ∧ d' = { d with
        values := some v
        ctx := { d.ctx with cells := some v.shape.dropLast, numComps := some nc } } := by
  cases hl : v.shape.getLast? with
  | none => simp [setValues, hl] at h
  | some nc =>
    rw [setValues_ok hl] at h
    exact ⟨nc, rfl, (Except.ok.inj h).symm⟩

variable [Min F] [Max F]

theorem setGrid_eq_ok {d d' : GData F} {g : List (NArr F)} (h : d.setGrid g = .ok d') :
    ∃ l u, minima d.numDims g = .ok l ∧ maxima d.numDims g = .ok u ∧
      d' = { d with grid := some g, ctx := { d.ctx with lower := some l, upper := some u } } := by
  simp only [setGrid, bind, Except.bind] at h
  cases hl : minima d.numDims g with
  | error e => rw [hl] at h; cases h
  | ok l =>
    rw [hl] at h
    simp only at h
    cases hu : maxima d.numDims g with
    | error e => rw [hu] at h; cases h
    | ok u =>
      rw [hu] at h
      exact ⟨l, u, rfl, rfl, (Except.ok.inj h).symm⟩

/-- everything `push` does -/
theorem push_eq_ok {d d' : GData F} {g : List (NArr F)} {v : NArr F}
    (h : d.push g v = .ok d') :
    ∃ nc l u, v.shape.getLast? = some nc ∧ minima (v.shape.length - 1) g = .ok l ∧
      maxima (v.shape.length - 1) g = .ok u ∧
      d' = { d with
        grid := some g
        values := some v
        ctx := { d.ctx with
          cells := some v.shape.dropLast
          numComps := some nc
          lower := some l
          upper := some u } } := by
  simp only [push, bind, Except.bind] at h
  cases h1 : d.setValues v with
  | error e => rw [h1] at h; cases h
  | ok d1 =>
    rw [h1] at h
    obtain ⟨nc, hnc, rfl⟩ := setValues_eq_ok h1
    obtain ⟨l, u, hl, hu, rfl⟩ := setGrid_eq_ok h
    have hd : numDims { d with
        values := some v
        ctx := { d.ctx with cells := some v.shape.dropLast, numComps := some nc } } =
        v.shape.length - 1 := by simp [numDims, numCells]
    rw [hd] at hl hu
    exact ⟨nc, l, u, hnc, hl, hu, rfl⟩

theorem push_ok {d : GData F} {g : List (NArr F)} {v : NArr F} {nc : Nat} {l u : List F}
    (hnc : v.shape.getLast? = some nc) (hl : minima (v.shape.length - 1) g = .ok l)
    (hu : maxima (v.shape.length - 1) g = .ok u) :
    d.push g v = .ok { d with
        grid := some g
        values := some v
        ctx := { d.ctx with
          cells := some v.shape.dropLast
          numComps := some nc
          lower := some l
          upper := some u } } := by
  have hd : numDims { d with
        values := some v
        ctx := { d.ctx with cells := some v.shape.dropLast, numComps := some nc } } =
        v.shape.length - 1 := by simp [numDims, numCells]
  simp only [push, bind, Except.bind, setValues_ok hnc, setGrid, hd, hl, hu]
  rfl

end Pgkyl.GData
