import Verif.Props.Dg
/-! # C69: order, basis, number of points and components of an interpolation -/

namespace Pgkyl
open Spec Dg

namespace Spec

/-- The documented names of the bases. -/
def basisNames : List (String × String) :=
  [("ms", "serendipity"), ("mo", "maximal-order"), ("mt", "tensor"), ("gkhyb", "gkhybrid"), ("pkpmhyb", "hybrid")]

/-- The components a `comp` argument stands for: one, the listed ones, or those from `a` to below `b`. -/
inductive Components : Comp → List Nat → Prop
  | int (c : Nat) : Components (.int c) [c]
  | tuple (cs : List Nat) (h : cs ≠ []) : Components (.tuple cs) cs
  | slice (a b : Nat) (h : a < b) : Components (.slice a b) (List.range' a (b - a))

end Spec

section
variable {F : Type}

theorem modalInit_fields {src : Source F} {po : Option Nat} {b : Option String} {ni : Option Nat} {o : Interp F}
    (h : modalInit src po b ni = .ok o) : ∃ bb, modalOrder po src.polyOrder = .ok o.polyOrder ∧
      modalBasis b src.basisType = .ok bb ∧
      o.basis = (if src.numDims = 1 ∧ bb = "hybrid" then "serendipity" else bb) ∧
      (∀ k, ni = some (k + 1) → o.numInterp = some (k + 1)) ∧ (ni = none → o.numInterp = some (o.polyOrder + 1)) := by
  unfold modalInit at h
  simp only [bind, Except.bind, pure, Except.pure] at h
  split at h
  · cases h
  · rename_i p hp
    split at h
    · cases h
    · rename_i bb hbb
      split at h
      · cases h
      · cases h
        exact ⟨bb, hp, hbb, rfl, fun k hk => by subst hk; rfl, fun hk => by subst hk; rfl⟩

/-- C69: the number of points per cell is the one asked for; by default it is the order plus one. -/
theorem C69_points {src : Source F} {po : Option Nat} {b : Option String} {ni : Option Nat} {o : Interp F}
    (h : modalInit src po b ni = .ok o) :
    (∀ n, ni = some n → 1 ≤ n → o.numInterp = some n) ∧ (ni = none → o.numInterp = some (o.polyOrder + 1)) := by
  obtain ⟨bb, -, -, -, hn⟩ := modalInit_fields h
  refine ⟨fun n hni h1 => ?_, hn.2⟩
  obtain ⟨k, rfl⟩ : ∃ k, n = k + 1 := ⟨n - 1, by omega⟩
  exact hn.1 k hni

/-- C69: the order is the one asked for, otherwise the one stored with the data (which must be there and positive). -/
theorem C69_order {src : Source F} {po : Option Nat} {b : Option String} {ni : Option Nat} {o : Interp F}
    (h : modalInit src po b ni = .ok o) :
    (∀ p, po = some p → o.polyOrder = p) ∧
      (po = none → src.polyOrder = some o.polyOrder ∧ 1 ≤ o.polyOrder) := by
  obtain ⟨bb, hp, -, -, -⟩ := modalInit_fields h
  refine ⟨fun p hpo => ?_, fun hpo => ?_⟩
  · rw [hpo] at hp
    exact (Except.ok.inj hp).symm
  · rw [hpo] at hp
    cases hs : src.polyOrder with
    | none => rw [hs] at hp; cases hp
    | some q =>
      cases q with
      | zero => rw [hs] at hp; cases hp
      | succ q =>
        rw [hs] at hp
        rw [← Except.ok.inj hp]
        exact ⟨rfl, by omega⟩

/-- C69: the basis is the one with the given name, otherwise the one stored with the data; for one-dimensional data the
hybrid basis of the plasma model becomes the serendipity one. -/
theorem C69_basis {src : Source F} {po : Option Nat} {b : Option String} {ni : Option Nat} {o : Interp F}
    (h : modalInit src po b ni = .ok o) :
    ∃ bb, ((∃ s, b = some s ∧ (s, bb) ∈ basisNames) ∨ ((b = none ∨ b = some "") ∧ src.basisType = some bb)) ∧
      (src.numDims = 1 → bb = "hybrid" → o.basis = "serendipity") ∧
      (¬ (src.numDims = 1 ∧ bb = "hybrid") → o.basis = bb) := by
  obtain ⟨bb, -, hb, ho, -⟩ := modalInit_fields h
  refine ⟨bb, ?_, fun h1 h2 => by rw [ho, if_pos ⟨h1, h2⟩], fun h1 => by rw [ho, if_neg h1]⟩
  have hctx : modalBasis.fromCtx src.basisType = .ok bb → src.basisType = some bb := by
    unfold modalBasis.fromCtx
    intro h
    cases hs : src.basisType with
    | none => rw [hs] at h; cases h
    | some s =>
      rw [hs] at h
      simp only at h
      split at h
      · rw [Except.ok.inj h]
      · cases h
  unfold modalBasis at hb
  cases b with
  | none => exact Or.inr ⟨Or.inl rfl, hctx hb⟩
  | some s =>
    simp only at hb
    by_cases hs : s = ""
    · subst hs
      exact Or.inr ⟨Or.inr rfl, hctx (by simpa using hb)⟩
    · refine Or.inl ⟨s, rfl, ?_⟩
      simp only [ne_eq, hs, not_false_eq_true, if_true] at hb
      split_ifs at hb with h1 h2 h3 h4 h5
      all_goals (cases hb; subst_vars; decide)

/-- C69: an unknown name of a basis is rejected. -/
theorem C69_unknown_basis_rejected (src : Source F) {po : Option Nat} {s : String} (hs : s ≠ "")
    (h : ∀ bb, (s, bb) ∉ basisNames) (ni : Option Nat) (o : Interp F) : modalInit src po (some s) ni ≠ .ok o := by
  intro ho
  obtain ⟨bb, h1, -⟩ := C69_basis ho
  rcases h1 with ⟨s', he, hm⟩ | ⟨he, -⟩
  · cases he; exact h bb hm
  · rcases he with he | he
    · cases he
    · cases he; exact hs rfl

/-- C69: the components interpolated are those asked for, in that order. -/
theorem C69_components {comp : Comp} {cs : List Nat} (h : Components comp cs) : comp.list = .ok cs := by
  cases h with
  | int c => rfl
  | tuple cs h =>
    cases cs with
    | nil => exact absurd rfl h
    | cons c cs => rfl
  | slice a b h =>
    obtain ⟨k, rfl⟩ : ∃ k, b = a + 1 + k := ⟨b - (a + 1), by omega⟩
    rw [show a + 1 + k - a = k + 1 by omega, List.range'_succ]
    simp [Comp.list]

end

/-! Non-vacuity -/
namespace DgSettingsEx

def src : Source ℚ where
  numDims := 2
  numComps := 8
  grid := []
  values := ⟨[1, 1, 8], []⟩
  polyOrder := some 1
  basisType := some "serendipity"

example : ∃ o, modalInit src none none (some 4) = .ok o ∧ o.numInterp = some 4 ∧ o.basis = "serendipity" ∧
    o.polyOrder = 1 := ⟨_, rfl, rfl, rfl, rfl⟩
example : ∃ o, modalInit src (some 2) (some "mt") none = .ok o ∧ o.numInterp = some 3 ∧ o.basis = "tensor" ∧
    o.polyOrder = 2 := ⟨_, rfl, rfl, rfl, rfl⟩
example : Components (.slice 1 4) [1, 2, 3] := .slice 1 4 (by decide)

end DgSettingsEx
end Pgkyl
