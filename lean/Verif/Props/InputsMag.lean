import Mathlib.Algebra.Ring.Rat
import Mathlib.Algebra.Order.Ring.Unbundled.Rat
import Verif.Lemmas.Inputs
import Verif.Model.InputsMag
/-!
# C159 for `get_magB` and `accumulate_current`
-/

namespace Pgkyl
open Spec Inp

variable {F : Type} [Min F] [Max F] [Add F] [Sub F] [Mul F] [Div F] [Zero F] [IntCast F] {x : Input F}

/-- C159 for `get_magB`, in part: for datasets, or pairs, with a grid that fits, the square root of the sum of the squares of the
components 3, 4 and 5, and the grid of the argument. -/
theorem C159_magB_partial (sqrt : F → F) {l : List (NArr F)} {v b : NArr F} (h : StandsFor x (.list l) v)
    (hl : l.length = v.shape.length ∨ l.length + 1 = v.shape.length) (hb : v.comps 3 6 = .ok b) :
    (∀ m, Tools.magSq b = .ok m → getMagB sqrt x = .ok (.list l, m.map1 sqrt)) ∧
      ∀ e, Tools.magSq b = .error e → getMagB sqrt x = .error e := by
  have hp : parse (.pair (.list l) (some b)) = .ok (.list l, some b) := by
    refine parse_standsFor (.pair ?_)
    rw [comps_axes hb]
    exact hl
  unfold getMagB
  rw [parse_standsFor h]
  simp only [need, ok_bind, hb]
  rw [magSq_eq hp]
  constructor
  · intro m hm
    have hm : Tools.magSq b "0:3".toList = .ok m := hm
    rw [hm]
    rfl
  · intro e he
    have he : Tools.magSq b "0:3".toList = .error e := he
    rw [he]
    rfl

omit [Sub F] [Div F] [IntCast F] in
/-- C159 fails for `get_magB`: arrays, which the other functions accept, are rejected, and so are datasets whose grid does not
fit. -/
theorem C159_magB_fails (sqrt : F → F) :
    (∀ v : NArr F, ∃ e, getMagB sqrt (.array v) = .error e) ∧
    ∀ (d : GData F) (l : List (NArr F)) (v : NArr F), d.grid = some l → d.values = some v → l.length ≠ v.shape.length →
      l.length + 1 ≠ v.shape.length → ∃ e, getMagB sqrt (.gdata d) = .error e := by
  constructor
  · intro v
    unfold getMagB
    rw [parse_standsFor (.array v)]
    simp only [need, ok_bind]
    cases v.comps 3 6 with
    | error e => exact ⟨e, rfl⟩
    | ok b => exact ⟨.typeError, rfl⟩
  · intro d l v hg hv h1 h2
    unfold getMagB
    rw [parse_standsFor (.dataset hg hv)]
    simp only [need, ok_bind]
    cases hb : v.comps 3 6 with
    | error e => exact ⟨e, rfl⟩
    | ok b =>
      refine ⟨.valueError, ?_⟩
      have hp : parse (.pair (.list l) (some b)) = .error .valueError := by
        rw [← comps_axes hb] at h1 h2
        simp only [parse]
        rw [if_pos ⟨h1, h2⟩]
      simp only [ok_bind, magSq, hp]
      rfl

omit [Min F] [Max F] [Add F] [Sub F] [Div F] [Zero F] [IntCast F] in
/-- C159, `accumulate_current`: a dataset, an array and a pair give the values times minus one, with the grid they come with. -/
theorem C159_current (negOne : F) {g : PyGrid F} {v : NArr F} (h : StandsFor x g v) :
    accumulateCurrent negOne false x = .ok (g, v.map1 (negOne * ·)) := by
  unfold accumulateCurrent
  rw [parse_standsFor h]
  rfl

omit [Min F] [Max F] [Add F] [Sub F] [Div F] [Zero F] [IntCast F] in
/-- C159 fails for `accumulate_current(..., qbym=True)`: nothing is accepted. -/
theorem C159_current_qbym_fails (negOne : F) (x : Input F) : ∃ e, accumulateCurrent negOne true x = .error e := by
  unfold accumulateCurrent
  cases parse x with
  | error e => exact ⟨e, rfl⟩
  | ok p => exact ⟨.attributeError, rfl⟩

/-- Two cells with electric field 0 and magnetic field (3, 0, 4), (0, 5, 0). -/
example :
    let v : NArr ℚ := ⟨[2, 6], [0, 0, 0, 3, 0, 4, 0, 0, 0, 0, 5, 0]⟩
    let b : NArr ℚ := ⟨[2, 3], [3, 0, 4, 0, 5, 0]⟩
    StandsFor (.pair (.list [NArr.ofList [0, 1, 2]]) (some v)) (.list [NArr.ofList [0, 1, 2]]) v ∧
      (v.comps 3 6).toOption = some b ∧ (Tools.magSq b).toOption = some ⟨[2, 1], [25, 25]⟩ := by
  refine ⟨.pair (.inr rfl), by decide +kernel, by decide +kernel⟩

end Pgkyl
