import Verif.Lemmas.Inputs
import Mathlib.Algebra.Ring.Rat
import Mathlib.Algebra.Order.Ring.Unbundled.Rat
/-!
# C159: what the diagnostics accept
-/

namespace Pgkyl
open Spec Inp

section
variable {F : Type} [Add F] [Sub F] [Mul F] [Div F] [Zero F] [IntCast F] [Min F] [Max F] {x y : Input F} {g g' : PyGrid F}
  {v : NArr F}

/-- **C159.**  A diagnostic given a dataset, an array, or a grid and an array computes what it computes from the values (C40, C41,
C44), returns the grid it was given, and fails only if it fails for these values. -/
theorem C159_values (sqrt : F → F) (t : Tool F) (h : StandsFor x g v) :
    (∀ r, onValues sqrt t v = .ok r → t.run sqrt x none = .ok (g, r, none)) ∧
    ∀ e, onValues sqrt t v = .error e → t.run sqrt x none = .error e := by
  constructor
  · intro r hr
    rw [run_eq (parse_standsFor h), hr]; rfl
  · intro e he
    rw [run_eq (parse_standsFor h), he]; rfl

/-- C159: it does not matter in which of the forms the values are given. -/
theorem C159_same (sqrt : F → F) (t : Tool F) (hx : StandsFor x g v) (hy : StandsFor y g' v) :
    (∀ r, t.run sqrt x none = .ok (g, r, none) ↔ t.run sqrt y none = .ok (g', r, none)) ∧
    ∀ e, t.run sqrt x none = .error e ↔ t.run sqrt y none = .error e := by
  rw [run_eq (parse_standsFor hx), run_eq (parse_standsFor hy)]
  cases onValues sqrt t v with
  | error e => exact ⟨fun r => ⟨fun h => (by cases h), fun h => by cases h⟩, fun e => ⟨fun h => (by cases h; rfl), fun h => by cases h; rfl⟩⟩
  | ok r =>
    refine ⟨fun r => ⟨fun h => (by cases h; rfl), fun h => by cases h; rfl⟩, fun e => ⟨fun h => (by cases h), fun h => by cases h⟩⟩

/-- C159: a dataset given for the output receives the grid of the argument and the result, as `push` stores them. -/
theorem C159_output (sqrt : F → F) (t : Tool F) {l : List (NArr F)} (h : StandsFor x (.list l) v) {o o' : GData F} {r : NArr F} :
    t.run sqrt x (some o) = .ok (.list l, r, some o') ↔ onValues sqrt t v = .ok r ∧ o.push l r = .ok o' := by
  rw [run_eq (parse_standsFor h)]
  cases onValues sqrt t v with
  | error e => exact ⟨fun h => (by cases h), fun h => (by cases h.1)⟩
  | ok r' =>
    rw [ok_bind]
    show (o.push l r' >>= _) = _ ↔ _
    cases hp : o.push l r' with
    | error e =>
      refine ⟨fun h => (by cases h), fun h => ?_⟩
      obtain ⟨h1, h2⟩ := h
      cases h1
      rw [hp] at h2
      cases h2
    | ok o'' =>
      constructor
      · intro h
        cases h
        exact ⟨rfl, hp⟩
      · rintro ⟨h1, h2⟩
        cases h1
        rw [hp] at h2
        cases h2
        rfl

/-- C159: anything else is rejected with an error, whatever the function. -/
theorem C159_rejects (sqrt : F → F) (t : Tool F) (h : ∀ g v, ¬ StandsFor x g v) (out : Option (GData F)) :
    ∃ e, t.run sqrt x out = .error e := by
  cases hp : parse x with
  | error e => exact ⟨e, run_parse sqrt t hp out⟩
  | ok q =>
    obtain ⟨g, w⟩ := q
    cases w with
    | none => exact run_unloaded sqrt t hp out
    | some w => exact absurd (standsFor_of_parse hp) (h g w)

/-- C159: a grid that has neither as many arrays as the values have axes nor one less is a ValueError. -/
theorem C159_misfit (sqrt : F → F) (t : Tool F) {l : List (NArr F)} (h : l.length ≠ v.shape.length)
    (h' : l.length + 1 ≠ v.shape.length) (out : Option (GData F)) :
    t.run sqrt (.pair (.list l) (some v)) out = .error .valueError :=
  run_parse sqrt t (by simp only [parse]; rw [if_pos ⟨h, h'⟩]) out

/-- The pressures along and across the field, and the agyrotropy: the grid is that of the field. -/
theorem C159_pressures {p_in b_in : Input F} {gp gb : PyGrid F} {p b : NArr F} (hp : StandsFor p_in gp p) (hb : StandsFor b_in gb b)
    (sqrt : F → F) (measure : List Char) (q : PyGrid F) (r : NArr F) :
    (Inp.getPPar p_in b_in = .ok (q, r) ↔ q = gb ∧ Tools.getPPar p b = .ok r) ∧
    (Inp.getPPerp p_in b_in = .ok (q, r) ↔ q = gb ∧ Tools.getPPerp p b = .ok r) ∧
    (Inp.getAgyro sqrt measure p_in b_in = .ok (q, r) ↔ q = gb ∧ Tools.getAgyro sqrt p b measure = .ok r) := by
  have h1 := parse_standsFor hp
  have h2 := parse_standsFor hb
  refine ⟨?_, ?_, getAgyro_ok h1 h2⟩
  · rw [getPPar_eq h1 h2]
    cases Tools.getPPar p b with
    | error e => exact ⟨fun h => (by cases h), fun h => (by cases h.2)⟩
    | ok s => exact ⟨fun h => (by cases h; exact ⟨rfl, rfl⟩), fun h => by obtain ⟨rfl, h⟩ := h; cases h; rfl⟩
  · rw [getPPerp_eq h1 h2]
    cases Tools.getPPerp p b with
    | error e => exact ⟨fun h => (by cases h), fun h => (by cases h.2)⟩
    | ok s => exact ⟨fun h => (by cases h; exact ⟨rfl, rfl⟩), fun h => by obtain ⟨rfl, h⟩ := h; cases h; rfl⟩

/-- C159 for the ten-moment diagnostics, in part: for datasets, or pairs, with grids that fit.  What `f` computes is stated by
`C159_pressures`. -/
theorem C159_tenMoment_partial (f : Input F → Input F → Except Err (PyGrid F × NArr F)) {species field : Input F}
    {l m : List (NArr F)} {s w : NArr F} (hs : StandsFor species (.list l) s) (hw : StandsFor field (.list m) w)
    (hl : l.length = s.shape.length ∨ l.length + 1 = s.shape.length)
    (hm : m.length = w.shape.length ∨ m.length + 1 = w.shape.length) {p b : NArr F} (hp : Tools.getPij s = .ok p)
    (hb : w.comps 3 6 = .ok b) :
    ∃ pIn bIn, StandsFor pIn (.list l) p ∧ StandsFor bIn (.list m) b ∧ Inp.tenMoment f species field = f pIn bIn := by
  refine ⟨.pair (.list l) (some p), .pair (.list m) (some b), .pair ?_, .pair ?_, ?_⟩
  · rw [getPij_axes hp]; exact hl
  · rw [comps_axes hb]; exact hm
  · unfold Inp.tenMoment
    rw [getPij_eq (parse_standsFor hs), call_eq (parse_standsFor hs), hp, ok_bind, parse_standsFor hw]
    simp only [need, ok_bind, hb]

/-- C159 fails for the ten-moment diagnostics: arrays, which all other functions accept, are rejected. -/
theorem C159_tenMoment_fails (sqrt : F → F) (measure : List Char) {species field : Input F} {gs gw : PyGrid F} {s w : NArr F}
    (hs : StandsFor species gs s) (hw : StandsFor field gw w) (h : species = .array s ∨ field = .array w) :
    (∃ e, Inp.tenMoment Inp.getPPar species field = .error e) ∧ (∃ e, Inp.tenMoment Inp.getPPerp species field = .error e) ∧
    ∃ e, Inp.tenMoment (Inp.getAgyro sqrt measure) species field = .error e := by
  have key : ∀ f : Input F → Input F → Except Err (PyGrid F × NArr F),
      (∀ p b, ∃ e, f (.pair gs (some p)) (.pair gw (some b)) = .error e) → ∃ e, Inp.tenMoment f species field = .error e := by
    intro f hf
    unfold Inp.tenMoment
    rw [getPij_eq (parse_standsFor hs), call_eq (parse_standsFor hs)]
    cases Tools.getPij s with
    | error e => exact ⟨e, rfl⟩
    | ok p =>
      rw [ok_bind, parse_standsFor hw]
      simp only [need, ok_bind]
      cases w.comps 3 6 with
      | error e => exact ⟨e, rfl⟩
      | ok b => exact hf p b
  have hg : gs = .empty ∨ gw = .empty := by
    rcases h with rfl | rfl
    · cases hs; exact .inl rfl
    · cases hw; exact .inr rfl
  have par : ∀ p b, ∃ e, Inp.getPPar (.pair gs (some p)) (.pair gw (some b)) = .error e := by
    intro p b
    unfold Inp.getPPar
    rcases hg with rfl | rfl
    · exact ⟨.typeError, rfl⟩
    · cases parse (.pair gs (some p)) with
      | error e => exact ⟨e, rfl⟩
      | ok q => exact ⟨.typeError, rfl⟩
  refine ⟨key _ par, key _ fun p b => ?_, key _ fun p b => ?_⟩
  · obtain ⟨e, he⟩ := par p b
    cases hq : Inp.getPPerp (.pair gs (some p)) (.pair gw (some b)) with
    | error e => exact ⟨e, rfl⟩
    | ok q =>
      unfold Inp.getPPerp at hq
      iterate 5 obtain ⟨_, -, hq⟩ := bind_ok hq
      obtain ⟨_, hq', -⟩ := bind_ok hq
      rw [he] at hq'
      cases hq'
  · unfold Inp.getAgyro
    rcases hg with rfl | rfl
    · exact ⟨.typeError, rfl⟩
    · cases parse (.pair gs (some p)) with
      | error e => exact ⟨e, rfl⟩
      | ok q => exact ⟨.typeError, rfl⟩

end

namespace InputsEx

/-- Two cells of a fluid with five moments. -/
def v : NArr ℚ := ⟨[2, 5], [1, 2, 3, 4, 50, 2, 2, 0, 0, 7]⟩

/-- The dataset, the array and the pairs that stand for them, and pairs that stand for nothing. -/
example : StandsFor (.gdata { grid := some [NArr.ofList [0, 1, 2]], values := some v }) (.list [NArr.ofList [0, 1, 2]]) v ∧
    StandsFor (.array v) .empty v ∧ StandsFor (.pair (.list [NArr.ofList [0, 1, 2]]) (some v)) (.list [NArr.ofList [0, 1, 2]]) v ∧
    (∀ g w, ¬ StandsFor (.pair (.list []) (some v)) g w) ∧ (∀ g w, ¬ StandsFor (F := ℚ) .other g w) ∧
    (onValues _root_.id (.velocity 1) v).toOption = some ⟨[2, 1], [2, 1]⟩ := by
  refine ⟨.dataset rfl rfl, .array v, .pair (by decide), ?_, ?_, by decide +kernel⟩
  · intro g w h
    cases h with
    | pair h => revert h; decide
  · intro g w h
    cases h

/-- The hypotheses of the statements on ten moments are met. -/
example : let s : NArr ℚ := ⟨[1, 10], [1, 2, 3, 4, 50, 6, 7, 80, 9, 100]⟩
    let w : NArr ℚ := ⟨[1, 6], [0, 0, 0, 1, 2, 3]⟩
    StandsFor (.pair (.list [NArr.ofList [0, 1]]) (some s)) (.list [NArr.ofList [0, 1]]) s ∧
    (∃ p, Tools.getPij s = .ok p) ∧ ∃ b, w.comps 3 6 = .ok b := by
  refine ⟨.pair (by decide), ?_, _, rfl⟩
  have : (Tools.getPij (⟨[1, 10], [1, 2, 3, 4, 50, 6, 7, 80, 9, 100]⟩ : NArr ℚ)).toOption.isSome = true := by decide +kernel
  obtain ⟨p, hp⟩ := Option.isSome_iff_exists.1 this
  refine ⟨p, ?_⟩
  revert hp
  cases Tools.getPij (⟨[1, 10], [1, 2, 3, 4, 50, 6, 7, 80, 9, 100]⟩ : NArr ℚ) with
  | error e => intro h; cases h
  | ok q => intro h; cases h; rfl

end InputsEx
end Pgkyl
