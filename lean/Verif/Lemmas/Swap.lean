import Verif.Lemmas.Commands
/-!
# Commands working in place, one after another
-/

namespace Pgkyl
open Spec

namespace GData
variable {F : Type} [Min F] [Max F]

/-- What a dataset was given before does not matter for what it is given last. -/
theorem push_push {d a r : GData F} {g g' : List (NArr F)} {w w' : NArr F} (h : d.push g w = .ok a)
    (h' : d.push g' w' = .ok r) : a.push g' w' = .ok r := by
  obtain ⟨nc, l, u, -, -, -, rfl⟩ := push_eq_ok h
  obtain ⟨nc', l', u', h1, h2, h3, rfl⟩ := push_eq_ok h'
  rw [push_ok h1 h2 h3]

end GData

namespace Space
variable {F : Type}

/-- Replacing datasets keeps what the store lists. -/
theorem replaces_visited {s s' : Space F} {ids : List Nat} {R : GData F → GData F → Prop} (h : ReplacesResults s ids R s') :
    (s.Inv → s'.Inv) ∧ (∀ use, s'.tagsOf use = s.tagsOf use) ∧ ∀ ts, visited s' ts = visited s ts := by
  have hact : ∀ j, s'.active j = s.active j := by
    intro j
    by_cases hj : j ∈ ids
    · obtain ⟨d, r, h1, h2, -, h4, -⟩ := h.results j hj
      simp only [active, h1, h2, h4]
    · simp only [active, h.others j hj]
  have hlook : ∀ t, s'.lookup t = s.lookup t := fun t => by simp only [lookup, h.lists]
  refine ⟨fun hi => ⟨?_, ?_, ?_⟩, fun use => ?_, fun ts => ?_⟩
  · rw [h.lists, h.length]; exact hi.valid
  · rw [h.lists]; exact hi.ids_nodup
  · simp only [keys, h.lists]; exact hi.keys_nodup
  · unfold tagsOf; rw [h.lists]
  · unfold visited
    simp only [hlook]
    congr 1
    funext t
    congr 1
    funext j
    exact hact j

end Space

namespace Cmd
variable {F : Type} [Min F] [Max F]

/-- A command working in place, told what it computes for each dataset. -/
theorem pushCmd_does {f : GData F → Except Err (List (NArr F) × NArr F)} {s : Space F} (hi : s.Inv) {use : Option Tag}
    (hkeys : ∀ t ∈ s.tagsOf use, t ∈ s.dict.map Prod.fst) (hnd : (s.tagsOf use).Nodup) (label : List Char)
    (goal : GData F → GData F → Prop)
    (hf : ∀ id ∈ visited s (s.tagsOf use), ∀ d, s.heap[id]? = some d → ∃ g w r, f d = .ok (g, w) ∧ d.push g w = .ok r ∧ goal d r) :
    ∃ s', pushCmd f use none label s = .ok s' ∧ ReplacesResults s (visited s (s.tagsOf use)) goal s' := by
  rw [pushCmd_none]
  refine Space.map_replaces hi _ hkeys hnd fun id hid d hd => ?_
  obtain ⟨g, w, r, h1, h2, h3⟩ := hf id hid d hd
  exact ⟨r, by simp only [h1, bind, Except.bind, h2], (push_tag h2).1, (push_tag h2).2.1, h3⟩

/-- `f` and then `f'`, both working in place, make `r` of the dataset `d`. -/
def Leads (f f' : GData F → Except Err (List (NArr F) × NArr F)) (d r : GData F) : Prop :=
  ∃ g₁ w₁ a g w, f d = .ok (g₁, w₁) ∧ d.push g₁ w₁ = .ok a ∧ f' a = .ok (g, w) ∧ d.push g w = .ok r

/-- Two pairs of commands working in place that compute the same in the end for each dataset leave the same store. -/
theorem pushCmd_swap {f₁ f₂ f₃ f₄ : GData F → Except Err (List (NArr F) × NArr F)} {s : Space F} (hi : s.Inv)
    {use : Option Tag} (hkeys : ∀ t ∈ s.tagsOf use, t ∈ s.dict.map Prod.fst) (hnd : (s.tagsOf use).Nodup)
    (l₁ l₂ l₃ l₄ : List Char)
    (h : ∀ id ∈ visited s (s.tagsOf use), ∀ d, s.heap[id]? = some d → ∃ g₁ w₁ a g₂ w₂ b g w r,
      f₁ d = .ok (g₁, w₁) ∧ d.push g₁ w₁ = .ok a ∧ f₂ a = .ok (g, w) ∧
      f₃ d = .ok (g₂, w₂) ∧ d.push g₂ w₂ = .ok b ∧ f₄ b = .ok (g, w) ∧ d.push g w = .ok r) :
    ∃ s₁ s₂ s₃, pushCmd f₁ use none l₁ s = .ok s₁ ∧ pushCmd f₂ use none l₂ s₁ = .ok s₂ ∧
      pushCmd f₃ use none l₃ s = .ok s₃ ∧ pushCmd f₄ use none l₄ s₃ = .ok s₂ := by
  have fin : ∀ {f f' : GData F → Except Err (List (NArr F) × NArr F)} (l l' : List Char) (goal : GData F → GData F → Prop),
      (∀ id ∈ visited s (s.tagsOf use), ∀ d, s.heap[id]? = some d → ∃ g₁ w₁ a g w r,
        f d = .ok (g₁, w₁) ∧ d.push g₁ w₁ = .ok a ∧ f' a = .ok (g, w) ∧ d.push g w = .ok r ∧ goal d r) →
      ∃ s₁ s₂, pushCmd f use none l s = .ok s₁ ∧ pushCmd f' use none l' s₁ = .ok s₂ ∧
        ReplacesResults s (visited s (s.tagsOf use)) goal s₂ := by
    intro f f' l l' goal hh
    obtain ⟨s₁, e1, h1⟩ := pushCmd_does hi hkeys hnd l (f := f) (fun d a => ∃ g w r, f' a = .ok (g, w) ∧ a.push g w = .ok r ∧ goal d r)
      (fun id hid d hd => by
        obtain ⟨g₁, w₁, a, g, w, r, k1, k2, k3, k4, k5⟩ := hh id hid d hd
        exact ⟨g₁, w₁, a, k1, k2, g, w, r, k3, GData.push_push k2 k4, k5⟩)
    obtain ⟨v1, v2, v3⟩ := Space.replaces_visited h1
    obtain ⟨s₂, e2, h2⟩ := pushCmd_does (v1 hi) (use := use) (f := f') (by rw [v2, h1.lists]; exact hkeys) (by rw [v2]; exact hnd) l'
      (fun a r => ∀ d, (∃ g w r, f' a = .ok (g, w) ∧ a.push g w = .ok r ∧ goal d r) → goal d r)
      (fun id hid a ha => by
        rw [v2, v3] at hid
        obtain ⟨d, a', k1, k2, -, -, g, w, r, k3, k4, k5⟩ := h1.results id hid
        rw [ha] at k2; cases k2
        refine ⟨g, w, r, k3, k4, fun d' ⟨g', w', r', q1, q2, q3⟩ => ?_⟩
        rw [k3] at q1; cases q1
        rw [k4] at q2; cases q2
        exact q3)
    rw [v2, v3] at h2
    refine ⟨s₁, s₂, e1, e2, fun j hj => by rw [h2.others j hj, h1.others j hj], fun id hid => ?_,
      by rw [h2.length, h1.length], by rw [h2.lists, h1.lists]⟩
    obtain ⟨d, a, k1, k2, k3, k4, k5⟩ := h1.results id hid
    obtain ⟨a', r, q1, q2, q3, q4, q5⟩ := h2.results id hid
    rw [k2] at q1; cases q1
    exact ⟨d, r, k1, q2, q3.trans k3, q4.trans k4, q5 d k5⟩
  have hdet : ∀ d r r', Leads f₁ f₂ d r → Leads f₁ f₂ d r' → r = r' := by
    rintro d r r' ⟨g₁, w₁, a, g, w, k1, k2, k3, k4⟩ ⟨g₁', w₁', a', g', w', q1, q2, q3, q4⟩
    rw [k1] at q1; cases q1
    rw [k2] at q2; cases q2
    rw [k3] at q3; cases q3
    rw [k4] at q4; cases q4
    rfl
  obtain ⟨s₁, s₂, e1, e2, h2⟩ := fin (f := f₁) (f' := f₂) l₁ l₂ (Leads f₁ f₂) (fun id hid d hd => by
    obtain ⟨g₁, w₁, a, g₂, w₂, b, g, w, r, k1, k2, k3, k4, k5, k6, k7⟩ := h id hid d hd
    exact ⟨g₁, w₁, a, g, w, r, k1, k2, k3, k7, g₁, w₁, a, g, w, k1, k2, k3, k7⟩)
  obtain ⟨s₃, s₄, e3, e4, h4⟩ := fin (f := f₃) (f' := f₄) l₃ l₄ (Leads f₁ f₂) (fun id hid d hd => by
    obtain ⟨g₁, w₁, a, g₂, w₂, b, g, w, r, k1, k2, k3, k4, k5, k6, k7⟩ := h id hid d hd
    exact ⟨g₂, w₂, b, g, w, r, k4, k5, k6, k7, g₁, w₁, a, g, w, k1, k2, k3, k7⟩)
  have : s₂ = s₄ := by
    have hh : s₂.heap = s₄.heap := List.ext_getElem? fun j => by
      by_cases hj : j ∈ visited s (s.tagsOf use)
      · obtain ⟨d, r, k1, k2, -, -, k5⟩ := h2.results j hj
        obtain ⟨d', r', q1, q2, -, -, q5⟩ := h4.results j hj
        rw [k1] at q1; cases q1
        rw [k2, q2, hdet d r r' k5 q5]
      · rw [h2.others j hj, h4.others j hj]
    have hd : s₂.dict = s₄.dict := by rw [h2.lists, h4.lists]
    cases s₂; cases s₄
    simp only at hh hd
    rw [hh, hd]
  exact ⟨s₁, s₂, s₃, e1, e2, e3, this ▸ e4⟩

end Cmd
end Pgkyl
